import Verif.Asm.Ops

/-
Calls of the operations on x86.
-/

namespace Verif.Asm.X86

variable {R N : Nat}

/-- A call: the operation; whether the compiler knows the argument to be a constant
(`BOOST_ATOMIC_DETAIL_IS_CONSTANT`, config.hpp), and whether the memory order is `memory_order_seq_cst`, on which the
choice of the block may depend. -/
structure Call (N : Nat) where
  op : Integral.Op N
  const : Bool
  seqCst : Bool

/-- An atomic object of `N` bits at any address and with any initial value is linearizable: all
histories of concurrent calls are explained by `Integral.spec`. -/
def Atomic (code : Call N → Code R N (Integral.Ret N)) : Prop :=
  ∀ (base : BitVec R) (v₀ : BitVec N), base ≠ 0 →
    (Asm.machine code base).IsLinearizable (fun s c s' r => Integral.spec s c.op s' r) ⟨v₀, 0⟩ v₀

end Verif.Asm.X86
