import Verif.Mca.Model

/-
Values in the executions of `Verif.Mca`, and the operations on objects that are used with `memory_order_seq_cst` only.
-/

namespace Verif.Mca

open Verif.Order

/-- The item is a seq_cst operation with accepted orders (for a failed compare-and-exchange, the order of the failure
too).  Not included are `exchange`, `test_and_set` and the store of wide objects of core_ops_gcc_sync.hpp (see C19), and failed
compare-and-exchange operations of core_ops_linux_arm.hpp (findings). -/
def Item.isSeqCst : Item → Bool
  | .op b k o _ _ => k.isSeqCst o && k.accepts o && !scBroken b k
  | .exchange b o _ _ => !b.isSync && o == .seqCst
  | .clear _ o _ => o == .seqCst
  | _ => false

/-- The item is a fence, which accesses no variable. -/
def Item.isFence : Item → Bool
  | .fence _ _ => true
  | _ => false

namespace Run

variable {cpu : Cpu} (R : Run cpu)

/-- The values written, and the initial ones. -/
structure Values where
  val : Pos → Nat
  init : Nat → Nat

/-- The value a read delivers. -/
def Values.of (V : Values) (l : Nat) : Option Pos → Nat
  | none => V.init l
  | some w => V.val w

/-- The write `c` puts back what `r` read: the interlocked functions by which core_ops_windows.hpp:77–80 loads, the
`cmpxchg8b` and `cmpxchg16b` by which two words are loaded on x86 (core_arch_ops_gcc_x86.hpp:550–640, 988–1034,
core_arch_ops_msvc_x86.hpp:629–655, 844–854), and the loop of load and store-conditional which loads 16 bytes on AArch64
(core_arch_ops_gcc_aarch64.hpp:1737–1774). -/
def CopyOf (r c : Pos) : Prop := R.Paired r c ∧ ∃ x, R.Is c x ∧ x.ins.pub = false

/-- A write that is not the modification of an operation writes what was read. -/
def Copies (V : Values) : Prop :=
  ∀ r c x, R.CopyOf r c → R.Is c x → ∃ s, R.ReadsFrom r s ∧ V.val c = V.of x.loc s

/-- What the program observes of its operations on the objects `A`. -/
def observations (V : Values) (A : Nat → Prop) : Observations where
  Op := { id : OpId // ∃ it, (R.prog id.1)[id.2]? = some it ∧ A it.loc ∧ it.isFence = false }
  earlier a b := a.1.1 = b.1.1 ∧ a.1.2 < b.1.2
  obj a := (((R.prog a.1.1)[a.1.2]?).map Item.loc).getD 0
  result a v := ∃ r it s, (R.prog a.1.1)[a.1.2]? = some it ∧ R.Ret a.1 r ∧ R.ReadsFrom r s ∧ v = V.of it.loc s
  stored a v := ∃ w, R.Pub a.1 w ∧ v = V.val w
  init := V.init

end Run
end Verif.Mca
