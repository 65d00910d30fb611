import Verif.Asm.System
import Verif.Integral.Spec

/-
The operations of an atomic object in terms of the functions that contain assembly.
-/

namespace Verif.Asm

variable {R N : Nat}

/-- A load of a `storage_type volatile` object that a core can read at once: a single load instruction
(`storage_type v = storage`, core_arch_ops_gcc_arm.hpp 77–82, 343–348, 737–742).  The instruction is chosen by the compiler. -/
def plainLoad (R N : Nat) : Fn R N Unit (Integral.Ret N) where
  block := {
    prog := [.load 1 .plain true [0] fun m => [m.setWidth R]]
    opnds := [(0, .out), (1, .input)]
    addr := [1]
    results := [0] }
  args _ _ := True
  ret _ r := .val ((r 0).setWidth N)

/-- A store to a `storage_type volatile` object that a core can write at once: a single store
instruction (`storage = v`, core_arch_ops_gcc_arm.hpp 70–75, 336–341, 730–735). -/
def plainStore (R N : Nat) : Fn R N (BitVec N) (Integral.Ret N) where
  block := {
    prog := [.store 0 [1] fun | [v] => v.setWidth N | _ => 0]
    opnds := [(0, .input), (1, .input)]
    addr := [0]
    results := [] }
  args a x := (x 1).setWidth N = a
  ret _ _ := .unit

/-- The functions of a back end from which the operations of the API are made. -/
structure Prims (R N : Nat) where
  load : Code R N (Integral.Ret N)
  store : BitVec N → Code R N (Integral.Ret N)
  exchange : BitVec N → Code R N (Integral.Ret N)
  casWeak : BitVec N → BitVec N → Code R N (Integral.Ret N)
  casStrong : BitVec N → BitVec N → Code R N (Integral.Ret N)
  fetchAdd : BitVec N → Code R N (Integral.Ret N)
  fetchSub : BitVec N → Code R N (Integral.Ret N)
  fetchAnd : BitVec N → Code R N (Integral.Ret N)
  fetchOr : BitVec N → Code R N (Integral.Ret N)
  fetchXor : BitVec N → Code R N (Integral.Ret N)
  fetchNegate : Code R N (Integral.Ret N)
  fetchComplement : Code R N (Integral.Ret N)
  add : BitVec N → Code R N (Integral.Ret N)
  sub : BitVec N → Code R N (Integral.Ret N)
  negate : Code R N (Integral.Ret N)
  bitwiseAnd : BitVec N → Code R N (Integral.Ret N)
  bitwiseOr : BitVec N → Code R N (Integral.Ret N)
  bitwiseXor : BitVec N → Code R N (Integral.Ret N)
  bitwiseComplement : Code R N (Integral.Ret N)

/-- The value returned by a function. -/
def value : Integral.Ret N → BitVec N
  | .val v => v
  | _ => 0

/-- `!!` of the value returned by a function. -/
def test (r : Integral.Ret N) : Integral.Ret N := .flag (value r != 0)

/-- `!!(old_val & mask)`, extra_ops_generic.hpp 178, 186, 194. -/
def testBit (mask : BitVec N) (r : Integral.Ret N) : Integral.Ret N := .flag (value r &&& mask != 0)

/-- The new value, computed from the old one that a function returns, extra_ops_generic.hpp 65–88, 96–101. -/
def newVal (f : BitVec N → BitVec N) (r : Integral.Ret N) : Integral.Ret N := .val (f (value r))

/-- Discard the result. -/
def discard (_ : Integral.Ret N) : Integral.Ret N := .unit

/-- The mask of the bit operations, `1 << bit_number`, extra_ops_generic.hpp 175–176. -/
def bit (b : Fin N) : BitVec N := 1#N <<< b.val

/-- All operations.  The `opaque_*` functions discard the result of `fetch_*` if `viaFetch`
(extra_ops_gcc_arm.hpp 45–53, extra_ops_gcc_ppc.hpp 43–51, extra_ops_generic.hpp 103–131), and of the
functions that return the new value otherwise (extra_ops_gcc_aarch32.hpp 46–79,
extra_ops_gcc_aarch64.hpp 48–81).  The `*_and_test` functions test the new value
(extra_ops_gcc_arm.hpp 55–88, extra_ops_gcc_aarch32.hpp 81–114, …), and the `bit_test_and_*` functions are those of
extra_ops_generic.hpp 173–196. -/
def Prims.code (p : Prims R N) (viaFetch : Bool) : Integral.Op N → Code R N (Integral.Ret N)
  | .load => p.load
  | .store v => p.store v
  | .exchange v => p.exchange v
  | .casWeak e d => p.casWeak e d
  | .casStrong e d => p.casStrong e d
  | .fetchAdd v => p.fetchAdd v
  | .fetchSub v => p.fetchSub v
  | .fetchAnd v => p.fetchAnd v
  | .fetchOr v => p.fetchOr v
  | .fetchXor v => p.fetchXor v
  | .fetchNegate => p.fetchNegate
  | .fetchComplement => p.fetchComplement
  | .add v => p.add v
  | .sub v => p.sub v
  | .negate => p.negate
  | .bitwiseAnd v => p.bitwiseAnd v
  | .bitwiseOr v => p.bitwiseOr v
  | .bitwiseXor v => p.bitwiseXor v
  | .bitwiseComplement => p.bitwiseComplement
  | .opaqueAdd v => (if viaFetch then p.fetchAdd v else p.add v).map discard
  | .opaqueSub v => (if viaFetch then p.fetchSub v else p.sub v).map discard
  | .opaqueNegate => (if viaFetch then p.fetchNegate else p.negate).map discard
  | .opaqueAnd v => (if viaFetch then p.fetchAnd v else p.bitwiseAnd v).map discard
  | .opaqueOr v => (if viaFetch then p.fetchOr v else p.bitwiseOr v).map discard
  | .opaqueXor v => (if viaFetch then p.fetchXor v else p.bitwiseXor v).map discard
  | .opaqueComplement => (if viaFetch then p.fetchComplement else p.bitwiseComplement).map discard
  | .addAndTest v => (p.add v).map test
  | .subAndTest v => (p.sub v).map test
  | .negateAndTest => p.negate.map test
  | .andAndTest v => (p.bitwiseAnd v).map test
  | .orAndTest v => (p.bitwiseOr v).map test
  | .xorAndTest v => (p.bitwiseXor v).map test
  | .complementAndTest => p.bitwiseComplement.map test
  | .bitTestAndSet b => (p.fetchOr (bit b)).map (testBit (bit b))
  | .bitTestAndReset b => (p.fetchAnd (~~~ bit b)).map (testBit (bit b))
  | .bitTestAndComplement b => (p.fetchXor (bit b)).map (testBit (bit b))

/-- The operations except compare-and-exchange with arguments that do not satisfy `P`. -/
def CasIf (P : BitVec N → BitVec N → Prop) : Integral.Op N → Prop
  | .casWeak e d => P e d
  | .casStrong e d => P e d
  | _ => True

/-- A call: the operation, and whether its memory order includes acquire (for a load) or release (for a
store), on which the choice of the block may depend. -/
structure Call (P : BitVec N → BitVec N → Prop) where
  op : Integral.Op N
  ordered : Bool
  ok : CasIf P op

/-- An object of `N` bits at the address `base`, on which any number of calls of the operations run
concurrently on any number of cores, instruction by instruction. -/
def opsMachine (p : Bool → Prims R N) (viaFetch : Bool) (P : BitVec N → BitVec N → Prop) (base : BitVec R) :
    Machine (Cell N) (Call P) (Integral.Ret N) :=
  Asm.machine (fun c => (p c.ordered).code viaFetch c.op) base

/-- The specification, for calls. -/
def callSpec (P : BitVec N → BitVec N → Prop) : SeqSpec (BitVec N) (Call P) (Integral.Ret N) :=
  fun s c s' r => Integral.spec s c.op s' r

/-- No condition on the arguments of compare-and-exchange. -/
abbrev anyCas : BitVec N → BitVec N → Prop := fun _ _ => True

/-- The specification of an object whose failing compare-and-exchange may report any value: as
`Integral.spec`, but a compare-and-exchange may also fail with any value `v` in place of the value of the
object, the strong one only if the object differs from the expected value. -/
def looseSpec : SeqSpec (BitVec N) (Integral.Op N) (Integral.Ret N) := fun s op s' r =>
  Integral.spec s op s' r ∨
  match op with
  | .casWeak _ _ => s' = s ∧ ∃ v, r = .cas false v
  | .casStrong e _ => s ≠ e ∧ s' = s ∧ ∃ v, r = .cas false v
  | _ => False

/-- As `Atomic`, except that a failing compare-and-exchange may report any value. -/
def LooseAtomic (p : Bool → Prims R N) (viaFetch : Bool) : Prop :=
  ∀ (base : BitVec R) (v₀ : BitVec N), base ≠ 0 →
    (opsMachine p viaFetch anyCas base).IsLinearizable (fun s c s' r => looseSpec s c.op s' r) ⟨v₀, 0⟩ v₀

/-- An atomic object of `N` bits at any address and with any initial value is linearizable: all
histories of concurrent calls are explained by `Integral.spec`. -/
def Atomic (p : Bool → Prims R N) (viaFetch : Bool) (P : BitVec N → BitVec N → Prop) : Prop :=
  ∀ (base : BitVec R) (v₀ : BitVec N), base ≠ 0 →
    (opsMachine p viaFetch P base).IsLinearizable (callSpec P) ⟨v₀, 0⟩ v₀

end Verif.Asm
