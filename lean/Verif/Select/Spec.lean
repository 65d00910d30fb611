/-
Vocabulary for the statements about the selection of an implementation: guarantees of the ABI,
of the compiler's macros, and the effect of an operation on memory.  Nothing here refers to how
the library selects anything.
-/

namespace Verif.Select.Spec

/-- An alignment a C++ type of the given size can have: positive and a divisor of the size
(`[expr.sizeof]`, `[dcl.array]`: consecutive array elements are all aligned). -/
def ValidAlign (size align : Nat) : Prop := 0 < align ∧ align ∣ size

/-- `n` is the smallest power of two that is not less than `size`. -/
def LeastPow2 (size n : Nat) : Prop :=
  (∃ k, n = 2 ^ k) ∧ size ≤ n ∧ ∀ k, size ≤ 2 ^ k → n ≤ 2 ^ k

/-- Memory by byte address. -/
abbrev Mem := Nat → BitVec 8

/-- An operation that accesses exactly the `n` bytes at `addr`: it replaces them by a function of
their old contents and returns a function of their old contents. -/
def Mem.access {ρ : Type} (m : Mem) (addr n : Nat)
    (f : (Fin n → BitVec 8) → (Fin n → BitVec 8) × ρ) : Mem × ρ :=
  let old : Fin n → BitVec 8 := fun i => m (addr + i)
  (fun a => if h : addr ≤ a ∧ a - addr < n then (f old).1 ⟨a - addr, h.2⟩ else m a, (f old).2)

end Verif.Select.Spec
