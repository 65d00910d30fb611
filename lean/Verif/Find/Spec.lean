/-
Specification of the lookup of an object's address in the table of waiters (C29).

A table is an array of addresses; entries `0 … size-1` are in use and later entries are
spare.  A lookup answers with a position; positions `size` and above all mean "not found"
(this is how `wait_state_list::find` uses the result, src/lock_pool.cpp:293-295).
-/

namespace Verif.Find

/-- The position `r` is the right answer to looking up `addr` among the first `size`
entries of `tbl`: if `r` names an entry in use, that entry holds `addr` and no earlier one
does; otherwise no entry in use holds `addr`. -/
def Answer {w : Nat} (tbl : Nat → BitVec w) (size : Nat) (addr : BitVec w) (r : Nat) : Prop :=
  (r < size → tbl r = addr ∧ ∀ j, j < r → tbl j ≠ addr) ∧
  (size ≤ r → ∀ j, j < size → tbl j ≠ addr)

/-- Two answers say the same thing: both "not found", or the same entry. -/
def SameAnswer (size r₁ r₂ : Nat) : Prop :=
  (size ≤ r₁ ∧ size ≤ r₂) ∨ (r₁ = r₂ ∧ r₁ < size)

end Verif.Find
