import Verif.Pool.Model

/-
Specification for C70: what an initialiser list of an array means in C++, and what it takes for
objects to be on different cache lines.
-/

namespace Verif.Pool

/-- `IsList n ts`: the tokens are a braced list of `n` initialisers separated by commas (a comma
after the last one, which C++ allows, does not occur in this code). -/
inductive IsList : Nat → List Token → Prop where
  | one : IsList 1 [.init]
  | cons {n : Nat} {ts : List Token} : IsList n ts → IsList (n + 1) (.init :: .comma :: ts)

/-- The array elements that have an initialiser of their own are the first `n`; the others are
zero initialised, which is not the unlocked state on every system.  All elements of an array of
`size` elements are initialised, and the list is not too long for the array. -/
def Complete (size : Nat) (ts : List Token) : Prop := IsList size ts

/-- The cache lines that an object of `size` bytes at `a` touches. -/
def touches (line a size l : Nat) : Prop := ∃ k, k < size ∧ (a + k) / line = l

end Verif.Pool
