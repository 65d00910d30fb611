import Verif.Integral.Spec

/-!
What users may rely on when a double-width object is accessed with a load-exclusive of two registers that is not
indivisible by itself: everything but the value a *failed* compare-exchange leaves in `expected`.
-/

namespace Verif.Pair

open Verif.Integral (Op Ret)

/-- As `Integral.spec`, except that a failed compare-exchange may leave anything in `expected`.  (The strong form still
fails only if the object holds something else than the expected value.) -/
def looseSpec {N : Nat} : SeqSpec (BitVec N) (Op N) (Ret N)
  | s, .casWeak e d, s', r => (s = e ∧ s' = d ∧ r = .cas true e) ∨ (s' = s ∧ ∃ x, r = .cas false x)
  | s, .casStrong e d, s', r => (s = e ∧ s' = d ∧ r = .cas true e) ∨ (s ≠ e ∧ s' = s ∧ ∃ x, r = .cas false x)
  | s, op, s', r => Integral.spec s op s' r

end Verif.Pair
