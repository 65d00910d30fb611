import Verif.Chrono.Model

/-! Helper lemmas about truncating division and conversions. -/

namespace Verif.Chrono

theorem tdiv_tmod (a b : Int) : b * a.tdiv b + a.tmod b = a := Int.mul_tdiv_add_tmod a b

theorem tmod_bounds (a : Int) {b : Int} (hb : 0 < b) : -b < a.tmod b ∧ a.tmod b < b :=
  ⟨by have := Int.lt_tmod_of_pos a hb; omega, Int.tmod_lt_of_pos a hb⟩

theorem tmod_sign (a : Int) {b : Int} : (0 ≤ a → 0 ≤ a.tmod b) ∧ (a ≤ 0 → a.tmod b ≤ 0) := by
  refine ⟨fun h => Int.tmod_nonneg b h, fun h => ?_⟩
  have := Int.tmod_nonneg (a := -a) b (by omega)
  rw [Int.neg_tmod] at this
  omega

theorem tdiv_bounds (a : Int) {b : Int} (hb : 0 < b) :
    ∃ q r, a.tdiv b = q ∧ a.tmod b = r ∧ b * q + r = a ∧ -b < r ∧ r < b ∧ (0 ≤ a → 0 ≤ r) ∧ (a ≤ 0 → r ≤ 0) :=
  ⟨_, _, rfl, rfl, tdiv_tmod a b, (tmod_bounds a hb).1, (tmod_bounds a hb).2, (tmod_sign a).1, (tmod_sign a).2⟩

theorem cast_eq {w : Nat} (hw : 0 < w) {x : Int} (h : Fits w x) : cast w x = x := by
  rw [cast, BitVec.toInt_ofInt]
  obtain ⟨h1, h2⟩ := h
  have e : (2 ^ w : Nat) = 2 * 2 ^ (w - 1) := by
    rw [← Nat.pow_succ']; congr 1; omega
  have e' : ((2 ^ (w - 1) : Nat) : Int) = 2 ^ (w - 1) := by simp
  rw [e]
  apply Int.bmod_eq_of_le <;> omega

end Verif.Chrono
