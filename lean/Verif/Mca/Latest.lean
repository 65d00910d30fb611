import Verif.Mca.Lemmas

/-! Helper lemmas: the moment by which a thread has made its first accesses. -/

namespace Verif.Mca

open Verif.Order

namespace Run

variable {cpu : Cpu}

/-- The latest moment of an access among the first `i` instructions of a thread, plus one. -/
def latest (R : Run cpu) (t : Nat) : Nat → Nat
  | 0 => 0
  | i + 1 => max (latest R t i) (match (R.code t)[i]? with
    | none => 0
    | some x => max (if x.ins.rd then R.time (t, i) .rd + 1 else 0) (if x.ins.wr then R.time (t, i) .wr + 1 else 0))

theorem lt_latest {R : Run cpu} {e : Pos} {p : Part} (h : R.Has e p) :
    ∀ {i}, e.2 < i → R.time e p < latest R e.1 i := by
  obtain ⟨x, hx, hp⟩ := h
  intro i hi
  induction i with
  | zero => omega
  | succ i ih =>
    rw [latest]
    rcases Nat.lt_or_eq_of_le (Nat.lt_succ_iff.1 hi) with h | h
    · have := ih h; omega
    · subst h
      have hx : (R.code e.1)[e.2]? = some x := hx
      rw [hx]
      have he : ((e.1, e.2) : Pos) = e := rfl
      cases p <;> simp only [Instr.has] at hp <;> simp only [hp, if_true, he] <;> omega

theorem of_lt_latest {R : Run cpu} {t T : Nat} :
    ∀ {i}, T < latest R t i → ∃ e p, R.Has e p ∧ e.1 = t ∧ e.2 < i ∧ T ≤ R.time e p := by
  intro i
  induction i with
  | zero => intro h; simp [latest] at h
  | succ i ih =>
    intro h
    rw [latest] at h
    rcases Nat.lt_or_ge T (latest R t i) with h' | h'
    · obtain ⟨e, p, h1, h2, h3, h4⟩ := ih h'
      exact ⟨e, p, h1, h2, by omega, h4⟩
    · cases hx : (R.code t)[i]? with
      | none => rw [hx] at h; simp only at h; omega
      | some x =>
        rw [hx] at h
        simp only at h
        by_cases hr : x.ins.rd = true
        · by_cases hlt : T < R.time (t, i) .rd + 1
          · exact ⟨(t, i), .rd, ⟨x, hx, hr⟩, rfl, by simp, by omega⟩
          · by_cases hw : x.ins.wr = true
            · exact ⟨(t, i), .wr, ⟨x, hx, hw⟩, rfl, by simp, by simp [hr, hw] at h; omega⟩
            · simp [hr, hw] at h; omega
        · by_cases hw : x.ins.wr = true
          · exact ⟨(t, i), .wr, ⟨x, hx, hw⟩, rfl, by simp, by simp [hr, hw] at h; omega⟩
          · simp [hr, hw] at h; omega

theorem latest_le {R : Run cpu} {t i T : Nat} (h : ∀ e p, R.Has e p → e.1 = t → e.2 < i → R.time e p < T) :
    latest R t i ≤ T := by
  apply Nat.le_of_not_lt
  intro hlt
  obtain ⟨e, p, h1, h2, h3, h4⟩ := of_lt_latest hlt
  have := h e p h1 h2 h3
  omega

theorem latest_mono {R : Run cpu} {t i j : Nat} (h : i ≤ j) : latest R t i ≤ latest R t j := by
  apply Nat.le_of_not_lt
  intro hlt
  obtain ⟨e, p, h1, rfl, h3, h4⟩ := of_lt_latest hlt
  have := lt_latest h1 (Nat.lt_of_lt_of_le h3 h)
  omega

end Run
end Verif.Mca
