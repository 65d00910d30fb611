import Verif.Pool.Spec

/- Lemmas for C70. -/

namespace Verif.Pool

theorem isList_append {n m : Nat} {a b : List Token} (ha : IsList n a) (hb : IsList m b) :
    IsList (n + m) (a ++ .comma :: b) := by
  induction ha with
  | one => rw [Nat.add_comm]; exact .cons hb
  | cons _ ih => rw [Nat.add_right_comm]; exact .cons ih

/-- A comma separated list has one initialiser more than commas, and no other length. -/
theorem isList_count {n : Nat} {ts : List Token} (h : IsList n ts) :
    ts.count .init = n ∧ ts.count .comma + 1 = n := by
  induction h with
  | one => decide
  | cons _ ih => simp only [List.count_cons]; simp; omega

theorem isList_row : IsList 4 row := .cons (.cons (.cons .one))

theorem isList_rows : ∀ k : Nat,
    IsList (4 * k + 4) ((List.replicate k (row ++ [Token.comma])).flatten ++ row)
  | 0 => isList_row
  | k + 1 => by
    have ih := isList_rows k
    rw [List.replicate_succ, List.flatten_cons, List.append_assoc, List.append_assoc]
    have e : 4 * (k + 1) + 4 = 4 + (4 * k + 4) := by omega
    rw [e]
    exact isList_append isList_row ih

/-- If every inclusion gives a comma (except the first) and a list of `m`, the whole is a list. -/
theorem isList_range (file body : Nat → List Token) (m : Nat)
    (hf : ∀ i, file i = leading i ++ body i) (hb : ∀ i, IsList m (body i)) :
    ∀ last, 0 < last → IsList (last * m) ((List.range last).map fun i => file (i + 1)).flatten
  | 0, h => absurd h (Nat.lt_irrefl 0)
  | 1, _ => by
    have : ((List.range 1).map fun i => file (i + 1)).flatten = body 1 := by simp [hf, leading]
    rw [this, Nat.one_mul]; exact hb 1
  | last + 2, _ => by
    have ih := isList_range file body m hf hb (last + 1) (Nat.succ_pos _)
    have : ((List.range (last + 2)).map fun i => file (i + 1)).flatten =
        ((List.range (last + 1)).map fun i => file (i + 1)).flatten ++ .comma :: body (last + 2) := by
      rw [List.range_succ, List.map_append, List.flatten_append]
      congr 1
      simp [hf, leading]
    rw [this, Nat.succ_mul]
    exact isList_append ih (hb _)

theorem isList_iterate (file body : Nat → List Token) (m : Nat)
    (hf : ∀ i, file i = leading i ++ body i) (hb : ∀ i, IsList m (body i))
    (last : Nat) (h0 : 0 < last) (h1 : last ≤ limitIteration) : IsList (last * m) (iterate last file) := by
  unfold iterate
  rw [Nat.min_eq_left h1]
  exact isList_range file body m hf hb last h0

theorem paddedSize_mod (line size : Nat) (hl : 0 < line) : paddedSize line size = size + paddingSize line size := by
  unfold paddedSize paddingSize
  have hm := Nat.div_add_mod size line
  have hlt := Nat.mod_lt size hl
  have key : ∃ q, size + (if size % line > 0 then line - size % line else 0) = q * line := by
    split
    · refine ⟨size / line + 1, ?_⟩
      rw [Nat.succ_mul, Nat.mul_comm]; omega
    · refine ⟨size / line, ?_⟩
      rw [Nat.mul_comm]; omega
  obtain ⟨q, hq⟩ := key
  simp only [hq]
  have : (q * line + line - 1) / line = q := by
    rw [Nat.add_sub_assoc hl, Nat.mul_comm, Nat.mul_add_div hl, Nat.div_eq_of_lt (by omega)]; rfl
  rw [this]

theorem cleanupFrom_eq (size : Nat) : ∀ (n i : Nat) (pool : Array Lock), size - i = n → i ≤ size → pool.size = size →
    ∃ p', cleanupFrom size i pool = some p' ∧ p'.size = size ∧
      ∀ k, p'[k]? = if i ≤ k then pool[k]?.map cleanOne else pool[k]?
  | 0, i, pool, hn, hi, hs => by
    have : ¬ i < size := by omega
    refine ⟨pool, ?_, hs, fun k => ?_⟩
    · rw [cleanupFrom]; simp [this]
    · split
      · have : pool[k]? = none := by simp; omega
        rw [this]; rfl
      · rfl
  | n + 1, i, pool, hn, hi, hs => by
    have hlt : i < size := by omega
    have hb : i < pool.size := by omega
    obtain ⟨p', h1, h2, h3⟩ := cleanupFrom_eq size n (i + 1) (pool.set i (cleanOne pool[i])) (by omega) (by omega) (by simpa using hs)
    refine ⟨p', ?_, h2, fun k => ?_⟩
    · rw [cleanupFrom]; simp [hlt, hb, h1]
    · rw [h3 k, Array.getElem?_set]
      by_cases hk : i = k
      · subst hk
        have : ¬ (i + 1 ≤ i) := by omega
        simp [this, hb]
      · rw [if_neg hk]
        have : (i + 1 ≤ k) ↔ (i ≤ k) := by omega
        simp only [this]

end Verif.Pool
