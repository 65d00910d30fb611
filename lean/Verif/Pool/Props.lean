import Verif.Pool.Lemmas

/-
Theorems for C70: the lock pool is initialised completely for every size that is accepted.
-/

namespace Verif.Pool

/-- C70.  For every size of the pool that is accepted, the initialiser list of the pool is well
formed and has exactly as many initialisers as the pool has locks. -/
theorem C70_initialised (log2 : Nat) (h : accepted log2 = true) :
    Complete (poolSize log2) (initialisers log2) := by
  unfold Complete initialisers
  have hpos : 0 < poolSize log2 := Nat.two_pow_pos log2
  split
  · next hbig =>
    have hdiv : poolSize log2 / 256 * 256 = poolSize log2 := by
      have h8 : 8 ≤ log2 := by
        rcases Nat.lt_or_ge log2 8 with hl | hl
        · have : 2 ^ log2 ≤ 2 ^ 8 := Nat.pow_le_pow_right (by decide) (Nat.le_of_lt hl)
          unfold poolSize at hbig; omega
        · exact hl
      unfold poolSize
      obtain ⟨k, rfl⟩ := Nat.exists_eq_add_of_le h8
      rw [Nat.pow_add]; omega
    have hp : 0 < poolSize log2 / 256 := by omega
    have hlim : poolSize log2 / 256 ≤ limitIteration := by
      unfold accepted at h
      simp only [hbig, if_true, Bool.not_eq_true', decide_eq_false_iff_not] at h
      omega
    have := isList_iterate init256 (fun _ => (List.replicate 63 (row ++ [Token.comma])).flatten ++ row) 256
      (fun i => by simp [init256, List.append_assoc]) (fun _ => isList_rows 63) _ hp hlim
    rw [hdiv] at this
    exact this
  · have := isList_iterate init1 (fun _ => [.init]) 1 (fun _ => rfl) (fun _ => .one) _ hpos
      (by unfold limitIteration; omega)
    rw [Nat.mul_one] at this
    exact this

/-- The number of initialisers, without the grammar. -/
theorem C70_count (log2 : Nat) (h : accepted log2 = true) :
    (initialisers log2).count .init = poolSize log2 :=
  (isList_count (C70_initialised log2 h)).1

/-- C70.  The sizes that are accepted are those up to 65536 locks, the default among them; nothing
else is turned down. -/
theorem C70_accepted (log2 : Nat) : accepted log2 = true ↔ poolSize log2 ≤ 65536 := by
  unfold accepted limitIteration
  split
  · next h =>
    simp only [Bool.not_eq_true', decide_eq_false_iff_not]
    have h16 : poolSize log2 / 256 ≤ 256 ↔ poolSize log2 ≤ 65536 := by
      constructor
      · intro hd
        rcases Nat.lt_or_ge log2 17 with hl | hl
        · have : 2 ^ log2 ≤ 2 ^ 16 := Nat.pow_le_pow_right (by decide) (by omega)
          simpa [poolSize] using this
        · have : 2 ^ 17 ≤ 2 ^ log2 := Nat.pow_le_pow_right (by decide) hl
          unfold poolSize at hd; omega
      · intro hd; omega
    omega
  · simp; omega

example : accepted 8 = true ∧ poolSize 8 = 256 := by decide
example : accepted 16 = true ∧ accepted 17 = false := by decide
/-- One lock, two locks: the tokens. -/
example : initialisers 0 = [.init] ∧ initialisers 1 = [.init, .comma, .init] := by decide
/-- Lists that are not complete: one initialiser too few, and two without a comma between them. -/
example : ¬ Complete 2 [.init] ∧ ¬ Complete 2 [.init, .init] := by
  constructor
  · intro h; have := (isList_count h).1; revert this; decide
  · intro h; have := (isList_count h).2; revert this; decide

/-! ### Cache lines -/

/-- C70.  Two different locks of the pool have no cache line in common, whatever the size of a
lock, if the array is aligned as it is declared. -/
theorem C70_separate_lines (base line size i j : Nat) (hl : 0 < line) (hbase : base % line = 0)
    (hij : i ≠ j) (l : Nat) (hi : touches line (entry base line size i) size l) :
    ¬ touches line (entry base line size j) size l := by
  have main : ∀ i j : Nat, i < j → ∀ l, touches line (entry base line size i) size l →
      ¬ touches line (entry base line size j) size l := by
    rintro i j hlt l ⟨a, ha, rfl⟩ ⟨b, hb, hab⟩
    unfold entry at hab
    have hps := paddedSize_mod line size hl
    have hmul : paddedSize line size = ((size + paddingSize line size) + line - 1) / line * line := rfl
    obtain ⟨q, hq⟩ : ∃ q, paddedSize line size = q * line := ⟨_, hmul⟩
    have hle : size ≤ q * line := by omega
    obtain ⟨c, hc⟩ : ∃ c, base = c * line := ⟨base / line, by
      have := Nat.div_add_mod base line; rw [Nat.mul_comm]; omega⟩
    rw [hq, hc] at hab
    have e1 : (c * line + j * (q * line) + b) / line = c + j * q + b / line := by
      rw [← Nat.mul_assoc, ← Nat.add_mul, Nat.mul_comm, Nat.mul_add_div hl]
    have e2 : (c * line + i * (q * line) + a) / line = c + i * q + a / line := by
      rw [← Nat.mul_assoc, ← Nat.add_mul, Nat.mul_comm, Nat.mul_add_div hl]
    rw [e1, e2] at hab
    have hadiv : a / line < q := (Nat.div_lt_iff_lt_mul hl).2 (by omega)
    have hji : (i + 1) * q ≤ j * q := Nat.mul_le_mul_right q hlt
    rw [Nat.succ_mul] at hji
    have hb0 : 0 ≤ b / line := Nat.zero_le _
    generalize b / line = y at *
    generalize a / line = x at *
    omega
  intro hj
  rcases Nat.lt_or_gt_of_ne hij with h | h
  · exact main i j h l hi hj
  · exact main j i h l hj hi

/-- A lock of 40 bytes: entries 64 bytes apart, so that lock 3 touches the line of byte 192. -/
example : paddedSize (cacheLine false false) 40 = 64 ∧ touches 64 (entry 0 64 40 3) 40 3 :=
  ⟨by decide, 0, by decide, by decide⟩

/-- The size of a cache line is never 0. -/
theorem C70_line_pos (s390 powerpc : Bool) : 0 < cacheLine s390 powerpc := by
  cases s390 <;> cases powerpc <;> decide

/-! ### Cleaning up -/

/-- C70.  At the end of the program every lock of the pool is taken and returned exactly once and
marked for freeing, and nothing outside of the pool is touched. -/
theorem C70_cleanup (log2 : Nat) (pool : Array Lock) (h : pool.size = poolSize log2) :
    ∃ p', cleanup (poolSize log2) pool = some p' ∧ p'.size = pool.size ∧
      ∀ (k : Nat) (l : Lock), pool[k]? = some l → p'[k]? = some { freeMemory := true, cleaned := l.cleaned + 1 } := by
  obtain ⟨p', h1, h2, h3⟩ := cleanupFrom_eq (poolSize log2) _ 0 pool rfl (Nat.zero_le _) h
  refine ⟨p', h1, h2.trans h.symm, fun k l hk => ?_⟩
  rw [h3 k, hk]; simp [cleanOne]

example : cleanup (poolSize 1) #[⟨false, 0⟩, ⟨false, 0⟩] = some #[⟨true, 1⟩, ⟨true, 1⟩] := by
  simp [cleanup, cleanupFrom, poolSize, cleanOne]

end Verif.Pool
