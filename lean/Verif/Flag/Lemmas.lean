import Verif.Concurrent.Props
import Verif.Flag.Model

/-! Helper lemmas for `Verif.Flag.Props`. -/

namespace Verif.Flag

open Verif.Concurrent

/-- The word of a set flag. -/
def setWord (b : Backend) (n : Nat) : BitVec (8 * n) :=
  match b with
  | .exchange => 1
  | .intrinsic be tv => setByte0 be 0 tv

/-- The word is that of a clear or of a set flag. -/
def Ok (b : Backend) {n : Nat} (w : BitVec (8 * n)) : Prop := w = 0 ∨ w = setWord b n

theorem shift_lt (be : Bool) {n : Nat} (hn : 1 ≤ n) : byteShift be n + 8 ≤ 8 * n := by
  rw [byteShift]; split <;> omega

theorem byte0_setByte0 (be : Bool) {n : Nat} (hn : 1 ≤ n) (w : BitVec (8 * n)) (b : BitVec 8) :
    byte0 be (setByte0 be w b) = b := by
  have := shift_lt be hn
  apply BitVec.eq_of_getLsbD_eq
  intro i hi
  have h1 : byteShift be n + i < 8 * n := by omega
  have h2 : i < 8 * n := by omega
  have h3 : ∀ k, k < 8 → (255#8).getLsbD k = true := by decide
  rw [byte0, setByte0, BitVec.getLsbD_setWidth, BitVec.getLsbD_ushiftRight, BitVec.getLsbD_or, BitVec.getLsbD_and,
    BitVec.getLsbD_not, BitVec.getLsbD_shiftLeft, BitVec.getLsbD_shiftLeft, BitVec.getLsbD_setWidth,
    BitVec.getLsbD_setWidth, Nat.add_sub_cancel_left, h3 i hi]
  simp [hi, h1, h2, Nat.not_lt.2 (Nat.le_add_right _ i)]

theorem byte0_zero (be : Bool) {n : Nat} : byte0 be (0 : BitVec (8 * n)) = 0 := by
  simp [byte0]

theorem setByte0_setByte0 (be : Bool) {n : Nat} (w : BitVec (8 * n)) (a b : BitVec 8) :
    setByte0 be (setByte0 be w a) b = setByte0 be w b := by
  have h3 : ∀ k, k < 8 → (255#8).getLsbD k = true := by decide
  apply BitVec.eq_of_getLsbD_eq
  intro i hi
  simp only [setByte0, BitVec.getLsbD_or, BitVec.getLsbD_and, BitVec.getLsbD_not, BitVec.getLsbD_shiftLeft,
    BitVec.getLsbD_setWidth]
  by_cases h : i < byteShift be n
  · simp [h]
  · by_cases h8 : i - byteShift be n < 8
    · have h9 : i - byteShift be n < 8 * n := by omega
      simp [h, hi, h9, h3 _ h8]
    · have e1 : ∀ x : BitVec 8, x.getLsbD (i - byteShift be n) = false := fun x =>
        BitVec.getLsbD_of_ge _ _ (by omega)
      simp [e1]

theorem setByte0_zero (be : Bool) {n : Nat} : setByte0 be (0 : BitVec (8 * n)) 0 = 0 := by
  simp [setByte0]

theorem setWord_ne (b : Backend) {n : Nat} (hn : 1 ≤ n) (hb : ∀ be tv, b = .intrinsic be tv → tv ≠ 0) :
    setWord b n ≠ 0 := by
  cases b with
  | exchange =>
    intro h
    have := congrArg BitVec.toNat h
    have h2 : 1 < 2 ^ (8 * n) := Nat.one_lt_two_pow (by omega)
    simp [setWord, Nat.mod_eq_of_lt h2] at this
  | intrinsic be tv =>
    intro h
    apply hb be tv rfl
    rw [← byte0_setByte0 be hn 0 tv]
    change setByte0 be 0 tv = 0 at h
    rw [h, byte0_zero]

theorem plain_setWord {b : Backend} (hb : b.Plain) {n : Nat} : setWord b n = ofBool n true := by
  cases b with
  | exchange => rfl
  | intrinsic be tv =>
    obtain ⟨rfl, rfl⟩ := hb
    apply BitVec.eq_of_getLsbD_eq
    intro i hi
    simp [setWord, setByte0, byteShift, ofBool, BitVec.getLsbD_one, hi]

theorem table_correct (b : Backend) {n : Nat} (hn : 1 ≤ n) (hb : ∀ be tv, b = .intrinsic be tv → tv ≠ 0) :
    Correct (table b n) (Ok b) (fun w => decide (w ≠ 0)) spec := by
  have hne := setWord_ne b hn hb
  intro op w w' r hw hr
  cases op with
  | test =>
    obtain ⟨rfl, rfl⟩ := Integral.run_load.1 hr
    exact ⟨hw, rfl, rfl⟩
  | testAndSet =>
    cases b with
    | exchange =>
      obtain ⟨rfl, rfl⟩ := Integral.run_rmw.1 hr
      exact ⟨.inr rfl, decide_eq_true hne, rfl⟩
    | intrinsic be tv =>
      obtain ⟨rfl, rfl⟩ := Integral.run_rmw.1 hr
      have e : setByte0 be w tv = setWord (.intrinsic be tv) n := by
        rcases hw with rfl | rfl
        · rfl
        · exact setByte0_setByte0 be 0 tv tv
      refine ⟨.inr e, ?_, ?_⟩
      · rw [e]; exact decide_eq_true hne
      · rcases hw with rfl | rfl
        · rw [byte0_zero]; rfl
        · have h1 : byte0 be (setWord (.intrinsic be tv) n) = tv := byte0_setByte0 be hn 0 tv
          show Ret.flag _ = Ret.flag (decide (setWord (.intrinsic be tv) n ≠ 0))
          rw [h1, decide_eq_true hne, decide_eq_true (hb be tv rfl)]
  | clear =>
    cases b with
    | exchange =>
      obtain ⟨rfl, rfl⟩ := Integral.run_store.1 hr
      exact ⟨.inl rfl, by simp, rfl⟩
    | intrinsic be tv =>
      obtain ⟨rfl, rfl⟩ := Integral.run_rmw.1 hr
      have e : setByte0 be w 0 = 0 := by
        rcases hw with rfl | rfl
        · exact setByte0_zero be
        · exact (setByte0_setByte0 be 0 tv 0).trans (setByte0_zero be)
      exact ⟨.inl e, decide_eq_false (fun h => h e), rfl⟩

/-! ### Sequential executions of a flag -/

section
variable {Id : Type} {s s' : Bool} {L l₁ l₂ l₃ : List (Entry Id Op Ret)} {a b : Entry Id Op Ret}

theorem legal_append (h : Legal spec s (l₁ ++ l₂) s') : ∃ t, Legal spec s l₁ t ∧ Legal spec t l₂ s' := by
  induction l₁ generalizing s with
  | nil => exact ⟨s, .nil _, h⟩
  | cons x l ih =>
    cases h with
    | cons h1 h2 =>
      obtain ⟨t, h3, h4⟩ := ih h2
      exact ⟨t, .cons h1 h3, h4⟩

/-- Without `clear` a set flag stays set. -/
theorem stays_set (h : Legal spec s L s') (hs : s = true) (hc : ∀ e ∈ L, e.op ≠ .clear) : s' = true := by
  induction h with
  | nil => exact hs
  | @cons s s₁ s₂ e L he _ ih =>
    refine ih ?_ (fun e he => hc e (by simp [he]))
    have h1 := hc e (by simp)
    cases ho : e.op with
    | test => rw [ho] at he; exact he.1.trans hs
    | testAndSet => rw [ho] at he; exact he.1
    | clear => exact absurd ho h1

/-- Without `test_and_set` a clear flag stays clear. -/
theorem stays_clear (h : Legal spec s L s') (hs : s = false) (hc : ∀ e ∈ L, e.op ≠ .testAndSet) : s' = false := by
  induction h with
  | nil => exact hs
  | @cons s s₁ s₂ e L he _ ih =>
    refine ih ?_ (fun e he => hc e (by simp [he]))
    have h1 := hc e (by simp)
    cases ho : e.op with
    | test => rw [ho] at he; exact he.1.trans hs
    | clear => rw [ho] at he; exact he.1
    | testAndSet => exact absurd ho h1

/-- Between two successful `test_and_set` there is a `clear`. -/
theorem clear_between (h : Legal spec s (l₁ ++ a :: (l₂ ++ b :: l₃)) s') (ha : a.op = .testAndSet)
    (hb : b.op = .testAndSet) (hr : b.ret = .flag false) : ∃ e ∈ l₂, e.op = .clear := by
  obtain ⟨t, -, h2⟩ := legal_append h
  cases h2 with
  | cons h3 h4 =>
    rw [ha] at h3
    obtain ⟨t', h5, h6⟩ := legal_append h4
    cases h6 with
    | cons h7 _ =>
      rw [hb, hr] at h7
      refine Classical.byContradiction fun hn => ?_
      have := stays_set h5 h3.1 (fun e he ho => hn ⟨e, he, ho⟩)
      have h8 := h7.2
      rw [this] at h8
      cases h8

/-- Before a failed `test_and_set` on an initially clear flag there is another one. -/
theorem set_before (h : Legal spec false (l₁ ++ b :: l₂) s') (hb : b.op = .testAndSet) (hr : b.ret = .flag true) :
    ∃ e ∈ l₁, e.op = .testAndSet := by
  obtain ⟨t, h1, h2⟩ := legal_append h
  cases h2 with
  | cons h3 _ =>
    rw [hb, hr] at h3
    refine Classical.byContradiction fun hn => ?_
    have := stays_clear h1 rfl (fun e he ho => hn ⟨e, he, ho⟩)
    have h8 := h3.2
    rw [this] at h8
    cases h8

/-- The first `test_and_set` of a sequence. -/
theorem first_set (h : ∃ e ∈ L, e.op = .testAndSet) :
    ∃ l₁ e l₂, L = l₁ ++ e :: l₂ ∧ e.op = .testAndSet ∧ ∀ x ∈ l₁, x.op ≠ .testAndSet := by
  induction L with
  | nil => obtain ⟨_, h, _⟩ := h; cases h
  | cons y L ih =>
    by_cases hy : y.op = .testAndSet
    · exact ⟨[], y, L, rfl, hy, by simp⟩
    · obtain ⟨e, he, ho⟩ := h
      rcases List.mem_cons.1 he with rfl | he
      · exact absurd ho hy
      · obtain ⟨l₁, x, l₂, rfl, h1, h2⟩ := ih ⟨e, he, ho⟩
        refine ⟨y :: l₁, x, l₂, rfl, h1, fun z hz => ?_⟩
        rcases List.mem_cons.1 hz with rfl | hz
        · exact hy
        · exact h2 z hz

end

end Verif.Flag
