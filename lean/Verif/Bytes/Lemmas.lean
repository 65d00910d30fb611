import Verif.Integral.Lemmas
import Verif.Concurrent.Lemmas
import Verif.Bytes.Model

set_option linter.unusedSimpArgs false

/-
Helper lemmas for `Verif.Bytes.Props`.
-/

namespace Verif.Bytes

open Verif.Concurrent (Correct)
open Verif.Integral (run_rmw run_load run_store run_weak run_strong)

/-! ### memcmp -/

theorem memcmp_zero (a b : Nat → Byte) (k : Nat) : memcmp a b k = 0 ↔ ∀ i, i < k → a i = b i := by
  induction k generalizing a b with
  | zero => simp [memcmp]
  | succ k ih =>
    rw [memcmp]
    by_cases h : a 0 = b 0
    · rw [if_pos h, ih]
      constructor
      · intro H i hi
        cases i with
        | zero => exact h
        | succ i => exact H i (by omega)
      · intro H i hi
        exact H (i + 1) (by omega)
    · rw [if_neg h]
      constructor
      · intro H; split at H <;> omega
      · intro H; exact absurd (H 0 (by omega)) h

theorem chain_zero (p : Nat → Byte) (n : Nat) (hn : 1 ≤ n) :
    (p 0 = 0 ∧ ∀ i, i < n - 1 → p i = p (1 + i)) ↔ ∀ i, i < n → p i = 0 := by
  constructor
  · rintro ⟨h0, h⟩ i hi
    induction i with
    | zero => exact h0
    | succ i ih =>
      have := h i (by omega)
      rw [show i + 1 = 1 + i by omega, ← this]
      exact ih (by omega)
  · intro h
    exact ⟨h 0 (by omega), fun i hi => (h i (by omega)).trans (h (1 + i) (by omega)).symm⟩

/-! ### Conversions -/

/-- Value bits in the storage; everything else is zero there. -/
def extMask {n : Nat} (mask : Bytes n) (s : Nat) : Bytes s :=
  fun i => if h : i.1 < n then mask ⟨i.1, h⟩ else 0

/-- The bytes of a value followed by zeros. -/
def ext {n : Nat} (v : Bytes n) (s : Nat) : Bytes s := fun i => if h : i.1 < n then v ⟨i.1, h⟩ else 0

theorem and_ff (b : Byte) : b &&& 0xff = b := by
  have : (0xff : Byte) = BitVec.allOnes 8 := by decide
  rw [this, BitVec.and_allOnes]

theorem bitwise_cast_memcpy_eq {n s : Nat} (clear : Bool) (mask : Bytes n) (k : Nat) (h : k ≤ n)
    (u : Bytes s) (src : Bytes n) (i : Fin s) :
    bitwise_cast_memcpy clear mask k h u src i =
      if hk : i.1 < k then
        (if clear then src ⟨i.1, Nat.lt_of_lt_of_le hk h⟩ &&& mask ⟨i.1, Nat.lt_of_lt_of_le hk h⟩
          else src ⟨i.1, Nat.lt_of_lt_of_le hk h⟩)
      else 0 := by
  have hi := i.2
  unfold bitwise_cast_memcpy clear_tail_padding_bits memcpy clear_padding
  by_cases h1 : k < s
  · simp only [h1, if_true]
    by_cases h2 : i.1 < k
    · rw [dif_pos h2, if_neg (by omega), dif_pos h2]; cases clear <;> rfl
    · rw [if_pos (by omega), dif_neg h2]
  · simp only [h1, if_false]
    rw [dif_pos hi, dif_pos (show i.1 < k by omega)]; cases clear <;> rfl

theorem toStorage_eq {c : Cfg} {T : Ty} (hT : T.Wf) (hk : Known c T) {s : Nat} (_hs : T.size ≤ s)
    (u : Bytes s) (v : Bytes T.size) (i : Fin s) :
    toStorage c T s u v i = ext v s i &&& extMask T.mask s i := by
  have hi := i.2
  have full : Full T.mask → ext v s i &&& extMask T.mask s i = ext v s i := by
    intro hf; unfold ext extMask
    by_cases h : i.1 < T.size
    · rw [dif_pos h, dif_pos h, hf, and_ff]
    · rw [dif_neg h, dif_neg h]; simp
  unfold toStorage
  cases hfp : T.fp
  · rw [if_neg (by simp), bitwise_cast]
    by_cases h : (c.bitCast = true ∧ T.unique = true) ∧ T.size = s
    · rw [dif_pos h, full (hT.unique_full h.1.2), bit_cast, ext, dif_pos (show i.1 < T.size by omega)]; rfl
    · rw [dif_neg h, bitwise_cast_memcpy_eq]
      by_cases h2 : i.1 < T.size
      · rw [dif_pos h2]
        cases hc : c.clear
        · have : Full T.mask := by
            rcases hk with h | h | h
            · rw [hc] at h; cases h
            · exact h.2
            · rw [hfp] at h; cases h.1
          rw [full this, ext, dif_pos h2]; rfl
        · rw [ext, extMask, dif_pos h2, dif_pos h2]; rfl
      · rw [dif_neg h2, ext, dif_neg h2]; simp
  · rw [if_pos rfl, bitwise_fp_cast]
    by_cases h : c.bitCast = true ∧ T.vs = T.size ∧ T.vs = s
    · rw [dif_pos h, full (hT.fp_full hfp h.2.1), bit_cast, ext, dif_pos (show i.1 < T.size by omega)]; rfl
    · rw [dif_neg h]
      obtain ⟨clear, bc, ma⟩ := c
      cases hc : clear
      · rw [bitwise_cast_memcpy_eq]
        subst hc
        have hp : Prefix T.mask T.vs := by
          rcases hk with h | h | h
          · cases h
          · rw [hfp] at h; cases h.1
          · exact h.2
        simp only [Bool.false_eq_true, if_false]
        by_cases h2 : i.1 < T.vs
        · have h3 : i.1 < T.size := Nat.lt_of_lt_of_le h2 T.vs_le
          rw [dif_pos h2, ext, extMask, dif_pos h3, dif_pos h3, hp, if_pos h2, and_ff]
        · rw [dif_neg h2, extMask]
          by_cases h3 : i.1 < T.size
          · rw [dif_pos h3, hp, if_neg h2]; simp
          · rw [dif_neg h3]; simp
      · rw [bitwise_cast_memcpy_eq]
        simp only [if_true]
        by_cases h2 : i.1 < T.size
        · rw [dif_pos h2, ext, extMask, dif_pos h2, dif_pos h2]
        · rw [dif_neg h2, ext, dif_neg h2]; simp

theorem ofStorage_eq {c : Cfg} {T : Ty} {s : Nat} (hs : T.size ≤ s)
    (u : Bytes T.size) (w : Bytes s) (i : Fin T.size) :
    ofStorage c T s u w i = w ⟨i.1, Nat.lt_of_lt_of_le i.2 hs⟩ := by
  have hi := i.2
  have hlt : i.1 < s := by omega
  unfold ofStorage
  cases T.fp
  · rw [if_neg (by simp), bitwise_cast]
    by_cases h : (c.bitCast = true ∧ true = true) ∧ s = T.size
    · rw [dif_pos h, bit_cast]; rfl
    · rw [dif_neg h, bitwise_cast_memcpy_eq, dif_pos hlt]
      cases c.clear
      · rfl
      · simp only [if_true, ones, and_ff]
  · rw [if_pos rfl, bitwise_fp_cast]
    by_cases h : c.bitCast = true ∧ s = s ∧ s = T.size
    · rw [dif_pos h, bit_cast]; rfl
    · rw [dif_neg h]
      obtain ⟨clear, bc, ma⟩ := c
      cases clear <;> rw [bitwise_cast_memcpy_eq]
      · simp only [Bool.false_eq_true, if_false, dif_pos hlt]
      · simp only [if_true, dif_pos hlt, ones, and_ff]

/-! ### Clean storage -/

/-- Everything outside the value bits is zero. -/
def Clean {n : Nat} (mask : Bytes n) {s : Nat} (w : Bytes s) : Prop :=
  ∀ i, w i &&& extMask mask s i = w i

theorem clean_toStorage {c : Cfg} {T : Ty} (hT : T.Wf) (hk : Known c T) {s : Nat} (hs : T.size ≤ s)
    (u : Bytes s) (v : Bytes T.size) : Clean T.mask (toStorage c T s u v) := by
  intro i
  rw [toStorage_eq hT hk hs, BitVec.and_assoc, BitVec.and_self]

theorem of_to {c : Cfg} {T : Ty} (hT : T.Wf) (hk : Known c T) {s : Nat} (hs : T.size ≤ s)
    (u : Bytes s) (u' : Bytes T.size) (v : Bytes T.size) (i : Fin T.size) :
    ofStorage c T s u' (toStorage c T s u v) i = v i &&& T.mask i := by
  rw [ofStorage_eq hs, toStorage_eq hT hk hs]
  simp only [ext, extMask, i.2, dif_pos]

theorem same_of_to {c : Cfg} {T : Ty} (hT : T.Wf) (hk : Known c T) {s : Nat} (hs : T.size ≤ s)
    (u : Bytes s) (u' : Bytes T.size) (v : Bytes T.size) :
    SameValue T.mask (ofStorage c T s u' (toStorage c T s u v)) v := by
  intro i
  rw [of_to hT hk hs, BitVec.and_assoc, BitVec.and_self]

/-- A clean storage word is determined by the value it holds. -/
theorem eq_toStorage {c : Cfg} {T : Ty} (hT : T.Wf) (hk : Known c T) {s : Nat} (hs : T.size ≤ s)
    (u : Bytes s) (u' : Bytes T.size) {w : Bytes s} (hw : Clean T.mask w) (v : Bytes T.size) :
    w = toStorage c T s u v ↔ SameValue T.mask (ofStorage c T s u' w) v := by
  constructor
  · rintro rfl; exact same_of_to hT hk hs _ _ _
  · intro h
    funext i
    rw [toStorage_eq hT hk hs, ← hw i]
    by_cases hi : i.1 < T.size
    · have := h ⟨i.1, hi⟩
      rw [ofStorage_eq hs] at this
      simpa only [ext, extMask, hi, dif_pos] using this
    · simp only [extMask, hi, dif_neg, not_false_eq_true]; simp

theorem SameValue.refl {n : Nat} (mask a : Bytes n) : SameValue mask a a := fun _ => rfl

theorem SameValue.symm {n : Nat} {mask a b : Bytes n} (h : SameValue mask a b) : SameValue mask b a :=
  fun i => (h i).symm

theorem SameValue.trans {n : Nat} {mask a b c : Bytes n} (h : SameValue mask a b) (h' : SameValue mask b c) :
    SameValue mask a c := fun i => (h i).trans (h' i)

/-! ### The sign mask -/

theorem sign_mask_eq {le : Bool} {s vs : Nat} (h0 : 0 < vs) (i : Fin s) :
    sign_mask le s vs i = if (if le then i.1 else s - 1 - i.1) = vs - 1 then 0x80 else 0 := by
  unfold sign_mask intBytes
  have hi := i.2
  generalize hp : (if le then i.1 else s - 1 - i.1) = p
  have hps : p < s := by subst hp; split <;> omega
  apply BitVec.eq_of_getLsbD_eq
  intro j hj
  rw [BitVec.getLsbD_extractLsb', BitVec.getLsbD_shiftLeft]
  by_cases e : p = vs - 1
  · rw [if_pos e]
    have : (BitVec.getLsbD (0x80 : Byte) j) = decide (j = 7) := by
      rcases j with _ | _ | _ | _ | _ | _ | _ | _ | j <;> first | rfl | omega
    rw [this]
    by_cases hj7 : j = 7
    · subst hj7
      have e1 : 8 * p + 7 = vs * 8 - 1 := by omega
      have e2 : 8 * p + 7 < 8 * s := by omega
      have e3 : ¬ (vs * 8 - 1 < vs * 8 - 1) := by omega
      simp [e1, e1 ▸ e2]
      omega
    · have : 8 * p + j < vs * 8 - 1 := by omega
      simp [this, hj7, hj]
  · rw [if_neg e]
    by_cases hlt : 8 * p + j < vs * 8 - 1
    · simp [hlt]
    · have : 8 * p + j - (vs * 8 - 1) ≠ 0 := by omega
      simp [hlt]
      intro _ _ _; omega

theorem xor_and (a b m : Byte) : (a ^^^ b) &&& m = (a &&& m) ^^^ (b &&& m) := by
  apply BitVec.eq_of_getLsbD_eq
  intro i hi
  simp only [BitVec.getLsbD_and, BitVec.getLsbD_xor]
  cases a.getLsbD i <;> cases b.getLsbD i <;> cases m.getLsbD i <;> rfl

theorem xor_sign {Mode : Type} {c : Cfg} {T : Ty} {s : Nat} (hs : T.size ≤ s) {F : Mode → Fp T.size}
    {le : Bool} (h : SignOk T s F le) (u u' : Bytes T.size) (m : Mode) {w : Bytes s} (hw : Clean T.mask w) :
    Clean T.mask (xorBytes w (sign_mask le s T.vs)) ∧
      SameValue T.mask (ofStorage c T s u (xorBytes w (sign_mask le s T.vs)))
        ((F m).neg (ofStorage c T s u' w)) := by
  obtain ⟨b, hb, h0, hpos, htop, hn⟩ := h
  have hvs := T.vs_le
  have pos : ∀ i : Fin s, ((if le then i.1 else s - 1 - i.1) = T.vs - 1) ↔ i.1 = b := by
    intro i
    have := i.2
    cases le
    · simp only [Bool.false_eq_true, if_false] at hpos ⊢; omega
    · simp only [if_true] at hpos ⊢; omega
  have hsm : ∀ i : Fin s, sign_mask le s T.vs i = if i.1 = b then 0x80 else 0 := by
    intro i
    rw [sign_mask_eq h0]
    by_cases e : i.1 = b
    · rw [if_pos e, if_pos ((pos i).2 e)]
    · rw [if_neg e, if_neg (fun h => e ((pos i).1 h))]
  constructor
  · intro i
    rw [xorBytes, xor_and, hw i, hsm]
    by_cases e : i.1 = b
    · rw [if_pos e, extMask, dif_pos (by omega)]
      have : (⟨i.1, by omega⟩ : Fin T.size) = ⟨b, hb⟩ := Fin.ext e
      rw [this, BitVec.and_comm 0x80, htop]
    · rw [if_neg e]; simp
  · refine SameValue.trans (fun i => ?_) (hn m _).symm
    rw [ofStorage_eq hs, flipTop, ofStorage_eq hs, xorBytes, hsm]
    by_cases e : i.1 = b
    · rw [if_pos e, if_pos e]
    · rw [if_neg e, if_neg e]; simp

theorem bit_cast_full {c : Cfg} {T : Ty} (hT : T.Wf) (hk : Known c T) {s a : Nat}
    (h : Reinterprets c T s a ∧ T.size = s) : Full T.mask := by
  obtain ⟨⟨_, hc, hv, _⟩, _⟩ := h
  rcases hk with h | h | h
  · rw [hc] at h; cases h
  · exact h.2
  · rw [if_pos h.1] at hv
    exact hT.fp_full h.1 (by omega)

theorem bit_cast_to {c : Cfg} {T : Ty} (hT : T.Wf) (hk : Known c T) {s a : Nat}
    (h : Reinterprets c T s a ∧ T.size = s) (u : Bytes s) (v : Bytes T.size) :
    bit_cast h.2 v = toStorage c T s u v := by
  have hf := bit_cast_full hT hk h
  funext i
  have hi : i.1 < T.size := h.2 ▸ i.2
  rw [toStorage_eq hT hk (Nat.le_of_eq h.2), ext, extMask, dif_pos hi, dif_pos hi, hf, and_ff]; rfl

theorem bit_cast_of {c : Cfg} {T : Ty} {s : Nat} (h : T.size = s) (u : Bytes T.size) (w : Bytes s) :
    bit_cast h.symm w = ofStorage c T s u w := by
  funext i
  rw [ofStorage_eq (Nat.le_of_eq h)]; rfl

theorem ofStorage_junk {c : Cfg} {T : Ty} {s : Nat} (hs : T.size ≤ s) (u u' : Bytes T.size) (w : Bytes s) :
    ofStorage c T s u w = ofStorage c T s u' w := by
  funext i; rw [ofStorage_eq hs, ofStorage_eq hs]

theorem table_correct {Mode : Type} {c : Cfg} {T : Ty} (hT : T.Wf) (hk : Known c T) {s : Nat}
    (hs : T.size ≤ s) (a : Nat) {F : Mode → Fp T.size} {neg : NegImpl}
    (hneg : ∀ le, neg = some le → SignOk T s F le)
    (u : Op Mode T.size → Bytes s) (u' : Op Mode T.size → Bytes T.size) (u₀ : Bytes T.size) :
    Correct (table c T s a F neg u u') (Clean T.mask) (ofStorage c T s u₀) (spec F T.mask) := by
  intro op w w' r hw hr
  have junk : ofStorage c T s (u' op) = ofStorage c T s u₀ := funext (ofStorage_junk hs _ _)
  have clean := fun v => clean_toStorage hT hk hs (u op) v
  have same := fun v => same_of_to hT hk hs (u op) u₀ v
  have cas : ∀ e d ok, r = .cas ok (ofStorage c T s u₀ w) →
      ((w = toStorage c T s (u op) e ∧ w' = toStorage c T s (u op) d ∧ ok = true) →
        Clean T.mask w' ∧ casOk T.mask (ofStorage c T s u₀ w) e d (ofStorage c T s u₀ w') r) := by
    rintro e d ok rfl ⟨h1, rfl, rfl⟩
    have he := (eq_toStorage hT hk hs (u op) u₀ hw e).1 h1
    exact ⟨clean d, he, same d, _, rfl, he⟩
  have ne : ∀ e, w ≠ toStorage c T s (u op) e → ¬ SameValue T.mask (ofStorage c T s u₀ w) e :=
    fun e h h' => h ((eq_toStorage hT hk hs (u op) u₀ hw e).2 h')
  have mod : ∀ f : Bytes T.size → Bytes T.size,
      w' = toStorage c T s (u op) (f (ofStorage c T s u₀ w)) →
      Clean T.mask w' ∧ SameValue T.mask (ofStorage c T s u₀ w') (f (ofStorage c T s u₀ w)) := by
    rintro f rfl; exact ⟨clean _, same _⟩
  cases op with
  | load =>
    simp only [table, junk, run_load] at hr
    obtain ⟨rfl, rfl⟩ := hr
    exact ⟨hw, rfl, _, rfl, .refl _ _⟩
  | store v =>
    simp only [table, run_store] at hr
    obtain ⟨rfl, rfl⟩ := hr
    exact ⟨clean v, same v, rfl⟩
  | exchange v =>
    simp only [table, junk, run_rmw] at hr
    obtain ⟨rfl, rfl⟩ := hr
    exact ⟨clean v, same v, _, rfl, .refl _ _⟩
  | casStrong e d =>
    have hr' : (Code.casStrong (toStorage c T s (u (.casStrong e d)) e) (toStorage c T s (u (.casStrong e d)) d)
        fun ok x => Ret.cas ok (ofStorage c T s u₀ x)).Run w w' r := by
      simp only [table] at hr
      split at hr
      · rename_i h
        rw [bit_cast_to hT hk h (u (.casStrong e d))] at hr
        simpa only [bit_cast_of (c := c) h.2 u₀] using hr
      · simpa only [junk] using hr
    rcases run_strong.1 hr' with ⟨h1, h2, h3⟩ | ⟨h1, h2, h3⟩
    · have := cas e d true h3 ⟨h1, h2, rfl⟩
      exact ⟨this.1, .inl this.2⟩
    · subst h2; subst h3
      exact ⟨hw, .inr ⟨ne e h1, rfl, _, rfl, .refl _ _⟩⟩
  | casWeak e d =>
    have hr' : (Code.casWeak (toStorage c T s (u (.casWeak e d)) e) (toStorage c T s (u (.casWeak e d)) d)
        fun ok x => Ret.cas ok (ofStorage c T s u₀ x)).Run w w' r := by
      simp only [table] at hr
      split at hr
      · rename_i h
        rw [bit_cast_to hT hk h (u (.casWeak e d))] at hr
        simpa only [bit_cast_of (c := c) h.2 u₀] using hr
      · simpa only [junk] using hr
    rcases run_weak.1 hr' with ⟨h1, h2, h3⟩ | ⟨h2, h3⟩
    · have := cas e d true h3 ⟨h1, h2, rfl⟩
      exact ⟨this.1, .inl this.2⟩
    · subst h2; subst h3
      exact ⟨hw, .inr ⟨rfl, _, rfl, .refl _ _⟩⟩
  | fetchAdd m v | fetchSub m v =>
    simp only [table, junk, run_rmw] at hr
    obtain ⟨h1, rfl⟩ := hr
    have := mod (fun x => _) h1
    exact ⟨this.1, this.2, _, rfl, .refl _ _⟩
  | add m v | sub m v =>
    simp only [table, junk, run_rmw] at hr
    obtain ⟨h1, rfl⟩ := hr
    have := mod (fun x => _) h1
    exact ⟨this.1, this.2, _, rfl, .refl _ _⟩
  | opaqueAdd m v | opaqueSub m v =>
    simp only [table, junk, run_rmw] at hr
    obtain ⟨h1, rfl⟩ := hr
    have := mod (fun x => _) h1
    exact ⟨this.1, this.2, rfl⟩
  | fetchNegate m =>
    cases neg with
    | none =>
      simp only [table, junk, run_rmw] at hr
      obtain ⟨h1, rfl⟩ := hr
      have := mod (F m).neg h1
      exact ⟨this.1, this.2, _, rfl, .refl _ _⟩
    | some le =>
      simp only [table, junk, run_rmw] at hr
      obtain ⟨rfl, rfl⟩ := hr
      have := xor_sign (c := c) hs (hneg le rfl) u₀ u₀ m hw
      exact ⟨this.1, this.2, _, rfl, .refl _ _⟩
  | negate m =>
    cases neg with
    | none =>
      simp only [table, junk, run_rmw] at hr
      obtain ⟨h1, rfl⟩ := hr
      have := mod (F m).neg h1
      exact ⟨this.1, this.2, _, rfl, .refl _ _⟩
    | some le =>
      simp only [table, junk, run_rmw] at hr
      obtain ⟨rfl, rfl⟩ := hr
      have := xor_sign (c := c) hs (hneg le rfl) u₀ u₀ m hw
      exact ⟨this.1, this.2, _, rfl, this.2⟩
  | opaqueNegate m =>
    cases neg with
    | none =>
      simp only [table, junk, run_rmw] at hr
      obtain ⟨h1, rfl⟩ := hr
      have := mod (F m).neg h1
      exact ⟨this.1, this.2, rfl⟩
    | some le =>
      simp only [table, junk, run_rmw] at hr
      obtain ⟨rfl, rfl⟩ := hr
      have := xor_sign (c := c) hs (hneg le rfl) u₀ u₀ m hw
      exact ⟨this.1, this.2, rfl⟩

end Verif.Bytes
