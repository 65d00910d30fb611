import Verif.Find.Model
import Verif.Find.Spec

/-
Helper lemmas for the address search (C29).
-/

namespace Verif.Find

/-! ### Bits and lanes -/

theorem getLsbD_ofBits (w : Nat) (f : Nat → Bool) (i : Nat) :
    (ofBits w f).getLsbD i = (decide (i < w) && f i) := by
  induction w with
  | zero => simp [ofBits]
  | succ w ih =>
    simp only [ofBits, BitVec.getLsbD_cons]
    by_cases h : i = w
    · subst h; simp
    · rw [if_neg h, ih]
      by_cases h2 : i < w
      · have h3 : i < w + 1 := by omega
        simp [h2, h3]
      · have h3 : ¬ i < w + 1 := by omega
        simp [h2, h3]

theorem lane_ofLanes (k i : Nat) (f : Nat → BitVec k) (h : k * (i + 1) ≤ 128) :
    lane k i (ofLanes k f) = f i := by
  apply BitVec.eq_of_getLsbD_eq
  intro j hj
  have hk : 0 < k := by omega
  have h1 : k * (i + 1) = k * i + k := Nat.mul_succ k i
  simp only [lane, ofLanes, BitVec.getLsbD_extractLsb', getLsbD_ofBits]
  have h2 : (k * i + j) / k = i := by
    rw [Nat.mul_add_div hk, Nat.div_eq_of_lt hj]; omega
  have h3 : (k * i + j) % k = j := by
    rw [Nat.mul_add_mod, Nat.mod_eq_of_lt hj]
  rw [h2, h3]
  have h4 : k * i + j < 128 := by omega
  simp [hj, h4]

/-- The lower (`i = 0`) or upper (`i = 1`) half of a 64-bit word. -/
def half (x : BitVec 64) (i : Nat) : BitVec 32 := x.extractLsb' (32 * i) 32

theorem eq_iff_halves (x y : BitVec 64) : x = y ↔ half x 0 = half y 0 ∧ half x 1 = half y 1 := by
  constructor
  · rintro rfl; exact ⟨rfl, rfl⟩
  · rintro ⟨h0, h1⟩
    apply BitVec.eq_of_getLsbD_eq
    intro i hi
    by_cases h : i < 32
    · have := congrArg (fun v => BitVec.getLsbD v i) h0
      simpa [half, BitVec.getLsbD_extractLsb', h] using this
    · have := congrArg (fun v => BitVec.getLsbD v (i - 32)) h1
      have h2 : i - 32 < 32 := by omega
      have h3 : 32 + (i - 32) = i := by omega
      simpa [half, BitVec.getLsbD_extractLsb', h2, h3] using this

/-- A lane of `k` bits of a register built from lanes of `2k` bits. -/
theorem lane_ofLanes_double (k i : Nat) (f : Nat → BitVec (2 * k)) (h : k * (i + 1) ≤ 128) :
    lane k i (ofLanes (2 * k) f) = (f (i / 2)).extractLsb' (k * (i % 2)) k := by
  apply BitVec.eq_of_getLsbD_eq
  intro j hj
  have hk : 0 < k := by omega
  have h1 : k * (i + 1) = k * i + k := Nat.mul_succ k i
  simp only [lane, ofLanes, BitVec.getLsbD_extractLsb', getLsbD_ofBits]
  have h5 : k * i = 2 * k * (i / 2) + k * (i % 2) := by
    conv => lhs; rw [← Nat.div_add_mod i 2]
    rw [Nat.mul_add, ← Nat.mul_assoc, Nat.mul_comm k 2]
  have h6 : k * (i % 2) + j < 2 * k := by
    have : i % 2 ≤ 1 := by omega
    have : k * (i % 2) ≤ k * 1 := Nat.mul_le_mul_left k this
    omega
  have h2 : (k * i + j) / (2 * k) = i / 2 := by
    rw [h5, Nat.add_assoc, Nat.mul_add_div (by omega), Nat.div_eq_of_lt h6]; omega
  have h3 : (k * i + j) % (2 * k) = k * (i % 2) + j := by
    rw [h5, Nat.add_assoc, Nat.mul_add_mod, Nat.mod_eq_of_lt h6]
  rw [h2, h3]
  have h4 : k * i + j < 128 := by omega
  simp [hj, h4]

/-! ### Comparison masks -/

/-- Every lane of `k` bits is all ones or all zeros, as `p` says. -/
def MaskOf (k : Nat) (v : M128) (p : Nat → Bool) : Prop :=
  ∀ i, k * (i + 1) ≤ 128 → lane k i v = if p i then BitVec.allOnes k else 0#k

theorem MaskOf.congr {k : Nat} {v : M128} {p q : Nat → Bool} (h : MaskOf k v p)
    (hpq : ∀ i, k * (i + 1) ≤ 128 → p i = q i) : MaskOf k v q := by
  intro i hi
  rw [h i hi, hpq i hi]

theorem maskOf_ofLanes (k : Nat) (p : Nat → Bool) :
    MaskOf k (ofLanes k (fun i => if p i then BitVec.allOnes k else 0#k)) p := by
  intro i hi
  rw [lane_ofLanes k i _ hi]

theorem maskOf_cmpeq (k : Nat) (f : Nat → BitVec k) (x : BitVec k) :
    MaskOf k (cmpeq k (ofLanes k f) (set1 k x)) (fun i => decide (f i = x)) := by
  intro i hi
  rw [cmpeq, lane_ofLanes k i _ hi, set1, lane_ofLanes k i _ hi, lane_ofLanes k i _ hi]
  by_cases h : f i = x <;> simp [h]

theorem maskOf_cmpeq32_64 (f : Nat → BitVec 64) (x : BitVec 64) :
    MaskOf 32 (cmpeq 32 (ofLanes 64 f) (set1 64 x))
      (fun i => decide (half (f (i / 2)) (i % 2) = half x (i % 2))) := by
  intro i hi
  rw [cmpeq, lane_ofLanes 32 i _ hi, set1, lane_ofLanes_double 32 i _ hi, lane_ofLanes_double 32 i _ hi]
  show (if half (f (i / 2)) (i % 2) = half x (i % 2) then _ else _) = _
  by_cases h : half (f (i / 2)) (i % 2) = half x (i % 2) <;> simp [h]

/-- A mask of wide lanes is a mask of lanes half as wide. -/
theorem MaskOf.narrow {k : Nat} {v : M128} {p : Nat → Bool} (h : MaskOf (2 * k) v p)
    (h128 : 128 % (2 * k) = 0) : MaskOf k v (fun i => p (i / 2)) := by
  intro i hi
  by_cases hk0 : k = 0
  · subst hk0; apply BitVec.eq_of_getLsbD_eq; intro j hj; omega
  have hk : 0 < k := by omega
  have h1 : k * (i + 1) = k * i + k := Nat.mul_succ k i
  have hi2 : 2 * k * (i / 2 + 1) ≤ 128 := by
    have h3 : 128 = 2 * k * (128 / (2 * k)) := by
      have := Nat.div_add_mod 128 (2 * k); omega
    have h4 : i / 2 < 128 / (2 * k) := by
      rw [Nat.div_lt_iff_lt_mul (by omega)]
      have h5 : k * i < 128 := by omega
      have h6 : k * i < k * (128 / (2 * k) * 2) := by
        have e : k * (128 / (2 * k) * 2) = 2 * k * (128 / (2 * k)) := by
          rw [Nat.mul_comm (128 / (2 * k)) 2, ← Nat.mul_assoc, Nat.mul_comm k 2]
        rw [e, ← h3]; exact h5
      exact Nat.lt_of_mul_lt_mul_left h6
    calc 2 * k * (i / 2 + 1) ≤ 2 * k * (128 / (2 * k)) := Nat.mul_le_mul_left _ h4
      _ = 128 := h3.symm
  have hh := h (i / 2) hi2
  apply BitVec.eq_of_getLsbD_eq
  intro j hj
  have h5 : k * i = 2 * k * (i / 2) + k * (i % 2) := by
    conv => lhs; rw [← Nat.div_add_mod i 2]
    rw [Nat.mul_add, ← Nat.mul_assoc, Nat.mul_comm k 2]
  have h6 : k * (i % 2) + j < 2 * k := by
    have : i % 2 ≤ 1 := by omega
    have : k * (i % 2) ≤ k * 1 := Nat.mul_le_mul_left k this
    omega
  have e := congrArg (fun u => BitVec.getLsbD u (k * (i % 2) + j)) hh
  simp only [lane, BitVec.getLsbD_extractLsb', h6, decide_true, Bool.true_and] at e
  simp only [lane, BitVec.getLsbD_extractLsb', hj, decide_true, Bool.true_and]
  rw [h5, Nat.add_assoc, e]
  by_cases hp : p (i / 2) = true
  · rw [if_pos hp, if_pos hp, BitVec.getLsbD_allOnes, BitVec.getLsbD_allOnes]; simp [h6, hj]
  · rw [if_neg hp, if_neg hp]; simp

theorem sel_lt (imm i : Nat) : sel imm i < 4 := Nat.mod_lt _ (by decide)

theorem MaskOf.shuffle_ps {a b : M128} {p q : Nat → Bool} (ha : MaskOf 32 a p) (hb : MaskOf 32 b q)
    (imm : Nat) :
    MaskOf 32 (shuffle_ps a b imm) (fun i => if i < 2 then p (sel imm i) else q (sel imm i)) := by
  intro i hi
  have hs := sel_lt imm i
  rw [Find.shuffle_ps, lane_ofLanes 32 i _ hi]
  by_cases h : i < 2
  · simp only [h, if_true]; exact ha _ (by omega)
  · simp only [h, if_false]; exact hb _ (by omega)

theorem MaskOf.shuffle_epi32 {a : M128} {p : Nat → Bool} (ha : MaskOf 32 a p) (imm : Nat) :
    MaskOf 32 (shuffle_epi32 a imm) (fun i => p (sel imm i)) := by
  intro i hi
  have hs := sel_lt imm i
  rw [Find.shuffle_epi32, lane_ofLanes 32 i _ hi]
  exact ha _ (by omega)

theorem lane_and (k i : Nat) (a b : M128) : lane k i (a &&& b) = lane k i a &&& lane k i b := by
  apply BitVec.eq_of_getLsbD_eq
  intro j hj
  simp [lane, hj]

theorem MaskOf.pand {k : Nat} {a b : M128} {p q : Nat → Bool} (ha : MaskOf k a p) (hb : MaskOf k b q) :
    MaskOf k (pand a b) (fun i => p i && q i) := by
  intro i hi
  rw [Find.pand, lane_and, ha i hi, hb i hi]
  show _ = if (p i && q i) = true then _ else _
  generalize p i = x
  generalize q i = y
  cases x <;> cases y <;> simp

theorem sat16_mask (b : Bool) :
    sat 16 (if b then BitVec.allOnes 32 else 0#32) = if b then BitVec.allOnes 16 else 0#16 := by
  cases b <;> decide

theorem sat8_mask (b : Bool) :
    sat 8 (if b then BitVec.allOnes 16 else 0#16) = if b then BitVec.allOnes 8 else 0#8 := by
  cases b <;> decide

theorem MaskOf.packs32 {a b : M128} {p q : Nat → Bool} (ha : MaskOf 32 a p) (hb : MaskOf 32 b q) :
    MaskOf 16 (packs_epi32 a b) (fun i => if i < 4 then p i else q (i - 4)) := by
  intro i hi
  rw [packs_epi32, lane_ofLanes 16 i _ hi]
  by_cases h : i < 4
  · simp only [h, if_true]; rw [ha _ (by omega), sat16_mask]
  · simp only [h, if_false]; rw [hb _ (by omega), sat16_mask]

theorem MaskOf.packs16 {a b : M128} {p q : Nat → Bool} (ha : MaskOf 16 a p) (hb : MaskOf 16 b q) :
    MaskOf 8 (packs_epi16 a b) (fun i => if i < 8 then p i else q (i - 8)) := by
  intro i hi
  rw [packs_epi16, lane_ofLanes 8 i _ hi]
  by_cases h : i < 8
  · simp only [h, if_true]; rw [ha _ (by omega), sat8_mask]
  · simp only [h, if_false]; rw [hb _ (by omega), sat8_mask]

theorem msb_mask (k : Nat) (hk : 0 < k) (b : Bool) :
    (if b then BitVec.allOnes k else 0#k).msb = b := by
  cases b
  · simp
  · rw [if_pos rfl, BitVec.msb_allOnes hk]

theorem MaskOf.movemask_epi8 {v : M128} {p : Nat → Bool} (h : MaskOf 8 v p) (i : Nat) :
    (movemask_epi8 v).getLsbD i = (decide (i < 16) && p i) := by
  rw [Find.movemask_epi8, getLsbD_ofBits]
  by_cases hi : i < 16
  · rw [h i (by omega), msb_mask 8 (by decide)]
    have : i < 32 := by omega
    simp [hi, this]
  · simp [hi]

theorem MaskOf.movemask_ps {v : M128} {p : Nat → Bool} (h : MaskOf 32 v p) (i : Nat) :
    (movemask_ps v).getLsbD i = (decide (i < 4) && p i) := by
  rw [Find.movemask_ps, getLsbD_ofBits]
  by_cases hi : i < 4
  · rw [h i (by omega), msb_mask 32 (by decide)]
    have : i < 32 := by omega
    simp [hi, this]
  · simp [hi]

/-- `movemask_pd` looks only at the top half of each 64-bit lane. -/
theorem MaskOf.movemask_pd32 {v : M128} {p : Nat → Bool} (h : MaskOf 32 v p) (i : Nat) :
    (movemask_pd v).getLsbD i = (decide (i < 2) && p (2 * i + 1)) := by
  rw [Find.movemask_pd, getLsbD_ofBits]
  by_cases hi : i < 2
  · have h32 : i < 32 := by omega
    have e : (lane 64 i v).msb = (lane 32 (2 * i + 1) v).msb := by
      rw [BitVec.msb_eq_getLsbD_last, BitVec.msb_eq_getLsbD_last]
      simp only [lane, BitVec.getLsbD_extractLsb']
      have : 64 * i + 63 = 32 * (2 * i + 1) + 31 := by omega
      simp [this]
    rw [e, h _ (by omega), msb_mask 32 (by decide)]
    simp [hi, h32]
  · simp [hi]

/-! ### count_trailing_zeros -/

/-- `c` is the position of the lowest set bit of `x`. -/
def LowestBit (x : BitVec 32) (c : Nat) : Prop :=
  x.getLsbD c = true ∧ ∀ j, j < c → x.getLsbD j = false

theorem builtin_ctz_spec (x : BitVec 32) (h : x ≠ 0) : ∃ c, builtin_ctz x = some c ∧ LowestBit x c := by
  simp only [builtin_ctz, h, if_false]
  cases hf : (List.range 32).find? (fun i => x.getLsbD i) with
  | none =>
    exfalso
    apply h
    apply BitVec.eq_of_getLsbD_eq
    intro i hi
    have := List.find?_eq_none.1 hf i (List.mem_range.2 hi)
    simpa using this
  | some c =>
    refine ⟨c, rfl, ?_, ?_⟩
    · have := List.find?_some hf
      exact this
    · intro j hj
      rw [List.find?_range_eq_some] at hf
      have := hf.2.2 j hj
      simpa using this

/-! ### One block -/

/-- The mask computed for the block of `len` elements at `pos`: `div` bits per element. -/
def BlockMask {w : Nat} (A : Arr w) (addr : BitVec w) (pos len div : Nat) (mask : BitVec 32) : Prop :=
  ∀ i, mask.getLsbD i = (decide (i < len * div) && decide (A.get (pos + i / div) = addr))

/-- What a fragment of a search over the table may answer: a hit is the first occurrence of
`addr`, and falling through at `p` means there is none before `p`. -/
def Sound {w : Nat} (A : Arr w) (addr : BitVec w) (P : Nat → Prop) : Res → Prop
  | .fault => False
  | .done p => A.get p = addr ∧ ∀ j, j < p → A.get j ≠ addr
  | .next p => P p ∧ ∀ j, j < p → A.get j ≠ addr

theorem sound_blockTail {w : Nat} {A : Arr w} {addr : BitVec w} {pos len div : Nat}
    {mask : Option (BitVec 32)} (hdiv : 0 < div)
    (hm : ∃ m, mask = some m ∧ BlockMask A addr pos len div m)
    (hb : ∀ j, j < pos → A.get j ≠ addr) :
    Sound A addr (fun p => p = pos + len) (blockTail mask pos div len) := by
  obtain ⟨m, rfl, hm⟩ := hm
  simp only [blockTail]
  by_cases h0 : m = 0
  · subst h0
    rw [if_neg (by simp)]
    refine ⟨rfl, fun j hj => ?_⟩
    by_cases h : j < pos
    · exact hb j h
    · have h1 := hm ((j - pos) * div)
      have h2 : (j - pos) * div < len * div := Nat.mul_lt_mul_of_pos_right (by omega) hdiv
      rw [Nat.mul_div_cancel _ hdiv] at h1
      have h3 : pos + (j - pos) = j := by omega
      rw [h3] at h1
      simpa [h2] using h1
  · rw [if_pos h0]
    obtain ⟨c, hc, hlow, hmin⟩ := builtin_ctz_spec m h0
    rw [hc]
    have h1 := hm c
    rw [hlow] at h1
    have h1' : c < len * div ∧ A.get (pos + c / div) = addr := by
      simpa using h1.symm
    refine ⟨h1'.2, fun j hj => ?_⟩
    by_cases h : j < pos
    · exact hb j h
    · have h2 : (j - pos) * div < c := by
        have : j - pos < c / div := by omega
        have h4 : (j - pos + 1) * div ≤ c / div * div := Nat.mul_le_mul_right div this
        have h5 : c / div * div ≤ c := Nat.div_mul_le_self c div
        have h6 : (j - pos + 1) * div = (j - pos) * div + div := Nat.succ_mul _ _
        omega
      have h3 := hm ((j - pos) * div)
      rw [hmin _ h2, Nat.mul_div_cancel _ hdiv] at h3
      have h4 : pos + (j - pos) = j := by omega
      rw [h4] at h3
      have h5 : (j - pos) * div < len * div := by omega
      simpa [h5] using h3

theorem Sound.andThen {w : Nat} {A : Arr w} {addr : BitVec w} {P Q : Nat → Prop} {r : Res}
    {k : Nat → Res} (h : Sound A addr P r)
    (hk : ∀ p, P p → (∀ j, j < p → A.get j ≠ addr) → Sound A addr Q (k p)) :
    Sound A addr Q (r.andThen k) := by
  cases r with
  | fault => exact h.elim
  | done p => exact h
  | next p => exact hk p h.1 h.2

theorem Sound.weaken {w : Nat} {A : Arr w} {addr : BitVec w} {P Q : Nat → Prop} {r : Res}
    (h : Sound A addr P r) (hq : ∀ p, P p → Q p) : Sound A addr Q r := by
  cases r with
  | fault => exact h.elim
  | done p => exact h
  | next p => exact ⟨hq p h.1, h.2⟩

theorem sound_loop16 {w : Nat} {A : Arr w} {addr : BitVec w} {block : Nat → Option (BitVec 32)}
    {m : Nat} (hm : m % 16 = 0)
    (hblock : ∀ pos, pos % 16 = 0 → pos + 16 ≤ m → ∃ k, block pos = some k ∧ BlockMask A addr pos 16 1 k) :
    ∀ (d pos : Nat), m - pos = d → pos % 16 = 0 → pos ≤ m → (∀ j, j < pos → A.get j ≠ addr) →
      Sound A addr (fun p => p = m) (loop16 block m pos) := by
  intro d
  induction d using Nat.strongRecOn with
  | ind d ih =>
    intro pos hd hpos hle hb
    rw [loop16]
    by_cases h : pos < m
    · rw [dif_pos h]
      refine (sound_blockTail (by decide) (hblock pos hpos (by omega)) hb).andThen ?_
      intro p hp hbp
      subst hp
      exact ih (m - (pos + 16)) (by omega) (pos + 16) rfl (by omega) (by omega) hbp
    · rw [dif_neg h]
      exact ⟨by omega, hb⟩

/-- A sound search up to a bound at or beyond `size` answers the lookup. -/
theorem Sound.answer {w : Nat} {A : Arr w} {addr : BitVec w} {P : Nat → Prop} {size : Nat} {r : Res}
    (h : Sound A addr P r) (hP : ∀ p, P p → size ≤ p) :
    ∃ p, r.result = some p ∧ Answer A.get size addr p := by
  cases r with
  | fault => exact h.elim
  | done p =>
    refine ⟨p, rfl, fun _ => h, fun hs j hj => h.2 j (by omega)⟩
  | next p =>
    have := hP p h.1
    exact ⟨p, rfl, fun hlt => by omega, fun _ j hj => h.2 j (by omega)⟩

/-! ### The generic search -/

theorem genericFrom_answer {w : Nat} (addr : BitVec w) (A : Arr w) (size : Nat) (hs : size ≤ A.cap) :
    ∀ (d i : Nat), size - i = d → i ≤ size → (∀ j, j < i → A.get j ≠ addr) →
      ∃ p, genericFrom addr A size i = some p ∧ p ≤ size ∧ Answer A.get size addr p := by
  intro d
  induction d with
  | zero =>
    intro i hd hi hb
    rw [genericFrom, dif_neg (by omega)]
    exact ⟨size, rfl, Nat.le_refl _, fun h => by omega, fun _ j hj => hb j (by omega)⟩
  | succ d ih =>
    intro i hd hi hb
    rw [genericFrom, dif_pos (by omega)]
    have hr : A.read i = some (A.get i) := by rw [Arr.read, if_pos (by omega)]
    rw [hr]
    by_cases h : A.get i = addr
    · simp only [h, if_true]
      exact ⟨i, rfl, hi, fun _ => ⟨h, hb⟩, fun h' => by omega⟩
    · simp only [h, if_false]
      refine ih (i + 1) (by omega) (by omega) (fun j hj => ?_)
      by_cases hj2 : j = i
      · rw [hj2]; exact h
      · exact hb j (by omega)

theorem generic_answer {w : Nat} (addr : BitVec w) (A : Arr w) (size : Nat) (hs : size ≤ A.cap) :
    ∃ p, find_address_generic addr A size = some p ∧ p ≤ size ∧ Answer A.get size addr p :=
  genericFrom_answer addr A size hs size 0 (by omega) (by omega) (fun j hj => by omega)

/-! ### Loads -/

theorem load64_eq {A : Arr 64} {pos : Nat} (h : pos % 2 = 0) (h2 : pos + 2 ≤ A.cap) :
    load64 A pos = some (ofLanes 64 (fun i => A.get (pos + i))) := by
  rw [load64, if_pos ⟨h, h2⟩]

theorem load32_eq {A : Arr 32} {pos : Nat} (h : pos % 4 = 0) (h2 : pos + 4 ≤ A.cap) :
    load32 A pos = some (ofLanes 32 (fun i => A.get (pos + i))) := by
  rw [load32, if_pos ⟨h, h2⟩]

theorem sel_even : sel (mmShuffle 2 0 2 0) 0 = 0 ∧ sel (mmShuffle 2 0 2 0) 1 = 2 ∧
    sel (mmShuffle 2 0 2 0) 2 = 0 ∧ sel (mmShuffle 2 0 2 0) 3 = 2 := by decide

theorem sel_odd : sel (mmShuffle 3 1 3 1) 0 = 1 ∧ sel (mmShuffle 3 1 3 1) 1 = 3 ∧
    sel (mmShuffle 3 1 3 1) 2 = 1 ∧ sel (mmShuffle 3 1 3 1) 3 = 3 := by decide

/-- The mask of four 64-bit elements from two registers, SSE2: compare halves, gather the low
and the high halves, and combine. -/
theorem maskOf_pair_sse2 (f g : Nat → BitVec 64) (x : BitVec 64) :
    MaskOf 32
      (pand (shuffle_ps (cmpeq 32 (ofLanes 64 f) (set1 64 x)) (cmpeq 32 (ofLanes 64 g) (set1 64 x)) (mmShuffle 2 0 2 0))
        (shuffle_ps (cmpeq 32 (ofLanes 64 f) (set1 64 x)) (cmpeq 32 (ofLanes 64 g) (set1 64 x)) (mmShuffle 3 1 3 1)))
      (fun i => if i < 2 then decide (f i = x) else decide (g (i - 2) = x)) := by
  have hf := maskOf_cmpeq32_64 f x
  have hg := maskOf_cmpeq32_64 g x
  refine ((hf.shuffle_ps hg _).pand (hf.shuffle_ps hg _)).congr ?_
  intro i hi
  have hi4 : i < 4 := by omega
  obtain ⟨e0, e1, e2, e3⟩ := sel_even
  obtain ⟨o0, o1, o2, o3⟩ := sel_odd
  have hd : ∀ y : BitVec 64, decide (y = x) = (decide (half y 0 = half x 0) && decide (half y 1 = half x 1)) := by
    intro y
    by_cases h : y = x
    · subst h; simp
    · have h2 := mt (eq_iff_halves y x).2 h
      by_cases h0 : half y 0 = half x 0
      · have h1 : half y 1 ≠ half x 1 := fun h1 => h2 ⟨h0, h1⟩
        simp [h, h1]
      · simp [h, h0]
  have hcases : i = 0 ∨ i = 1 ∨ i = 2 ∨ i = 3 := by omega
  rcases hcases with rfl | rfl | rfl | rfl <;> simp [e0, e1, e2, e3, o0, o1, o2, o3, hd]

/-- The same for SSE4.1: compare whole elements and gather the low halves. -/
theorem maskOf_pair_sse41 (f g : Nat → BitVec 64) (x : BitVec 64) :
    MaskOf 32
      (shuffle_ps (cmpeq 64 (ofLanes 64 f) (set1 64 x)) (cmpeq 64 (ofLanes 64 g) (set1 64 x)) (mmShuffle 2 0 2 0))
      (fun i => if i < 2 then decide (f i = x) else decide (g (i - 2) = x)) := by
  have hf : MaskOf 32 (cmpeq 64 (ofLanes 64 f) (set1 64 x)) (fun i => decide (f (i / 2) = x)) :=
    MaskOf.narrow (k := 32) (maskOf_cmpeq 64 f x) (by decide)
  have hg : MaskOf 32 (cmpeq 64 (ofLanes 64 g) (set1 64 x)) (fun i => decide (g (i / 2) = x)) :=
    MaskOf.narrow (k := 32) (maskOf_cmpeq 64 g x) (by decide)
  refine (hf.shuffle_ps hg _).congr ?_
  intro i hi
  have hi4 : i < 4 := by omega
  obtain ⟨e0, e1, e2, e3⟩ := sel_even
  have hcases : i = 0 ∨ i = 1 ∨ i = 2 ∨ i = 3 := by omega
  rcases hcases with rfl | rfl | rfl | rfl <;> simp [e0, e1, e2, e3]

/-! ### Blocks -/

/-- From the mask of a block to its meaning. -/
theorem blockMask_of {w : Nat} {A : Arr w} {addr : BitVec w} {pos len div : Nat} {mask : BitVec 32}
    {p : Nat → Bool} (hm : ∀ i, mask.getLsbD i = (decide (i < len * div) && p i))
    (hp : ∀ i, i < len * div → p i = decide (A.get (pos + i / div) = addr)) :
    BlockMask A addr pos len div mask := by
  intro i
  rw [hm i]
  by_cases h : i < len * div
  · rw [hp i h]
  · simp [h]

theorem sse2_64_block16_ok (A : Arr 64) (addr : BitVec 64) (pos : Nat) (h2 : pos % 2 = 0)
    (hc : pos + 16 ≤ A.cap) :
    ∃ k, sse2_64_block16 A (set1 64 addr) pos = some k ∧ BlockMask A addr pos 16 1 k := by
  unfold sse2_64_block16
  rw [load64_eq h2 (by omega), load64_eq (by omega : (pos + 2) % 2 = 0) (by omega),
    load64_eq (by omega : (pos + 4) % 2 = 0) (by omega), load64_eq (by omega : (pos + 6) % 2 = 0) (by omega),
    load64_eq (by omega : (pos + 8) % 2 = 0) (by omega), load64_eq (by omega : (pos + 10) % 2 = 0) (by omega),
    load64_eq (by omega : (pos + 12) % 2 = 0) (by omega), load64_eq (by omega : (pos + 14) % 2 = 0) (by omega)]
  refine ⟨_, rfl, ?_⟩
  have m1 := maskOf_pair_sse2 (fun i => A.get (pos + i)) (fun i => A.get (pos + 2 + i)) addr
  have m2 := maskOf_pair_sse2 (fun i => A.get (pos + 4 + i)) (fun i => A.get (pos + 6 + i)) addr
  have m3 := maskOf_pair_sse2 (fun i => A.get (pos + 8 + i)) (fun i => A.get (pos + 10 + i)) addr
  have m4 := maskOf_pair_sse2 (fun i => A.get (pos + 12 + i)) (fun i => A.get (pos + 14 + i)) addr
  refine blockMask_of (fun i => ((m1.packs32 m2).packs16 (m3.packs32 m4)).movemask_epi8 i) ?_
  intro i hi
  have hcases : i = 0 ∨ i = 1 ∨ i = 2 ∨ i = 3 ∨ i = 4 ∨ i = 5 ∨ i = 6 ∨ i = 7 ∨ i = 8 ∨ i = 9 ∨ i = 10 ∨
      i = 11 ∨ i = 12 ∨ i = 13 ∨ i = 14 ∨ i = 15 := by omega
  rcases hcases with rfl | rfl | rfl | rfl | rfl | rfl | rfl | rfl | rfl | rfl | rfl | rfl | rfl | rfl | rfl | rfl <;>
    simp [Nat.add_assoc]

theorem sse41_block16_ok (A : Arr 64) (addr : BitVec 64) (pos : Nat) (h2 : pos % 2 = 0)
    (hc : pos + 16 ≤ A.cap) :
    ∃ k, sse41_block16 A (set1 64 addr) pos = some k ∧ BlockMask A addr pos 16 1 k := by
  unfold sse41_block16
  rw [load64_eq h2 (by omega), load64_eq (by omega : (pos + 2) % 2 = 0) (by omega),
    load64_eq (by omega : (pos + 4) % 2 = 0) (by omega), load64_eq (by omega : (pos + 6) % 2 = 0) (by omega),
    load64_eq (by omega : (pos + 8) % 2 = 0) (by omega), load64_eq (by omega : (pos + 10) % 2 = 0) (by omega),
    load64_eq (by omega : (pos + 12) % 2 = 0) (by omega), load64_eq (by omega : (pos + 14) % 2 = 0) (by omega)]
  refine ⟨_, rfl, ?_⟩
  have m1 := maskOf_pair_sse41 (fun i => A.get (pos + i)) (fun i => A.get (pos + 2 + i)) addr
  have m2 := maskOf_pair_sse41 (fun i => A.get (pos + 4 + i)) (fun i => A.get (pos + 6 + i)) addr
  have m3 := maskOf_pair_sse41 (fun i => A.get (pos + 8 + i)) (fun i => A.get (pos + 10 + i)) addr
  have m4 := maskOf_pair_sse41 (fun i => A.get (pos + 12 + i)) (fun i => A.get (pos + 14 + i)) addr
  refine blockMask_of (fun i => ((m1.packs32 m2).packs16 (m3.packs32 m4)).movemask_epi8 i) ?_
  intro i hi
  have hcases : i = 0 ∨ i = 1 ∨ i = 2 ∨ i = 3 ∨ i = 4 ∨ i = 5 ∨ i = 6 ∨ i = 7 ∨ i = 8 ∨ i = 9 ∨ i = 10 ∨
      i = 11 ∨ i = 12 ∨ i = 13 ∨ i = 14 ∨ i = 15 := by omega
  rcases hcases with rfl | rfl | rfl | rfl | rfl | rfl | rfl | rfl | rfl | rfl | rfl | rfl | rfl | rfl | rfl | rfl <;>
    simp [Nat.add_assoc]

theorem sse2_64_block8_ok (A : Arr 64) (addr : BitVec 64) (pos : Nat) (h2 : pos % 2 = 0)
    (hc : pos + 8 ≤ A.cap) :
    ∃ k, sse2_64_block8 A (set1 64 addr) pos = some k ∧ BlockMask A addr pos 8 2 k := by
  unfold sse2_64_block8
  rw [load64_eq h2 (by omega), load64_eq (by omega : (pos + 2) % 2 = 0) (by omega),
    load64_eq (by omega : (pos + 4) % 2 = 0) (by omega), load64_eq (by omega : (pos + 6) % 2 = 0) (by omega)]
  refine ⟨_, rfl, ?_⟩
  have m1 := maskOf_pair_sse2 (fun i => A.get (pos + i)) (fun i => A.get (pos + 2 + i)) addr
  have m2 := maskOf_pair_sse2 (fun i => A.get (pos + 4 + i)) (fun i => A.get (pos + 6 + i)) addr
  refine blockMask_of (fun i => (MaskOf.narrow (k := 8) (m1.packs32 m2) (by decide)).movemask_epi8 i) ?_
  intro i hi
  have hcases : i = 0 ∨ i = 1 ∨ i = 2 ∨ i = 3 ∨ i = 4 ∨ i = 5 ∨ i = 6 ∨ i = 7 ∨ i = 8 ∨ i = 9 ∨ i = 10 ∨
      i = 11 ∨ i = 12 ∨ i = 13 ∨ i = 14 ∨ i = 15 := by omega
  rcases hcases with rfl | rfl | rfl | rfl | rfl | rfl | rfl | rfl | rfl | rfl | rfl | rfl | rfl | rfl | rfl | rfl <;>
    simp [Nat.add_assoc]

theorem sse41_block8_ok (A : Arr 64) (addr : BitVec 64) (pos : Nat) (h2 : pos % 2 = 0)
    (hc : pos + 8 ≤ A.cap) :
    ∃ k, sse41_block8 A (set1 64 addr) pos = some k ∧ BlockMask A addr pos 8 2 k := by
  unfold sse41_block8
  rw [load64_eq h2 (by omega), load64_eq (by omega : (pos + 2) % 2 = 0) (by omega),
    load64_eq (by omega : (pos + 4) % 2 = 0) (by omega), load64_eq (by omega : (pos + 6) % 2 = 0) (by omega)]
  refine ⟨_, rfl, ?_⟩
  have m1 := maskOf_pair_sse41 (fun i => A.get (pos + i)) (fun i => A.get (pos + 2 + i)) addr
  have m2 := maskOf_pair_sse41 (fun i => A.get (pos + 4 + i)) (fun i => A.get (pos + 6 + i)) addr
  refine blockMask_of (fun i => (MaskOf.narrow (k := 8) (m1.packs32 m2) (by decide)).movemask_epi8 i) ?_
  intro i hi
  have hcases : i = 0 ∨ i = 1 ∨ i = 2 ∨ i = 3 ∨ i = 4 ∨ i = 5 ∨ i = 6 ∨ i = 7 ∨ i = 8 ∨ i = 9 ∨ i = 10 ∨
      i = 11 ∨ i = 12 ∨ i = 13 ∨ i = 14 ∨ i = 15 := by omega
  rcases hcases with rfl | rfl | rfl | rfl | rfl | rfl | rfl | rfl | rfl | rfl | rfl | rfl | rfl | rfl | rfl | rfl <;>
    simp [Nat.add_assoc]

theorem sse2_64_block4_ok (A : Arr 64) (addr : BitVec 64) (pos : Nat) (h2 : pos % 2 = 0)
    (hc : pos + 4 ≤ A.cap) :
    ∃ k, sse2_64_block4 A (set1 64 addr) pos = some k ∧ BlockMask A addr pos 4 1 k := by
  unfold sse2_64_block4
  rw [load64_eq h2 (by omega), load64_eq (by omega : (pos + 2) % 2 = 0) (by omega)]
  refine ⟨_, rfl, ?_⟩
  have m1 := maskOf_pair_sse2 (fun i => A.get (pos + i)) (fun i => A.get (pos + 2 + i)) addr
  refine blockMask_of (fun i => m1.movemask_ps i) ?_
  intro i hi
  have hcases : i = 0 ∨ i = 1 ∨ i = 2 ∨ i = 3 := by omega
  rcases hcases with rfl | rfl | rfl | rfl <;> simp [Nat.add_assoc]

theorem sse41_block4_ok (A : Arr 64) (addr : BitVec 64) (pos : Nat) (h2 : pos % 2 = 0)
    (hc : pos + 4 ≤ A.cap) :
    ∃ k, sse41_block4 A (set1 64 addr) pos = some k ∧ BlockMask A addr pos 4 1 k := by
  unfold sse41_block4
  rw [load64_eq h2 (by omega), load64_eq (by omega : (pos + 2) % 2 = 0) (by omega)]
  refine ⟨_, rfl, ?_⟩
  have m1 := maskOf_pair_sse41 (fun i => A.get (pos + i)) (fun i => A.get (pos + 2 + i)) addr
  refine blockMask_of (fun i => m1.movemask_ps i) ?_
  intro i hi
  have hcases : i = 0 ∨ i = 1 ∨ i = 2 ∨ i = 3 := by omega
  rcases hcases with rfl | rfl | rfl | rfl <;> simp [Nat.add_assoc]

theorem sel_swap : sel (mmShuffle 2 3 0 1) 0 = 1 ∧ sel (mmShuffle 2 3 0 1) 1 = 0 ∧
    sel (mmShuffle 2 3 0 1) 2 = 3 ∧ sel (mmShuffle 2 3 0 1) 3 = 2 := by decide

theorem sse2_64_block2_ok (A : Arr 64) (addr : BitVec 64) (pos : Nat) (h2 : pos % 2 = 0)
    (hc : pos + 2 ≤ A.cap) :
    ∃ k, sse2_64_block2 A (set1 64 addr) pos = some k ∧ BlockMask A addr pos 2 1 k := by
  unfold sse2_64_block2
  rw [load64_eq h2 (by omega)]
  refine ⟨_, rfl, ?_⟩
  have m1 := maskOf_cmpeq32_64 (fun i => A.get (pos + i)) addr
  refine blockMask_of (fun i => ((m1.shuffle_epi32 _).pand m1).movemask_pd32 i) ?_
  obtain ⟨s0, s1, s2, s3⟩ := sel_swap
  intro i hi
  have hcases : i = 0 ∨ i = 1 := by omega
  have hd : ∀ y : BitVec 64, decide (y = addr) = (decide (half y 0 = half addr 0) && decide (half y 1 = half addr 1)) := by
    intro y
    by_cases h : y = addr
    · subst h; simp
    · have h2 := mt (eq_iff_halves y addr).2 h
      by_cases h0 : half y 0 = half addr 0
      · have h1 : half y 1 ≠ half addr 1 := fun h1 => h2 ⟨h0, h1⟩
        simp [h, h1]
      · simp [h, h0]
  rcases hcases with rfl | rfl <;> simp [s1, s3, hd]

theorem sse41_block2_ok (A : Arr 64) (addr : BitVec 64) (pos : Nat) (h2 : pos % 2 = 0)
    (hc : pos + 2 ≤ A.cap) :
    ∃ k, sse41_block2 A (set1 64 addr) pos = some k ∧ BlockMask A addr pos 2 1 k := by
  unfold sse41_block2
  rw [load64_eq h2 (by omega)]
  refine ⟨_, rfl, ?_⟩
  have m1 : MaskOf 32 _ _ := MaskOf.narrow (k := 32) (maskOf_cmpeq 64 (fun i => A.get (pos + i)) addr) (by decide)
  refine blockMask_of (fun i => m1.movemask_pd32 i) ?_
  intro i hi
  have hcases : i = 0 ∨ i = 1 := by omega
  rcases hcases with rfl | rfl <;> simp

theorem sse2_32_block16_ok (A : Arr 32) (addr : BitVec 32) (pos : Nat) (h2 : pos % 4 = 0)
    (hc : pos + 16 ≤ A.cap) :
    ∃ k, sse2_32_block16 A (set1 32 addr) pos = some k ∧ BlockMask A addr pos 16 1 k := by
  unfold sse2_32_block16
  rw [load32_eq h2 (by omega), load32_eq (by omega : (pos + 4) % 4 = 0) (by omega),
    load32_eq (by omega : (pos + 8) % 4 = 0) (by omega), load32_eq (by omega : (pos + 12) % 4 = 0) (by omega)]
  refine ⟨_, rfl, ?_⟩
  have m1 := maskOf_cmpeq 32 (fun i => A.get (pos + i)) addr
  have m2 := maskOf_cmpeq 32 (fun i => A.get (pos + 4 + i)) addr
  have m3 := maskOf_cmpeq 32 (fun i => A.get (pos + 8 + i)) addr
  have m4 := maskOf_cmpeq 32 (fun i => A.get (pos + 12 + i)) addr
  refine blockMask_of (fun i => ((m1.packs32 m2).packs16 (m3.packs32 m4)).movemask_epi8 i) ?_
  intro i hi
  have hcases : i = 0 ∨ i = 1 ∨ i = 2 ∨ i = 3 ∨ i = 4 ∨ i = 5 ∨ i = 6 ∨ i = 7 ∨ i = 8 ∨ i = 9 ∨ i = 10 ∨
      i = 11 ∨ i = 12 ∨ i = 13 ∨ i = 14 ∨ i = 15 := by omega
  rcases hcases with rfl | rfl | rfl | rfl | rfl | rfl | rfl | rfl | rfl | rfl | rfl | rfl | rfl | rfl | rfl | rfl <;>
    simp [Nat.add_assoc]

theorem sse2_32_block8_ok (A : Arr 32) (addr : BitVec 32) (pos : Nat) (h2 : pos % 4 = 0)
    (hc : pos + 8 ≤ A.cap) :
    ∃ k, sse2_32_block8 A (set1 32 addr) pos = some k ∧ BlockMask A addr pos 8 2 k := by
  unfold sse2_32_block8
  rw [load32_eq h2 (by omega), load32_eq (by omega : (pos + 4) % 4 = 0) (by omega)]
  refine ⟨_, rfl, ?_⟩
  have m1 := maskOf_cmpeq 32 (fun i => A.get (pos + i)) addr
  have m2 := maskOf_cmpeq 32 (fun i => A.get (pos + 4 + i)) addr
  refine blockMask_of (fun i => (MaskOf.narrow (k := 8) (m1.packs32 m2) (by decide)).movemask_epi8 i) ?_
  intro i hi
  have hcases : i = 0 ∨ i = 1 ∨ i = 2 ∨ i = 3 ∨ i = 4 ∨ i = 5 ∨ i = 6 ∨ i = 7 ∨ i = 8 ∨ i = 9 ∨ i = 10 ∨
      i = 11 ∨ i = 12 ∨ i = 13 ∨ i = 14 ∨ i = 15 := by omega
  rcases hcases with rfl | rfl | rfl | rfl | rfl | rfl | rfl | rfl | rfl | rfl | rfl | rfl | rfl | rfl | rfl | rfl <;>
    simp [Nat.add_assoc]

theorem sse2_32_block4_ok (A : Arr 32) (addr : BitVec 32) (pos : Nat) (h2 : pos % 4 = 0)
    (hc : pos + 4 ≤ A.cap) :
    ∃ k, sse2_32_block4 A (set1 32 addr) pos = some k ∧ BlockMask A addr pos 4 1 k := by
  unfold sse2_32_block4
  rw [load32_eq h2 (by omega)]
  refine ⟨_, rfl, ?_⟩
  have m1 := maskOf_cmpeq 32 (fun i => A.get (pos + i)) addr
  refine blockMask_of (fun i => m1.movemask_ps i) ?_
  intro i hi
  simp

/-! ### Whole functions -/

theorem sse2_64_answer (addr : BitVec 64) (A : Arr 64) (size : Nat) (hs : size ≤ A.cap)
    (hcap : A.cap % 2 = 0) :
    ∃ p, find_address_sse2_64 addr A size = some p ∧ Answer A.get size addr p := by
  unfold find_address_sse2_64
  by_cases h : size < 12
  · rw [if_pos h]
    obtain ⟨p, hp, _, ha⟩ := generic_answer addr A size hs
    exact ⟨p, hp, ha⟩
  · rw [if_neg h]
    refine Sound.answer (P := fun p => (size + 1) / 2 * 2 ≤ p) ?_ (fun p hp => by omega)
    refine Sound.andThen (P := fun p => p % 2 = 0 ∧ p ≤ (size + 1) / 2 * 2 ∧ (size + 1) / 2 * 2 - p < 4)
      (Sound.andThen (P := fun p => p % 2 = 0 ∧ p ≤ (size + 1) / 2 * 2 ∧ (size + 1) / 2 * 2 - p < 8)
        (Sound.andThen (P := fun p => p = (size + 1) / 2 * 2 / 16 * 16) ?_ ?_) ?_) ?_
    · exact sound_loop16 (by omega) (fun pos h1 h2 => sse2_64_block16_ok A addr pos (by omega) (by omega))
        _ 0 rfl (by omega) (by omega) (fun j hj => by omega)
    · intro p hp hb
      subst hp
      by_cases hc : (size + 1) / 2 * 2 - (size + 1) / 2 * 2 / 16 * 16 ≥ 8
      · simp only [hc, if_true]
        exact (sound_blockTail (by decide) (sse2_64_block8_ok A addr _ (by omega) (by omega)) hb).weaken
          (fun q hq => by omega)
      · simp only [hc, if_false]
        exact ⟨by omega, hb⟩
    · intro p hp hb
      by_cases hc : (size + 1) / 2 * 2 - p ≥ 4
      · simp only [hc, if_true]
        exact (sound_blockTail (by decide) (sse2_64_block4_ok A addr _ (by omega) (by omega)) hb).weaken
          (fun q hq => by omega)
      · simp only [hc, if_false]
        exact ⟨by omega, hb⟩
    · intro p hp hb
      by_cases hc : p < (size + 1) / 2 * 2
      · simp only [hc, if_true]
        exact (sound_blockTail (by decide) (sse2_64_block2_ok A addr _ (by omega) (by omega)) hb).weaken
          (fun q hq => by omega)
      · simp only [hc, if_false]
        exact ⟨by omega, hb⟩

theorem sse41_answer (addr : BitVec 64) (A : Arr 64) (size : Nat) (hs : size ≤ A.cap)
    (hcap : A.cap % 2 = 0) :
    ∃ p, find_address_sse41 addr A size = some p ∧ Answer A.get size addr p := by
  unfold find_address_sse41
  by_cases h : size < 12
  · rw [if_pos h]
    obtain ⟨p, hp, _, ha⟩ := generic_answer addr A size hs
    exact ⟨p, hp, ha⟩
  · rw [if_neg h]
    refine Sound.answer (P := fun p => (size + 1) / 2 * 2 ≤ p) ?_ (fun p hp => by omega)
    refine Sound.andThen (P := fun p => p % 2 = 0 ∧ p ≤ (size + 1) / 2 * 2 ∧ (size + 1) / 2 * 2 - p < 4)
      (Sound.andThen (P := fun p => p % 2 = 0 ∧ p ≤ (size + 1) / 2 * 2 ∧ (size + 1) / 2 * 2 - p < 8)
        (Sound.andThen (P := fun p => p = (size + 1) / 2 * 2 / 16 * 16) ?_ ?_) ?_) ?_
    · exact sound_loop16 (by omega) (fun pos h1 h2 => sse41_block16_ok A addr pos (by omega) (by omega))
        _ 0 rfl (by omega) (by omega) (fun j hj => by omega)
    · intro p hp hb
      subst hp
      by_cases hc : (size + 1) / 2 * 2 - (size + 1) / 2 * 2 / 16 * 16 ≥ 8
      · simp only [hc, if_true]
        exact (sound_blockTail (by decide) (sse41_block8_ok A addr _ (by omega) (by omega)) hb).weaken
          (fun q hq => by omega)
      · simp only [hc, if_false]
        exact ⟨by omega, hb⟩
    · intro p hp hb
      by_cases hc : (size + 1) / 2 * 2 - p ≥ 4
      · simp only [hc, if_true]
        exact (sound_blockTail (by decide) (sse41_block4_ok A addr _ (by omega) (by omega)) hb).weaken
          (fun q hq => by omega)
      · simp only [hc, if_false]
        exact ⟨by omega, hb⟩
    · intro p hp hb
      by_cases hc : p < (size + 1) / 2 * 2
      · simp only [hc, if_true]
        exact (sound_blockTail (by decide) (sse41_block2_ok A addr _ (by omega) (by omega)) hb).weaken
          (fun q hq => by omega)
      · simp only [hc, if_false]
        exact ⟨by omega, hb⟩

theorem sse2_32_answer (addr : BitVec 32) (A : Arr 32) (size : Nat) (hs : size ≤ A.cap)
    (hcap : A.cap % 4 = 0) :
    ∃ p, find_address_sse2_32 addr A size = some p ∧ Answer A.get size addr p := by
  unfold find_address_sse2_32
  by_cases h : size < 10
  · rw [if_pos h]
    obtain ⟨p, hp, _, ha⟩ := generic_answer addr A size hs
    exact ⟨p, hp, ha⟩
  · rw [if_neg h]
    refine Sound.answer (P := fun p => (size + 3) / 4 * 4 ≤ p) ?_ (fun p hp => by omega)
    refine Sound.andThen (P := fun p => p % 4 = 0 ∧ p ≤ (size + 3) / 4 * 4 ∧ (size + 3) / 4 * 4 - p < 8)
        (Sound.andThen (P := fun p => p = (size + 3) / 4 * 4 / 16 * 16) ?_ ?_) ?_
    · exact sound_loop16 (by omega) (fun pos h1 h2 => sse2_32_block16_ok A addr pos (by omega) (by omega))
        _ 0 rfl (by omega) (by omega) (fun j hj => by omega)
    · intro p hp hb
      subst hp
      by_cases hc : (size + 3) / 4 * 4 - (size + 3) / 4 * 4 / 16 * 16 ≥ 8
      · simp only [hc, if_true]
        exact (sound_blockTail (by decide) (sse2_32_block8_ok A addr _ (by omega) (by omega)) hb).weaken
          (fun q hq => by omega)
      · simp only [hc, if_false]
        exact ⟨by omega, hb⟩
    · intro p hp hb
      by_cases hc : p < (size + 3) / 4 * 4
      · simp only [hc, if_true]
        exact (sound_blockTail (by decide) (sse2_32_block4_ok A addr _ (by omega) (by omega)) hb).weaken
          (fun q hq => by omega)
      · simp only [hc, if_false]
        exact ⟨by omega, hb⟩

end Verif.Find
