import Verif.Find.Lemmas

/-
C29: the vectorised address searches give the same answer as the plain linear search.

The hypotheses on the table are the ones the registry guarantees (proved for every reachable
state in `Verif/Registry/Props.lean`): `size ≤ capacity` and the capacity is a multiple of the
number of pointers in a vector register (`wait_state_list::initial_capacity` times a power
of two).  Spare entries, from `size` on, may hold anything.
-/

namespace Verif.Find

/-! ### Each search finds the first matching entry, and never reads outside the table -/

/-- What reading outside of the table means: exactly the elements before `cap` can be read, and the others are faults. -/
theorem C29_fault {w : Nat} (A : Arr w) (i : Nat) :
    (A.read i = none ↔ A.cap ≤ i) ∧ (i < A.cap → A.read i = some (A.get i)) := by
  unfold Arr.read
  constructor
  · split <;> simp <;> omega
  · intro h; simp [h]

example : (⟨4, fun i => BitVec.ofNat 64 i⟩ : Arr 64).read 3 = some 3 ∧ (⟨4, fun i => BitVec.ofNat 64 i⟩ : Arr 64).read 4 = none := by
  decide

/-- Saturation of `_mm_packs_epi32` and `_mm_packs_epi16` at both ends of the range. -/
example : sat 16 32767#32 = 32767#16 ∧ sat 16 32768#32 = 32767#16 ∧ sat 16 (-32768#32) = (-32768#16) ∧
    sat 16 (-32769#32) = (-32768#16) ∧ sat 8 127#16 = 127#8 ∧ sat 8 128#16 = 127#8 ∧ sat 8 (-129#16) = (-128#8) ∧
    sat 8 (-5#16) = (-5#8) := by
  decide

/-- `find_address_generic` returns the first position in use that holds the address, or `size`. -/
theorem C29_generic {w : Nat} (addr : BitVec w) (A : Arr w) (size : Nat) (hs : size ≤ A.cap) :
    ∃ p, find_address_generic addr A size = some p ∧ p ≤ size ∧ Answer A.get size addr p :=
  generic_answer addr A size hs

/-- SSE2, 64-bit pointers: for every table size and content (including spare entries). -/
theorem C29_sse2_64 (addr : BitVec 64) (A : Arr 64) (size : Nat) (hs : size ≤ A.cap)
    (hcap : A.cap % 2 = 0) :
    ∃ p, find_address_sse2_64 addr A size = some p ∧ Answer A.get size addr p :=
  sse2_64_answer addr A size hs hcap

/-- SSE4.1, 64-bit pointers. -/
theorem C29_sse41 (addr : BitVec 64) (A : Arr 64) (size : Nat) (hs : size ≤ A.cap)
    (hcap : A.cap % 2 = 0) :
    ∃ p, find_address_sse41 addr A size = some p ∧ Answer A.get size addr p :=
  sse41_answer addr A size hs hcap

/-- SSE2, 32-bit pointers. -/
theorem C29_sse2_32 (addr : BitVec 32) (A : Arr 32) (size : Nat) (hs : size ≤ A.cap)
    (hcap : A.cap % 4 = 0) :
    ∃ p, find_address_sse2_32 addr A size = some p ∧ Answer A.get size addr p :=
  sse2_32_answer addr A size hs hcap

/-! ### Agreement -/

/-- The answer is unique: any two positions that answer the lookup say the same thing. -/
theorem C29_answer_unique {w : Nat} (tbl : Nat → BitVec w) (size : Nat) (addr : BitVec w) (r₁ r₂ : Nat)
    (h₁ : Answer tbl size addr r₁) (h₂ : Answer tbl size addr r₂) : SameAnswer size r₁ r₂ := by
  by_cases a : r₁ < size
  · by_cases b : r₂ < size
    · right
      refine ⟨?_, a⟩
      obtain ⟨e1, m1⟩ := h₁.1 a
      obtain ⟨e2, m2⟩ := h₂.1 b
      by_cases h : r₁ < r₂
      · exact absurd e1 (m2 r₁ h)
      · by_cases h' : r₂ < r₁
        · exact absurd e2 (m1 r₂ h')
        · omega
    · exact absurd (h₁.1 a).1 (h₂.2 (by omega) r₁ a)
  · by_cases b : r₂ < size
    · exact absurd (h₂.1 b).1 (h₁.2 (by omega) r₂ b)
    · left; exact ⟨by omega, by omega⟩

/-- Whatever function the run-time dispatch selects on a 64-bit target, the lookup neither
faults nor answers differently from the plain linear search. -/
theorem C29_agree_64 (c : Cpu) (useSse41 : Bool) (addr : BitVec 64) (A : Arr 64) (size : Nat)
    (hs : size ≤ A.cap) (hcap : A.cap % 2 = 0) :
    ∃ p q, runImpl64 (dispatch true useSse41 c) addr A size = some p ∧
      find_address_generic addr A size = some q ∧ SameAnswer size p q := by
  obtain ⟨q, hq, _, aq⟩ := C29_generic addr A size hs
  cases dispatch true useSse41 c with
  | generic => exact ⟨q, q, hq, hq, C29_answer_unique _ _ _ _ _ aq aq⟩
  | sse2 =>
    obtain ⟨p, hp, ap⟩ := C29_sse2_64 addr A size hs hcap
    exact ⟨p, q, hp, hq, C29_answer_unique _ _ _ _ _ ap aq⟩
  | sse41 =>
    obtain ⟨p, hp, ap⟩ := C29_sse41 addr A size hs hcap
    exact ⟨p, q, hp, hq, C29_answer_unique _ _ _ _ _ ap aq⟩

/-- The same on a 32-bit target, where SSE4.1 is never selected. -/
theorem C29_agree_32 (c : Cpu) (useSse41 : Bool) (addr : BitVec 32) (A : Arr 32) (size : Nat)
    (hs : size ≤ A.cap) (hcap : A.cap % 4 = 0) :
    ∃ p q, runImpl32 (dispatch false useSse41 c) addr A size = some p ∧
      find_address_generic addr A size = some q ∧ SameAnswer size p q := by
  obtain ⟨q, hq, _, aq⟩ := C29_generic addr A size hs
  have hne : dispatch false useSse41 c ≠ .sse41 := by
    unfold dispatch
    simp only [Bool.and_false, Bool.false_eq_true, if_false]
    split
    · split <;> simp
    · simp
  cases hd : dispatch false useSse41 c with
  | generic => exact ⟨q, q, hq, hq, C29_answer_unique _ _ _ _ _ aq aq⟩
  | sse2 =>
    obtain ⟨p, hp, ap⟩ := C29_sse2_32 addr A size hs hcap
    exact ⟨p, q, hp, hq, C29_answer_unique _ _ _ _ _ ap aq⟩
  | sse41 => exact absurd hd hne

/-- The dispatch selects a vector version only on a processor that reports the instructions
it uses: SSE2 is bit 26 of `edx`, SSE4.1 is bit 19 of `ecx`. -/
theorem C29_dispatch_supported (ptr64 useSse41 : Bool) (c : Cpu) :
    (dispatch ptr64 useSse41 c = .sse2 → c.edx.getLsbD 26 = true) ∧
    (dispatch ptr64 useSse41 c = .sse41 → c.ecx.getLsbD 19 = true) := by
  have hbit : ∀ (x : BitVec 32) (k : Nat), k < 32 → x &&& (1#32 <<< k) ≠ 0#32 → x.getLsbD k = true := by
    intro x k hk h
    cases hx : x.getLsbD k with
    | true => rfl
    | false =>
      exfalso; apply h
      apply BitVec.eq_of_getLsbD_eq
      intro i hi
      by_cases hik : i = k
      · subst hik
        rw [BitVec.getLsbD_and, hx, BitVec.getLsbD_zero]; rfl
      · have : (1#32 <<< k).getLsbD i = false := by
          rw [BitVec.getLsbD_shiftLeft]
          by_cases hlt : i < k
          · simp [hlt]
          · have h0 : i - k ≠ 0 := by omega
            simp [hlt, h0]
        rw [BitVec.getLsbD_and, this, BitVec.getLsbD_zero, Bool.and_false]
  unfold dispatch
  constructor
  · intro h
    by_cases h1 : c.edx &&& (1#32 <<< 26) ≠ 0#32
    · exact hbit _ _ (by decide) h1
    · exfalso
      revert h
      simp only [h1, if_false]
      split
      · split
        · split <;> simp
        · simp
      · simp
  · intro h
    by_cases h1 : c.ecx &&& (1#32 <<< 19) ≠ 0#32
    · exact hbit _ _ (by decide) h1
    · exfalso
      revert h
      simp only [h1, if_false]
      split
      · split <;> split <;> simp
      · simp

/-! ### Pieces of the implementation -/

theorem lowMask_bits (m : BitVec 32) (k : Nat) (hm : ∀ i : Fin 32, m.getLsbD i = decide (i.1 < k)) (hk : k ≤ 32)
    (x : BitVec 32) : x &&& m = 0#32 ↔ ∀ i, i < k → x.getLsbD i = false := by
  constructor
  · intro h i hi
    have := congrArg (fun v => BitVec.getLsbD v i) h
    have h2 := hm ⟨i, by omega⟩
    simp only [BitVec.getLsbD_and, BitVec.getLsbD_zero] at this
    simp only at h2
    rw [h2] at this
    simpa [hi] using this
  · intro h
    apply BitVec.eq_of_getLsbD_eq
    intro i hi
    have h2 := hm ⟨i, hi⟩
    simp only at h2
    rw [BitVec.getLsbD_and, h2, BitVec.getLsbD_zero]
    by_cases hik : i < k
    · rw [h i hik]; simp
    · simp [hik]

/-- State of the portable `count_trailing_zeros` between its steps: `x` is what is left of
`x₀` after dropping `idx` zero bits, and it has a set bit among its lowest `k`. -/
def CtzInv (x₀ x : BitVec 32) (idx k : Nat) : Prop :=
  (∀ i, x.getLsbD i = x₀.getLsbD (idx + i)) ∧ (∀ j, j < idx → x₀.getLsbD j = false) ∧
  ∃ i, i < k ∧ x.getLsbD i = true

theorem ctzStep {x₀ x : BitVec 32} {idx k : Nat} (m : BitVec 32)
    (hm : ∀ i : Fin 32, m.getLsbD i = decide (i.1 < k)) (hk : k ≤ 32) (h : CtzInv x₀ x idx (2 * k)) :
    CtzInv x₀ (if x &&& m = 0#32 then (x >>> k, idx + k) else (x, idx)).1
      (if x &&& m = 0#32 then (x >>> k, idx + k) else (x, idx)).2 k := by
  obtain ⟨hb, hz, i, hi, hx⟩ := h
  by_cases h0 : x &&& m = 0#32
  · rw [if_pos h0]
    have hlow := (lowMask_bits m k hm hk x).1 h0
    refine ⟨fun j => ?_, fun j hj => ?_, i - k, ?_, ?_⟩
    · show (x >>> k).getLsbD j = _
      rw [BitVec.getLsbD_ushiftRight, hb, Nat.add_assoc]
    · by_cases hj2 : j < idx
      · exact hz j hj2
      · have := hb (j - idx)
        have e : idx + (j - idx) = j := by omega
        rw [e] at this
        rw [← this]
        exact hlow _ (by show j - idx < k; have : j < idx + k := hj; omega)
    · have : ¬ i < k := fun h => by rw [hlow i h] at hx; cases hx
      omega
    · have : ¬ i < k := fun h => by rw [hlow i h] at hx; cases hx
      show (x >>> k).getLsbD (i - k) = true
      rw [BitVec.getLsbD_ushiftRight]
      have e : k + (i - k) = i := by omega
      rw [e, hx]
  · rw [if_neg h0]
    have hlow := mt (lowMask_bits m k hm hk x).2 h0
    refine ⟨hb, hz, ?_⟩
    simp only [Classical.not_forall] at hlow
    obtain ⟨j, hj, hxj⟩ := hlow
    exact ⟨j, hj, by simpa using hxj⟩

/-- The portable `count_trailing_zeros` returns the position of the lowest set bit of every
non-zero word, like the compiler built-in. -/
theorem C29_portable_ctz (x : BitVec 32) (h : x ≠ 0#32) :
    LowestBit x (portable_ctz x) ∧ builtin_ctz x = some (portable_ctz x) := by
  have main : LowestBit x (portable_ctz x) := by
    have h0 : CtzInv x x 0 (2 * 16) := by
      refine ⟨fun i => by rw [Nat.zero_add], fun j hj => by omega, ?_⟩
      apply Classical.byContradiction
      intro hne
      apply h
      apply BitVec.eq_of_getLsbD_eq
      intro i hi
      have : ¬ x.getLsbD i = true := fun hx => hne ⟨i, by omega, hx⟩
      simpa using this
    have h1 := ctzStep (k := 16) 0xFFFF#32 (by decide) (by decide) h0
    have h2 := ctzStep (k := 8) 0xFF#32 (by decide) (by decide) h1
    have h3 := ctzStep (k := 4) 0xF#32 (by decide) (by decide) h2
    have h4 := ctzStep (k := 2) 0x3#32 (by decide) (by decide) h3
    have h5 := ctzStep (k := 1) 0x1#32 (by decide) (by decide) h4
    obtain ⟨hb, hz, i, hi, hx⟩ := h5
    have hi0 : i = 0 := by omega
    subst hi0
    rw [hb, Nat.add_zero] at hx
    have e : portable_ctz x = _ := rfl
    have key : ∀ c, LowestBit x c → portable_ctz x = c → LowestBit x (portable_ctz x) := by
      intro c hc e; rw [e]; exact hc
    refine key _ ⟨hx, hz⟩ ?_
    have fin : ∀ (p : BitVec 32 × Nat),
        (if p.1 &&& 1#32 = 0#32 then p.2 + 1 else p.2) =
        (if p.1 &&& 1#32 = 0#32 then (p.1 >>> 1, p.2 + 1) else (p.1, p.2)).2 := by
      intro p; split <;> rfl
    exact fin _
  refine ⟨main, ?_⟩
  obtain ⟨c, hc, hlow⟩ := builtin_ctz_spec x h
  rw [hc]
  congr 1
  by_cases h1 : c < portable_ctz x
  · have := main.2 c h1; rw [hlow.1] at this; cases this
  · by_cases h2 : portable_ctz x < c
    · have := hlow.2 _ h2; rw [main.1] at this; cases this
    · omega

/-- Both branches of `mm_set1_epiptr` (x86_vector_tools.hpp:33-42) fill the register with two
copies of the pointer. -/
theorem C29_set1_epiptr (ptr : BitVec 64) : set1_epiptr_msvc ptr = set1 64 ptr := by
  apply BitVec.eq_of_getLsbD_eq
  intro i hi
  simp only [set1_epiptr_msvc, set1, ofLanes, getLsbD_ofBits, hi, decide_true, Bool.true_and]
  by_cases h : i / 32 % 2 = 0
  · rw [if_pos h]
    have e : i % 64 = i % 32 := by omega
    have h32 : i % 32 < 32 := by omega
    rw [e]; simp [h32]
  · rw [if_neg h]
    have e : i % 64 = 32 + i % 32 := by omega
    have h32 : i % 32 < 32 := by omega
    rw [e]; simp [h32]

/-- The rounding `(size + 1u) & ~1u` (and likewise with 3 and 15) on a `w`-bit `std::size_t`
is rounding down to a multiple, as modelled with division. -/
theorem C29_round_up (w k : Nat) (x : BitVec w) :
    (x &&& ~~~ (BitVec.ofNat w (2 ^ k - 1))).toNat = x.toNat / 2 ^ k * 2 ^ k := by
  have e : (x &&& ~~~ (BitVec.ofNat w (2 ^ k - 1))) = (x >>> k) <<< k := by
    apply BitVec.eq_of_getLsbD_eq
    intro i hi
    simp only [BitVec.getLsbD_and, BitVec.getLsbD_not, BitVec.getLsbD_ofNat, Nat.testBit_two_pow_sub_one,
      BitVec.getLsbD_shiftLeft, BitVec.getLsbD_ushiftRight, hi, decide_true, Bool.true_and]
    by_cases h : i < k
    · simp [h]
    · have e : k + (i - k) = i := by omega
      simp [h, e]
  have hlt : x.toNat / 2 ^ k * 2 ^ k < 2 ^ w :=
    Nat.lt_of_le_of_lt (Nat.div_mul_le_self _ _) x.isLt
  rw [e, BitVec.toNat_shiftLeft, BitVec.toNat_ushiftRight, Nat.shiftLeft_eq, Nat.shiftRight_eq_div_pow,
    Nat.mod_eq_of_lt hlt]

/-! ### Non-vacuity

Concrete tables meeting the hypotheses: 29 entries in use out of 32 (so that the 16-element
loop, and the 8-, 4- and 2-element steps all run), with the address at the last position used
or only among the spare entries. -/

/-- Entry `i` holds `0x7f0000001000 + i`. -/
def exTable : Arr 64 := ⟨32, fun i => 0x7f0000001000#64 + BitVec.ofNat 64 i⟩

example : 29 ≤ exTable.cap ∧ exTable.cap % 2 = 0 := by decide

set_option maxRecDepth 100000 in
example : find_address_generic (0x7f0000001000#64 + 28#64) exTable 29 = some 28 := by decide +kernel
set_option maxRecDepth 100000 in
example : find_address_sse2_64 (0x7f0000001000#64 + 28#64) exTable 29 = some 28 := by decide +kernel
set_option maxRecDepth 100000 in
example : find_address_sse41 (0x7f0000001000#64 + 17#64) exTable 29 = some 17 := by decide +kernel
-- the spare entry 29 matches, its position is outside of the part in use: "not found"
set_option maxRecDepth 100000 in
example : find_address_sse2_64 (0x7f0000001000#64 + 29#64) exTable 29 = some 29 := by decide +kernel
-- two entries that agree in their upper halves only
set_option maxRecDepth 100000 in
example : find_address_sse2_64 0x7f0000000000#64 exTable 29 = some 30 := by decide +kernel

/-- A 32-bit table. -/
def exTable32 : Arr 32 := ⟨32, fun i => 0x8000#32 + BitVec.ofNat 32 i⟩
set_option maxRecDepth 100000 in
example : find_address_sse2_32 (0x8000#32 + 27#32) exTable32 29 = some 27 := by decide +kernel
example : 29 ≤ exTable32.cap ∧ exTable32.cap % 4 = 0 := by decide

/-- A table that is not a multiple of the register size would be read out of bounds: the
hypothesis on the capacity is needed. -/
example : find_address_sse41 0#64 ⟨13, fun _ => 1#64⟩ 13 = none := by decide +kernel

end Verif.Find
