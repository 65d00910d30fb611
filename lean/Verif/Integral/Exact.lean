import Verif.Integral.Props

/-
Which operations on a value emulated in a wider word are right: exactly those of `EmulSafe`, for
every pair of widths.  (C06, C07, C08; strengthens the counterexamples of Verif.Integral.Props, which
are about one width and one argument each.)
-/

namespace Verif.Integral

section ranges
variable {N W : Nat}

theorem canon_unsigned_lt (h : N ≤ W) {w : BitVec W} (hc : Canon false N w) : w.toNat < 2 ^ N := by
  have e : w.toNat = (ext false W (trunc N w)).toNat := by rw [← hc]
  rw [e]
  simp only [ext, Bool.false_eq_true, if_false]
  rw [BitVec.toNat_setWidth_of_le h]
  exact (trunc N w).isLt

theorem toInt_ext (h : N ≤ W) (x : BitVec N) : (ext true W x).toInt = x.toInt := by
  simp only [ext, if_true]; exact BitVec.toInt_signExtend_of_le h

theorem toNat_ext (h : N ≤ W) (x : BitVec N) : (ext false W x).toNat = x.toNat := by
  simp only [ext, Bool.false_eq_true, if_false]; exact BitVec.toNat_setWidth_of_le h

theorem canon_signed_range (h : N ≤ W) {w : BitVec W} (hc : Canon true N w) :
    -2 ^ (N - 1) ≤ w.toInt ∧ w.toInt < 2 ^ (N - 1) := by
  have e : w.toInt = (ext true W (trunc N w)).toInt := by rw [← hc]
  rw [e, toInt_ext h]
  exact ⟨BitVec.le_toInt _, BitVec.toInt_lt⟩

theorem two_pow_lt (hN : 0 < N) (h : N < W) :
    (2 : Int) ^ N = 2 * 2 ^ (N - 1) ∧ 2 * (2 : Int) ^ (N - 1) ≤ 2 ^ (W - 1) ∧
      (2 : Int) ^ W = 2 * 2 ^ (W - 1) ∧ 0 < (2 : Int) ^ (N - 1) := by
  have a : (2 : Nat) ^ N = 2 * 2 ^ (N - 1) := by rw [← Nat.pow_succ']; congr 1; omega
  have b : (2 : Nat) ^ N ≤ 2 ^ (W - 1) := Nat.pow_le_pow_right (by decide) (by omega)
  have c : (2 : Nat) ^ W = 2 * 2 ^ (W - 1) := by rw [← Nat.pow_succ']; congr 1; omega
  have d : 0 < (2 : Nat) ^ (N - 1) := Nat.two_pow_pos _
  rw [a] at b
  exact ⟨by exact_mod_cast a, by exact_mod_cast b, by exact_mod_cast c, by exact_mod_cast d⟩

/-- A sum of the word's integer range is computed without wrapping in the wider word. -/
theorem toInt_add_wide (hN : 0 < N) (h : N < W) {a b : BitVec W}
    (ha : -2 ^ (N - 1) ≤ a.toInt ∧ a.toInt < 2 ^ (N - 1))
    (hb : -2 ^ (N - 1) ≤ b.toInt ∧ b.toInt < 2 ^ (N - 1)) : (a + b).toInt = a.toInt + b.toInt := by
  obtain ⟨_, p, q, _⟩ := two_pow_lt hN h
  rw [BitVec.toInt_add]
  apply Int.bmod_eq_of_le_mul_two
  all_goals
    push_cast
    omega

theorem toInt_sub_wide (hN : 0 < N) (h : N < W) {a b : BitVec W}
    (ha : -2 ^ (N - 1) ≤ a.toInt ∧ a.toInt < 2 ^ (N - 1))
    (hb : -2 ^ (N - 1) ≤ b.toInt ∧ b.toInt < 2 ^ (N - 1)) : (a - b).toInt = a.toInt - b.toInt := by
  obtain ⟨_, p, q, _⟩ := two_pow_lt hN h
  rw [BitVec.toInt_sub]
  apply Int.bmod_eq_of_le_mul_two
  all_goals
    push_cast
    omega

/-! ### What goes wrong, one modification at a time -/

theorem sum_unsigned (h : N < W) {v : BitVec N} (hv : v ≠ 0) :
    (ext false W (-v) + ext false W v).toNat = 2 ^ N := by
  have hp : 2 ^ N < 2 ^ W := Nat.pow_lt_pow_right (by decide) h
  have h0 : 0 < v.toNat := by
    rcases Nat.eq_zero_or_pos v.toNat with e | e
    · exact absurd (BitVec.eq_of_toNat_eq (by simpa using e)) hv
    · exact e
  have hlt := v.isLt
  rw [BitVec.toNat_add, toNat_ext (by omega), toNat_ext (by omega), BitVec.toNat_neg,
    Nat.mod_eq_of_lt (a := 2 ^ N - v.toNat) (by omega), Nat.mod_eq_of_lt (by omega)]
  omega

theorem bad_add_unsigned (h : N < W) {v : BitVec N} (hv : v ≠ 0) :
    ¬ Canon false N (ext false W (-v) + ext false W v) := by
  intro hc
  have := canon_unsigned_lt (by omega) hc
  rw [sum_unsigned h hv] at this
  omega

theorem bad_sub_unsigned (h : N < W) {v : BitVec N} (hv : v ≠ 0) :
    ¬ Canon false N (ext false W (0#N) - ext false W v) := by
  intro hc
  have := canon_unsigned_lt (by omega) hc
  have hp : 2 * 2 ^ N ≤ 2 ^ W := by
    rw [← Nat.pow_succ']; exact Nat.pow_le_pow_right (by decide) h
  have h0 : 0 < v.toNat := by
    rcases Nat.eq_zero_or_pos v.toNat with e | e
    · exact absurd (BitVec.eq_of_toNat_eq (by simpa using e)) hv
    · exact e
  have hlt := v.isLt
  rw [BitVec.toNat_sub, toNat_ext (by omega), toNat_ext (by omega)] at this
  simp only [BitVec.toNat_ofNat, Nat.zero_mod, Nat.add_zero] at this
  rw [Nat.mod_eq_of_lt (by omega)] at this
  omega

theorem toInt_least (hN : 0 < N) (h : N ≤ W) : (ext true W (BitVec.intMin N)).toInt = -2 ^ (N - 1) := by
  rw [toInt_ext h, BitVec.toInt_intMin_of_pos hN]

theorem toInt_greatest (h : N ≤ W) : (ext true W (BitVec.intMax N)).toInt = 2 ^ (N - 1) - 1 := by
  rw [toInt_ext h, BitVec.toInt_intMax]

theorem bad_add_signed (hN : 0 < N) (h : N < W) {v : BitVec N} (hv : v ≠ 0) :
    ∃ v₀ : BitVec N, ¬ Canon true N (ext true W v₀ + ext true W v) := by
  have rng : ∀ x : BitVec N, -2 ^ (N - 1) ≤ (ext true W x).toInt ∧ (ext true W x).toInt < 2 ^ (N - 1) :=
    fun x => canon_signed_range (by omega) (canon_ext (by omega) x)
  have hne : v.toInt ≠ 0 := fun e => hv (BitVec.eq_of_toInt_eq (by simpa using e))
  rcases Int.lt_or_gt_of_ne hne with hlt | hgt
  · refine ⟨BitVec.intMin N, fun hc => ?_⟩
    have := canon_signed_range (by omega) hc
    rw [toInt_add_wide hN h (rng _) (rng _), toInt_least hN (by omega), toInt_ext (by omega)] at this
    omega
  · refine ⟨BitVec.intMax N, fun hc => ?_⟩
    have := canon_signed_range (by omega) hc
    rw [toInt_add_wide hN h (rng _) (rng _), toInt_greatest (by omega), toInt_ext (by omega)] at this
    omega

theorem bad_sub_signed (hN : 0 < N) (h : N < W) {v : BitVec N} (hv : v ≠ 0) :
    ∃ v₀ : BitVec N, ¬ Canon true N (ext true W v₀ - ext true W v) := by
  have rng : ∀ x : BitVec N, -2 ^ (N - 1) ≤ (ext true W x).toInt ∧ (ext true W x).toInt < 2 ^ (N - 1) :=
    fun x => canon_signed_range (by omega) (canon_ext (by omega) x)
  have hne : v.toInt ≠ 0 := fun e => hv (BitVec.eq_of_toInt_eq (by simpa using e))
  rcases Int.lt_or_gt_of_ne hne with hlt | hgt
  · refine ⟨BitVec.intMax N, fun hc => ?_⟩
    have := canon_signed_range (by omega) hc
    rw [toInt_sub_wide hN h (rng _) (rng _), toInt_greatest (by omega), toInt_ext (by omega)] at this
    omega
  · refine ⟨BitVec.intMin N, fun hc => ?_⟩
    have := canon_signed_range (by omega) hc
    rw [toInt_sub_wide hN h (rng _) (rng _), toInt_least hN (by omega), toInt_ext (by omega)] at this
    omega

/-- Negating 1 (unsigned) or the least value (signed) leaves the range. -/
theorem bad_neg (sgn : Bool) (hN : 0 < N) (h : N < W) :
    ∃ v₀ : BitVec N, ¬ Canon sgn N (- ext sgn W v₀) := by
  cases sgn
  · refine ⟨1#N, fun hc => ?_⟩
    refine bad_sub_unsigned h (v := 1#N) ?_ ?_
    · intro e
      have := congrArg (BitVec.getLsbD · 0) e
      simp [BitVec.getLsbD_one] at this
      omega
    · rw [ext_zero, BitVec.zero_sub]; exact hc
  · refine ⟨BitVec.intMin N, fun hc => ?_⟩
    have h2 := canon_signed_range (by omega) hc
    obtain ⟨_, p, q, r⟩ := two_pow_lt hN h
    have h0 : (0#W : BitVec W).toInt = 0 := by simp
    rw [← BitVec.zero_sub, toInt_sub_wide hN h (by rw [h0]; omega)
      (canon_signed_range (by omega) (canon_ext (by omega) _)), toInt_least hN (by omega), h0] at h2
    omega

/-- Flipping the bits of the whole word instead of those of an unsigned value. -/
theorem bad_not (h : N < W) : ¬ Canon false N (ext false W (0#N) ^^^ onesMask W false W) := by
  intro hc
  have e := congrArg (BitVec.getLsbD · N) hc
  simp only [getLsbD_ext] at e
  simp [ext_zero, onesMask, ext_self] at e
  omega

/-- The bits of the mask for the sign bit, which is not extended. -/
theorem mask_bits (hN : 0 < N) (h : N < W) {b : Fin N} (hb : ¬ b.val + 1 < N) :
    (bitMask W true W b.val).getLsbD (N - 1) = true ∧ (bitMask W true W b.val).getLsbD N = false := by
  have := b.isLt
  unfold bitMask
  rw [ext_self, getLsbD_one_shl (⟨b.val, by omega⟩ : Fin W), getLsbD_one_shl (⟨b.val, by omega⟩ : Fin W)]
  constructor
  · simp; omega
  · simp; omega

/-- In a canonical signed word the bit above the sign bit equals the sign bit. -/
theorem canon_sign (hN : 0 < N) (h : N < W) {w : BitVec W} (hc : Canon true N w) :
    w.getLsbD N = w.getLsbD (N - 1) := by
  have e := congrArg (BitVec.getLsbD · N) hc
  simp only [getLsbD_ext, msb_trunc hN] at e
  simpa [h] using e

theorem bad_set (hN : 0 < N) (h : N < W) {b : Fin N} (hb : ¬ b.val + 1 < N) :
    ¬ Canon true N (ext true W (0#N) ||| bitMask W true W b.val) := by
  intro hc
  have := canon_sign hN h hc
  obtain ⟨h1, h2⟩ := mask_bits hN h hb
  simp [ext_zero, h1, h2] at this

theorem bad_flip (hN : 0 < N) (h : N < W) {b : Fin N} (hb : ¬ b.val + 1 < N) :
    ¬ Canon true N (ext true W (0#N) ^^^ bitMask W true W b.val) := by
  intro hc
  have := canon_sign hN h hc
  obtain ⟨h1, h2⟩ := mask_bits hN h hb
  simp [ext_zero, h1, h2] at this

theorem bad_reset (hN : 0 < N) (h : N < W) {b : Fin N} (hb : ¬ b.val + 1 < N) :
    ¬ Canon true N (ext true W (~~~(0#N)) &&& ~~~ bitMask W true W b.val) := by
  intro hc
  have := canon_sign hN h hc
  obtain ⟨h1, h2⟩ := mask_bits hN h hb
  rw [← ones_signed hN] at this
  simp [h1, h] at this
  rw [← BitVec.getLsbD_eq_getElem, h2] at this
  cases this

/-- The wide sum that stands for a narrow zero is not zero. -/
theorem flag_unsigned (h : N < W) {v : BitVec N} (hv : v ≠ 0) :
    nz (ext false W (-v) + ext false W v) = true := by
  have := sum_unsigned h hv
  unfold nz
  simp only [decide_eq_true_eq]
  intro e
  rw [e] at this
  have := Nat.two_pow_pos N
  simp at *
  omega

theorem flag_signed (hN : 0 < N) (h : N < W) :
    nz (ext true W (BitVec.intMin N) + ext true W (BitVec.intMin N)) = true := by
  have rng : ∀ x : BitVec N, -2 ^ (N - 1) ≤ (ext true W x).toInt ∧ (ext true W x).toInt < 2 ^ (N - 1) :=
    fun x => canon_signed_range (by omega) (canon_ext (by omega) x)
  have := toInt_add_wide hN h (rng (BitVec.intMin N)) (rng (BitVec.intMin N))
  rw [toInt_least hN (by omega)] at this
  obtain ⟨_, p, q, r⟩ := two_pow_lt hN h
  unfold nz
  simp only [decide_eq_true_eq]
  intro e
  rw [e] at this
  simp at this
  omega

end ranges

/-- Outside `EmulSafe` some step leaves a word that is not canonical, or gives a wrong result. -/
theorem unsafe_step (cb sgn : Bool) {N W : Nat} (hN : 0 < N) (h : N < W) (op : Op N)
    (hs : ¬ EmulSafe cb sgn op) : ∃ (v₀ : BitVec N) (w' : BitVec W) (r : Ret N),
      (emulated cb sgn N W op).Run (ext sgn W v₀) w' r ∧
        ¬ (Canon sgn N w' ∧ spec v₀ op (trunc N w') r) := by
  -- an operation that stores `f w` where that is not canonical for some value
  have store : ∀ (f : BitVec W → BitVec W) (k : BitVec W → BitVec W → Ret N),
      emulated cb sgn N W op = .rmw f k → (∃ v₀ : BitVec N, ¬ Canon sgn N (f (ext sgn W v₀))) →
      ∃ (v₀ : BitVec N) (w' : BitVec W) (r : Ret N),
        (emulated cb sgn N W op).Run (ext sgn W v₀) w' r ∧
        ¬ (Canon sgn N w' ∧ spec v₀ op (trunc N w') r) := by
    rintro f k e ⟨v₀, hv⟩
    exact ⟨v₀, _, _, by rw [e]; exact run_rmw.2 ⟨rfl, rfl⟩, fun hc => hv hc.1⟩
  have hadd : ∀ v : BitVec N, v ≠ 0 → ∃ v₀ : BitVec N, ¬ Canon sgn N (ext sgn W v₀ + ext sgn W v) := by
    intro v hv
    cases sgn
    · exact ⟨-v, bad_add_unsigned h hv⟩
    · exact bad_add_signed hN h hv
  have hsub : ∀ v : BitVec N, v ≠ 0 → ∃ v₀ : BitVec N, ¬ Canon sgn N (ext sgn W v₀ - ext sgn W v) := by
    intro v hv
    cases sgn
    · exact ⟨0, bad_sub_unsigned h hv⟩
    · exact bad_sub_signed hN h hv
  have hneg := bad_neg (N := N) (W := W) sgn hN h
  have hnot : sgn ≠ true → ∃ v₀ : BitVec N, ¬ Canon sgn N (ext sgn W v₀ ^^^ onesMask W sgn W) := by
    intro e
    have : sgn = false := by simpa using e
    subst this
    exact ⟨0, bad_not h⟩
  cases op with
  | load | store _ | exchange _ | casWeak _ _ | casStrong _ _ | fetchAdd _ | fetchSub _ | fetchAnd _
  | fetchOr _ | fetchXor _ | bitwiseAnd _ | bitwiseOr _ | bitwiseXor _ | opaqueAdd _ | opaqueSub _
  | opaqueAnd _ | opaqueOr _ | opaqueXor _ | andAndTest _ | orAndTest _ | xorAndTest _ =>
    exact absurd trivial hs
  | add v =>
    simp only [EmulSafe, not_or, Bool.not_eq_false] at hs
    obtain ⟨rfl, hv⟩ := hs
    refine store _ _ rfl ?_
    simpa only [trunc_self, ext_self] using hadd v hv
  | sub v =>
    simp only [EmulSafe, not_or, Bool.not_eq_false] at hs
    obtain ⟨rfl, hv⟩ := hs
    refine store _ _ rfl ?_
    simpa only [trunc_self, ext_self] using hsub v hv
  | subAndTest v =>
    simp only [EmulSafe, not_or, Bool.not_eq_false] at hs
    obtain ⟨rfl, hv⟩ := hs
    refine store _ _ rfl ?_
    simpa only [trunc_self, ext_self] using hsub v hv
  | addAndTest v =>
    simp only [EmulSafe, not_or] at hs
    obtain ⟨hs, hv⟩ := hs
    cases cb
    · cases sgn
      · refine ⟨-v, _, _, run_rmw.2 ⟨rfl, rfl⟩, fun hc => ?_⟩
        have h2 := hc.2.2
        have h1 : -v + v = 0 := by rw [BitVec.add_comm, ← BitVec.sub_eq_add_neg, BitVec.sub_self]; rfl
        rw [hc.2.1, h1, Ret.flag.injEq] at h2
        simp only [trunc_self, flag_unsigned h hv] at h2
        simp at h2
      · have hm : v = BitVec.intMin N := by
          by_cases e : v = BitVec.intMin N
          · exact e
          · exact absurd ⟨rfl, rfl, e⟩ hs
        subst hm
        refine ⟨BitVec.intMin N, _, _, run_rmw.2 ⟨rfl, rfl⟩, fun hc => ?_⟩
        have h2 := hc.2.2
        have h1 : BitVec.intMin N + BitVec.intMin N = 0 := by
          rw [← BitVec.neg_intMin (w := N), BitVec.neg_intMin]
          have := BitVec.sub_self (BitVec.intMin N)
          rw [BitVec.sub_eq_add_neg, BitVec.neg_intMin] at this
          exact this
        rw [hc.2.1, h1, Ret.flag.injEq] at h2
        simp only [trunc_self, flag_signed hN h] at h2
        simp at h2
    · refine store _ _ rfl ?_
      simpa only [trunc_self, ext_self] using hadd v hv
  | fetchNegate =>
    cases cb <;> refine store _ _ rfl ?_ <;> simpa only [trunc_self, ext_self] using hneg
  | negate =>
    cases cb <;> refine store _ _ rfl ?_ <;> simpa only [trunc_self, ext_self] using hneg
  | opaqueNegate =>
    cases cb <;> refine store _ _ rfl ?_ <;> simpa only [trunc_self, ext_self] using hneg
  | negateAndTest =>
    cases cb <;> refine store _ _ rfl ?_ <;> simpa only [trunc_self, ext_self] using hneg
  | fetchComplement =>
    cases cb <;> refine store _ _ rfl ?_ <;> simpa only [trunc_self, ext_self] using hnot hs
  | bitwiseComplement =>
    cases cb <;> refine store _ _ rfl ?_ <;> simpa only [trunc_self, ext_self] using hnot hs
  | opaqueComplement =>
    cases cb <;> refine store _ _ rfl ?_ <;> simpa only [trunc_self, ext_self] using hnot hs
  | complementAndTest =>
    cases cb <;> refine store _ _ rfl ?_ <;> simpa only [trunc_self, ext_self] using hnot hs
  | bitTestAndSet b =>
    simp only [EmulSafe, not_or, Bool.not_eq_false] at hs
    obtain ⟨rfl, hb⟩ := hs
    cases cb <;> exact store _ _ rfl ⟨_, bad_set hN h hb⟩
  | bitTestAndReset b =>
    simp only [EmulSafe, not_or, Bool.not_eq_false] at hs
    obtain ⟨rfl, hb⟩ := hs
    cases cb <;> exact store _ _ rfl ⟨_, bad_reset hN h hb⟩
  | bitTestAndComplement b =>
    simp only [EmulSafe, not_or, Bool.not_eq_false] at hs
    obtain ⟨rfl, hb⟩ := hs
    cases cb <;> exact store _ _ rfl ⟨_, bad_flip hN h hb⟩

/-- C07, exactly: with a value emulated in a wider word, an operation keeps the word canonical and does
what it says from every canonical word if and only if it is in `EmulSafe`.  Holds for every value
width and every wider storage. -/
theorem C07_emulated_exact (cb sgn : Bool) {N W : Nat} (hN : 0 < N) (h : N < W) (op : Op N) :
    EmulSafe cb sgn op ↔ ∀ (w w' : BitVec W) (r : Ret N), w = ext sgn W (trunc N w) →
      (emulated cb sgn N W op).Run w w' r →
      w' = ext sgn W (trunc N w') ∧ spec (trunc N w) op (trunc N w') r := by
  constructor
  · exact fun hs w w' r hc hr => emulated_implements cb sgn hN (by omega) op w w' r hs hc hr
  · intro hall
    refine Classical.byContradiction fun hs => ?_
    obtain ⟨v₀, w', r, hr, hbad⟩ := unsafe_step cb sgn hN h op hs
    have := hall _ w' r (canon_ext (by omega) v₀) hr
    rw [trunc_ext (by omega)] at this
    exact hbad this

/-- A step that leaves a word which is not canonical, or gives a wrong result, is seen by a caller who then
loads the value and compares it with the value loaded. -/
theorem seen {N W : Nat} {sgn : Bool} {O R : Type} {code : O → Code (BitVec W) R} {spec : SeqSpec (BitVec N) O R}
    (ld : O) (cas : BitVec N → O) (rv rc : BitVec N → R)
    (hld : ∀ w, (code ld).Run w w (rv (trunc N w)))
    (hcas : ∀ w, ¬ Canon sgn N w → (code (cas (trunc N w))).Run w w (rc (trunc N w)))
    (sld : ∀ s s' v, spec s ld s' (rv v) → s' = s ∧ v = s) (scas : ∀ s s', ¬ spec s (cas s) s' (rc s))
    {op : O} {v₀ : BitVec N} {w' : BitVec W} {r : R} (hr : (code op).Run (ext sgn W v₀) w' r)
    (hbad : ¬ (Canon sgn N w' ∧ spec v₀ op (trunc N w') r)) :
    ∃ (tr : List (Entry Unit O R)) (w : BitVec W), (∀ e ∈ tr, e.op = op ∨ e.op = ld ∨ ∃ x, e.op = cas x) ∧
      Runs code (ext sgn W v₀) tr w ∧ ¬ ∃ v, Legal spec v₀ tr v := by
  by_cases hc : Canon sgn N w'
  · refine ⟨[⟨(), op, r⟩, ⟨(), ld, rv (trunc N w')⟩], w', ?_, .cons hr (.cons (hld w') (.nil _)), ?_⟩
    · intro e he
      simp only [List.mem_cons, List.not_mem_nil, or_false] at he
      rcases he with rfl | rfl
      · exact .inl rfl
      · exact .inr (.inl rfl)
    · rintro ⟨v, hl⟩
      cases hl with
      | cons a hl =>
        cases hl with
        | cons b _ =>
          obtain ⟨_, b⟩ := sld _ _ _ b
          rw [← b] at a
          exact hbad ⟨hc, a⟩
  · refine ⟨[⟨(), op, r⟩, ⟨(), ld, rv (trunc N w')⟩, ⟨(), cas (trunc N w'), rc (trunc N w')⟩], w', ?_,
      .cons hr (.cons (hld w') (.cons (hcas w' hc) (.nil _))), ?_⟩
    · intro e he
      simp only [List.mem_cons, List.not_mem_nil, or_false] at he
      rcases he with rfl | rfl | rfl
      · exact .inl rfl
      · exact .inr (.inl rfl)
      · exact .inr (.inr ⟨_, rfl⟩)
    · rintro ⟨v, hl⟩
      cases hl with
      | cons a hl =>
        cases hl with
        | cons b hl =>
          cases hl with
          | cons c _ =>
            obtain ⟨b1, b⟩ := sld _ _ _ b
            rw [b1, ← b] at c
            exact scas _ _ c

/-- C06, exactly, and in terms of what a caller sees: a program that uses one modifying operation
together with `load` and `compare_exchange_strong` on an atomic emulated in a wider word always gets
results that arithmetic modulo `2^N` explains if and only if the operation is in `EmulSafe`.  So
for each other operation, whatever the widths, there is a program that sees a wrong result. -/
theorem C06_emulated_exact (cb sgn : Bool) {N W : Nat} (hN : 0 < N) (h : N < W) (op : Op N) :
    EmulSafe cb sgn op ↔ ∀ (v₀ : BitVec N) (tr : List (Entry Unit (Op N) (Ret N))) (w : BitVec W),
      (∀ e ∈ tr, e.op = op ∨ e.op = .load ∨ ∃ x d, e.op = .casStrong x d) →
      Runs (emulated cb sgn N W) (construct sgn W v₀) tr w → ∃ v, Legal spec v₀ tr v := by
  constructor
  · intro hs v₀ tr w hops hr
    have hsafe : ∀ e ∈ tr, EmulSafe cb sgn e.op := by
      intro e he
      rcases hops e he with e1 | e1 | ⟨x, d, e1⟩ <;> rw [e1]
      · exact hs
      · trivial
      · trivial
    exact ⟨_, (C07_emulated_partial cb sgn hN (by omega) v₀ tr w hsafe hr).2⟩
  · intro hall
    refine Classical.byContradiction fun hs => ?_
    obtain ⟨v₀, w', r, hr, hbad⟩ := unsafe_step cb sgn hN h op hs
    obtain ⟨tr, w, hops, hruns, hno⟩ := seen (spec := spec) (code := emulated cb sgn N W) .load
      (fun x => .casStrong x 0) .val (.cas false) (fun w => run_load.2 ⟨rfl, rfl⟩)
      (fun w hc => run_strong.2 (.inr ⟨fun e => hc e, rfl, rfl⟩))
      (fun s s' v hs => ⟨hs.1, by simpa using hs.2⟩)
      (fun s s' hs => by
        rcases hs with ⟨_, _, c⟩ | ⟨c, _⟩
        · simp at c
        · exact c rfl) hr hbad
    refine hno (hall v₀ tr w (fun e he => ?_) hruns)
    rcases hops e he with e1 | e1 | ⟨x, e1⟩
    · exact .inl e1
    · exact .inr (.inl e1)
    · exact .inr (.inr ⟨_, _, e1⟩)

/-- Both sides occur: on a CAS-only back end `fetch_add` of `int8_t` in a 32-bit word is right and
`add_and_test(0)` is, `add(1)` is not; with native arithmetic `sub_and_test` is right. -/
example : EmulSafe (N := 8) true true (.fetchAdd 1) ∧ EmulSafe (N := 8) true false (.addAndTest 0) ∧
    ¬ EmulSafe (N := 8) true true (.add 1) ∧ EmulSafe (N := 8) false false (.subAndTest 3) ∧
    ¬ EmulSafe (N := 8) false true (.addAndTest (-128)) ∧ EmulSafe (N := 8) false true (.addAndTest 127) := by
  refine ⟨trivial, .inr rfl, ?_, .inl rfl, ?_, .inl ⟨rfl, rfl, by decide⟩⟩
  · simp [EmulSafe]
  · simp only [EmulSafe]; decide

end Verif.Integral
