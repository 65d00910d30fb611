import Verif.Integral.Lemmas

/-
C06  integer arithmetic wraps modulo 2^N
C07  the storage word always is the canonical extension of the value
C08  *_and_test report whether the new value is non-zero
C09  bit_test_and_* report the old bit and change only that bit
C10  fetch_op / op / opaque_op / op_and_test agree, on one back end and across back ends
-/

namespace Verif.Integral

/-- A single thread applies operations one after the other: `Runs code w tr w'` says the trace
`tr` of operations and results takes the storage word from `w` to `w'`. -/
inductive Runs {W O R : Type} (code : O → Code W R) : W → List (Entry Unit O R) → W → Prop where
  | nil (w) : Runs code w [] w
  | cons {w w₁ w₂ op r tr} : (code op).Run w w₁ r → Runs code w₁ tr w₂ →
      Runs code w (⟨(), op, r⟩ :: tr) w₂

/-- Induction over operation sequences. -/
theorem runs_legal {N W : Nat} {sgn : Bool} {ok : Op N → Prop}
    {code : Op N → Code (BitVec W) (Ret N)} (himp : Implements sgn ok code)
    {w w' : BitVec W} {tr} (hc : Canon sgn N w) (h : Runs code w tr w')
    (hok : ∀ e ∈ tr, ok e.op) :
    Canon sgn N w' ∧ Legal spec (trunc N w) tr (trunc N w') := by
  induction h with
  | nil w => exact ⟨hc, .nil _⟩
  | @cons w w₁ w₂ op r tr h1 _ ih =>
    obtain ⟨hc1, hs⟩ := himp op w w₁ r (hok ⟨(), op, r⟩ (by simp)) hc h1
    obtain ⟨hc2, hl⟩ := ih hc1 (fun e he => hok e (by simp [he]))
    exact ⟨hc2, .cons hs hl⟩

/-! ### C06 / C07 -/

/-- C06, for values stored in a word of their own width.  Whatever back end, signedness and
width: any sequence of operations on a freshly constructed atomic returns exactly the results of
arithmetic modulo `2^N`, and the word holds the resulting value. -/
theorem C06_native_sequences (b : Backend) (sgn : Bool) {N : Nat} (hN : 0 < N) (hb : b.Fits N)
    (v₀ : BitVec N) (tr : List (Entry Unit (Op N) (Ret N))) (w : BitVec N)
    (h : Runs (native b sgn N) (construct sgn N v₀) tr w) : Legal spec v₀ tr w := by
  have := (runs_legal (native_implements b sgn hN hb) (canon_self _) h (fun _ _ => trivial)).2
  simpa [construct, trunc_self, ext_self] using this

example : Runs (native (.llsc 32 0xABCD#32) true 8) (construct true 8 (-128 : BitVec 8))
    [⟨(), .fetchSub 1, .val (-128)⟩, ⟨(), .load, .val 127⟩, ⟨(), .addAndTest 129, .flag false⟩] 0 := by
  refine .cons (w₁ := 127) ?_ (.cons (w₁ := 127) ?_ (.cons (w₁ := 0) ?_ (.nil _)))
  · exact run_rmw.2 ⟨by decide, by rw [Ret.val.injEq]; decide⟩
  · exact run_load.2 ⟨rfl, rfl⟩
  · exact run_rmw.2 ⟨by decide, by rw [Ret.flag.injEq]; decide⟩

/-- C06: the meaning of the specified additions and subtractions as integers.  For unsigned
types the new value is the sum modulo `2^N`; for signed types it is the representative in
`[-2^(N-1), 2^(N-1))` of the sum modulo `2^N`; never an overflow. -/
theorem C06_wraps {N : Nat} (s s' v : BitVec N) (r : Ret N) (op : Op N)
    (hop : op = .fetchAdd v ∨ op = .add v ∨ op = .opaqueAdd v ∨ op = .addAndTest v)
    (h : spec s op s' r) :
    s'.toNat = (s.toNat + v.toNat) % 2 ^ N ∧ s'.toInt = (s.toInt + v.toInt).bmod (2 ^ N) := by
  have : s' = s + v := by rcases hop with rfl | rfl | rfl | rfl <;> exact h.1
  subst this
  exact ⟨BitVec.toNat_add _ _, BitVec.toInt_add _ _⟩

theorem C06_wraps_sub {N : Nat} (s s' v : BitVec N) (r : Ret N) (op : Op N)
    (hop : op = .fetchSub v ∨ op = .sub v ∨ op = .opaqueSub v ∨ op = .subAndTest v)
    (h : spec s op s' r) :
    ((s'.toNat : Int) = ((s.toNat : Int) - v.toNat) % (2 ^ N : Nat)) ∧
      s'.toInt = (s.toInt - v.toInt).bmod (2 ^ N) := by
  have : s' = s - v := by rcases hop with rfl | rfl | rfl | rfl <;> exact h.1
  subst this
  refine ⟨?_, BitVec.toInt_sub⟩
  rw [BitVec.toNat_sub]
  have hv := v.isLt
  have : ((2 ^ N - v.toNat + s.toNat : Nat) : Int) = ((s.toNat : Int) - v.toNat) + (2 ^ N : Nat) := by
    omega
  rw [Int.natCast_emod, this, Int.add_emod_right]

theorem C06_wraps_negate {N : Nat} (s s' : BitVec N) (r : Ret N) (op : Op N)
    (hop : op = .fetchNegate ∨ op = .negate ∨ op = .opaqueNegate ∨ op = .negateAndTest)
    (h : spec s op s' r) : s'.toInt = (-s.toInt).bmod (2 ^ N) := by
  have : s' = -s := by rcases hop with rfl | rfl | rfl | rfl <;> exact h.1
  subst this
  exact BitVec.toInt_neg

example : spec (200#8) (.fetchAdd 100#8) (44#8) (.val 200#8) := by
  exact ⟨by decide, rfl⟩

/-- C07 for the configuration in which the extra operations are told the width of the value:
every reachable storage word is canonical and every result is right.  This is what the design of
`emulated_storage_type` in extra_ops_generic.hpp aims at; see `C07_emulated_violated` for what is
instantiated. -/
theorem C07_intended_emulation (cb sgn : Bool) {N W : Nat} (hN : 0 < N) (h : N ≤ W) (v₀ : BitVec N)
    (tr : List (Entry Unit (Op N) (Ret N))) (w : BitVec W)
    (hr : Runs (emulatedWith N cb sgn N W) (construct sgn W v₀) tr w) :
    w = ext sgn W (trunc N w) ∧ Legal spec v₀ tr (trunc N w) := by
  have := runs_legal (emulatedWith_implements cb sgn hN h) (canon_ext h v₀) hr (fun _ _ => trivial)
  rw [trunc_ext h] at this
  exact this

example : Runs (emulatedWith 8 true true 8 32) (construct true 32 (127#8))
    [⟨(), .add 1, .val (-128)⟩, ⟨(), .casStrong (-128) 3, .cas true (-128)⟩] 3 := by
  refine .cons (w₁ := 0xFFFFFF80#32) ?_ (.cons (w₁ := 3) ?_ (.nil _))
  · exact run_rmw.2 ⟨by decide, by rw [Ret.val.injEq]; decide⟩
  · exact run_strong.2 (.inl ⟨by decide, by decide, by rw [Ret.cas.injEq]; decide⟩)

/-- The operations that keep a value emulated in a wider word right although the extra operations
are instantiated with the width of the storage (extra_operations_fwd.hpp:28).  The list is exact, see
`C06_emulated_exact` in Verif.Integral.Exact. -/
def EmulSafe (cb sgn : Bool) {N : Nat} : Op N → Prop
  | .add v | .sub v => cb = false ∨ v = 0
  | .addAndTest v => (cb = false ∧ sgn = true ∧ v ≠ BitVec.intMin N) ∨ v = 0
  | .subAndTest v => cb = false ∨ v = 0
  | .fetchNegate | .negate | .opaqueNegate | .negateAndTest => False
  | .fetchComplement | .bitwiseComplement | .opaqueComplement | .complementAndTest => sgn = true
  | .bitTestAndSet b | .bitTestAndReset b | .bitTestAndComplement b => sgn = false ∨ b.val + 1 < N
  | _ => True

theorem ext_shl_low {N W : Nat} {sgn : Bool} (hW : N ≤ W) {b : Nat} (hb : b + 1 < N) :
    (1#W <<< b) = ext sgn W (1#N <<< b) := by
  apply BitVec.eq_of_getLsbD_eq
  intro i hi
  rw [getLsbD_ext, getLsbD_one_shl (⟨b, by omega⟩ : Fin W)]
  have hm : (1#N <<< b).msb = false := by
    rw [BitVec.msb_eq_getLsbD_last, getLsbD_one_shl (⟨b, by omega⟩ : Fin N)]
    simp; omega
  rw [hm]
  by_cases hiN : i < N
  · have := getLsbD_one_shl (⟨b, by omega⟩ : Fin N) i
    simp only at this
    simp only [hi, hiN, if_true, this]; simp
  · simp [hi, hiN]; omega

theorem ext_shl_unsigned {N W : Nat} (hW : N ≤ W) (b : Fin N) :
    (1#W <<< b.val) = ext false W (1#N <<< b.val) := by
  apply BitVec.eq_of_getLsbD_eq
  intro i hi
  rw [getLsbD_ext, getLsbD_one_shl (⟨b.val, by omega⟩ : Fin W), getLsbD_one_shl b]
  have := b.isLt
  by_cases hiN : i < N
  · simp [hi, hiN]
  · simp [hi, hiN]; omega

theorem ones_signed {N W : Nat} (hN : 0 < N) :
    (~~~(0#W)) = ext true W (~~~(0#N)) := by
  apply BitVec.eq_of_getLsbD_eq
  intro i hi
  rw [getLsbD_ext, BitVec.msb_eq_getLsbD_last]
  simp only [BitVec.getLsbD_not, BitVec.getLsbD_zero, hi]
  by_cases hiN : i < N
  · simp [hiN]
  · simp [hiN]; omega

/-- Equal values have equal canonical words, so the wide difference is zero exactly when the
narrow one is. -/
theorem nz_sub {N W : Nat} {sgn : Bool} (h : N ≤ W) {w : BitVec W} (hc : Canon sgn N w) (v : BitVec N) :
    nz (w - ext sgn W v) = nz (trunc N (w - ext sgn W v)) := by
  have e : w - ext sgn W v = 0 ↔ trunc N w - v = 0 := by
    rw [BitVec.sub_eq_iff_eq_add, BitVec.sub_eq_iff_eq_add]
    simp only [BitVec.ofNat_eq_ofNat, BitVec.zero_add]
    constructor
    · rintro rfl; exact trunc_ext h v
    · intro e; rw [← e]; exact hc
  unfold nz
  rw [trunc_sub h, trunc_ext h]
  simp only [ne_eq, e]

theorem ext_neg {N W : Nat} (hN : 0 < N) (h : N ≤ W) {v : BitVec N} (hv : v ≠ BitVec.intMin N) :
    ext true W (-v) = - ext true W v := by
  have hm : ∀ x : BitVec N, (ext true W x).toInt = x.toInt := fun x => by
    simp only [ext, if_true]; exact BitVec.toInt_signExtend_of_le h
  apply BitVec.eq_of_toInt_eq
  have hne : ext true W v ≠ BitVec.intMin W ∨ N = W := by
    by_cases e : N = W
    · exact .inr e
    · left
      intro e'
      have h1 := hm v
      rw [e', BitVec.toInt_intMin_of_pos (by omega)] at h1
      have h2 := BitVec.le_toInt v
      have h3 : (2 : Int) ^ (N - 1) < 2 ^ (W - 1) := by
        have : (2 : Nat) ^ (N - 1) < 2 ^ (W - 1) := Nat.pow_lt_pow_right (by decide) (by omega)
        exact_mod_cast this
      omega
  rcases hne with hne | rfl
  · rw [hm, BitVec.toInt_neg_of_ne_intMin hv, BitVec.toInt_neg_of_ne_intMin hne, hm]
  · rw [ext_self, ext_self]

/-- The same for sums of signed values, unless the argument is the least value. -/
theorem nz_add {N W : Nat} (hN : 0 < N) (h : N ≤ W) {w : BitVec W} (hc : Canon true N w)
    {v : BitVec N} (hv : v ≠ BitVec.intMin N) :
    nz (w + ext true W v) = nz (trunc N (w + ext true W v)) := by
  have := nz_sub h hc (-v)
  rw [ext_neg hN h hv, BitVec.sub_neg] at this
  exact this

/-- The library's emulation, for the safe operations. -/
theorem emulated_implements (cb sgn : Bool) {N W : Nat} (hN : 0 < N) (h : N ≤ W) :
    Implements sgn (EmulSafe cb sgn) (emulated cb sgn N W) := by
  intro op w w' r hok hc hr
  refine emulatedWith_implements cb sgn hN h op w w' r trivial hc ?_
  have hones : sgn = true → onesMask W sgn W = onesMask N sgn W := by
    rintro rfl; unfold onesMask; rw [ext_self]; exact ones_signed hN
  have hbit : ∀ b : Fin N, (sgn = false ∨ b.val + 1 < N) →
      bitMask W sgn W b.val = bitMask N sgn W b.val := by
    intro b hb
    unfold bitMask; rw [ext_self]
    rcases hb with rfl | hb
    · exact ext_shl_unsigned h b
    · exact ext_shl_low h hb
  have hand : ∀ v : BitVec N, ext sgn W (trunc N (w &&& ext sgn W v)) = w &&& ext sgn W v :=
    fun v => (canon_and hN hc (canon_ext h v)).symm
  have hor : ∀ v : BitVec N, ext sgn W (trunc N (w ||| ext sgn W v)) = w ||| ext sgn W v :=
    fun v => (canon_or hN hc (canon_ext h v)).symm
  have hxor : ∀ v : BitVec N, ext sgn W (trunc N (w ^^^ ext sgn W v)) = w ^^^ ext sgn W v :=
    fun v => (canon_xor hN hc (canon_ext h v)).symm
  have hxo : ext sgn W (trunc N (w ^^^ onesMask N sgn W)) = w ^^^ onesMask N sgn W :=
    (canon_xor hN hc (canon_onesMask h)).symm
  have hnz : nz (w ^^^ onesMask N sgn W) = nz (trunc N (w ^^^ onesMask N sgn W)) :=
    nz_canon (canon_xor hN hc (canon_onesMask h))
  have hz : ext sgn W (trunc N w) = w := hc.symm
  have hnw : nz w = nz (trunc N w) := nz_canon hc
  have hsubt : ∀ v : BitVec N, nz (w - ext sgn W v) = nz (trunc N (w - ext sgn W v)) := nz_sub h hc
  cases cb <;> cases op <;>
    simp only [EmulSafe, reduceCtorEq, true_or, false_or, true_and, false_and] at hok <;>
    simp only [emulated, emulatedWith, api, coreExtending, corePlain, extraGeneric, extraCasBased,
      Code.map, run_rmw, run_load, run_store, run_weak, run_strong, if_true, Bool.false_eq_true,
      if_false, trunc_self, ext_self, hand, hor, hxor] at hr ⊢
  all_goals first
    | exact hr
    | (simp only [hsubt] at hr; exact hr)
    | (subst hok; simp only [BitVec.ofNat_eq_ofNat, ext_zero, BitVec.add_zero, BitVec.sub_zero, hz, hnw] at hr ⊢; exact hr)
    | (rcases hok with ⟨rfl, hv⟩ | rfl
       · rw [nz_add hN h hc hv] at hr; exact hr
       · simp only [BitVec.ofNat_eq_ofNat, ext_zero, BitVec.add_zero, hz, hnw] at hr ⊢; exact hr)
    | (simp only [hbit _ hok] at hr ⊢; exact hr)
    | (simp only [hones hok] at hr ⊢; exact hr)
    | (simp only [hones hok] at hr ⊢; rw [← hnz]; exact hr)
    | (simp only [hones hok] at hr; simp only [hxo, ← hnz]; exact hr)

/-- C07, partial: emulated values stay canonical and results are right as long as only the
operations in `EmulSafe` are used.  Missing: `negate`, complement of unsigned types, bit operations
on the sign bit, `add_and_test` of unsigned types and of the least signed value, and on CAS-only back
ends every `add`, `sub`, `add_and_test` and `sub_and_test`; for each of those the claim is false,
see `C06_emulated_exact`, `C07_emulated_violated` and `C06_emulated_violated`. -/
theorem C07_emulated_partial (cb sgn : Bool) {N W : Nat} (hN : 0 < N) (h : N ≤ W) (v₀ : BitVec N)
    (tr : List (Entry Unit (Op N) (Ret N))) (w : BitVec W)
    (hsafe : ∀ e ∈ tr, EmulSafe cb sgn e.op)
    (hr : Runs (emulated cb sgn N W) (construct sgn W v₀) tr w) :
    w = ext sgn W (trunc N w) ∧ Legal spec v₀ tr (trunc N w) := by
  have := runs_legal (emulated_implements cb sgn hN h) (canon_ext h v₀) hr hsafe
  rw [trunc_ext h] at this
  exact this

example : (∀ e ∈ ([⟨(), .fetchSub 1, .val (-128)⟩, ⟨(), .casStrong 127 3, .cas true 127⟩] :
      List (Entry Unit (Op 8) (Ret 8))), EmulSafe true true e.op) ∧
    Runs (emulated true true 8 32) (construct true 32 (-128 : BitVec 8))
      [⟨(), .fetchSub 1, .val (-128)⟩, ⟨(), .casStrong 127 3, .cas true 127⟩] 3 := by
  refine ⟨by simp [EmulSafe], ?_⟩
  refine .cons (w₁ := 127) ?_ (.cons (w₁ := 3) ?_ (.nil _))
  · exact run_rmw.2 ⟨by decide, by rw [Ret.val.injEq]; decide⟩
  · exact run_strong.2 (.inl ⟨by decide, by decide, by rw [Ret.cas.injEq]; decide⟩)

/-- C07 fails for the emulation the library instantiates: on a CAS-only back end (e.g. the SPARC one)
`atomic<uint8_t> a(255); a.add(1)` leaves 256 in the storage word, which is not the extension of the
value 0. -/
theorem C07_emulated_violated :
    ¬ ∀ (v₀ : BitVec 8) (tr : List (Entry Unit (Op 8) (Ret 8))) (w : BitVec 32),
      Runs (emulated true false 8 32) (construct false 32 v₀) tr w →
      w = ext false 32 (trunc 8 w) := by
  intro hall
  have h1 : Runs (emulated true false 8 32) (construct false 32 (255#8))
      [⟨(), .add 1, .val 0⟩] 256 := by
    refine .cons (w₁ := 256) ?_ (.nil _)
    exact run_rmw.2 ⟨by decide, by rw [Ret.val.injEq]; decide⟩
  exact absurd (hall _ _ _ h1) (by decide)

/-- … and it is observable: afterwards `load()` returns 0 but `compare_exchange_strong` with
`expected == 0` fails, leaving `expected == 0`. -/
theorem C06_emulated_violated :
    ¬ ∀ (v₀ : BitVec 8) (tr : List (Entry Unit (Op 8) (Ret 8))) (w : BitVec 32),
      Runs (emulated true false 8 32) (construct false 32 v₀) tr w →
      ∃ v, Legal spec v₀ tr v := by
  intro hall
  have h1 : Runs (emulated true false 8 32) (construct false 32 (255#8))
      [⟨(), .add 1, .val 0⟩, ⟨(), .load, .val 0⟩, ⟨(), .casStrong 0 7, .cas false 0⟩] 256 := by
    refine .cons (w₁ := 256) ?_ (.cons (w₁ := 256) ?_ (.cons (w₁ := 256) ?_ (.nil _)))
    · exact run_rmw.2 ⟨by decide, by rw [Ret.val.injEq]; decide⟩
    · exact run_load.2 ⟨rfl, by rw [Ret.val.injEq]; decide⟩
    · exact run_strong.2 (.inr ⟨by decide, rfl, by rw [Ret.cas.injEq]; decide⟩)
  obtain ⟨v, hl⟩ := hall _ _ _ h1
  cases hl with
  | cons a hl =>
    cases hl with
    | cons b hl =>
      cases hl with
      | cons c _ =>
        obtain ⟨rfl, _⟩ := a
        obtain ⟨rfl, _⟩ := b
        rcases c with ⟨_, _, h⟩ | ⟨h, _⟩
        · simp at h
        · exact h (by decide)

/-- The same with a back end that has native arithmetic (e.g. Alpha, or ARM before v6K):
`add_and_test(1)` on 255 reports a non-zero result although the new value is 0, so C08 fails there. -/
theorem C08_emulated_violated :
    ¬ ∀ (w w' : BitVec 32) (r : Ret 8), Canon false 8 w →
      (emulated false false 8 32 (.addAndTest (1#8))).Run w w' r →
      r = .flag (decide (trunc 8 w' ≠ 0)) := by
  intro hall
  have := hall (255#32) 0 (.flag true) (by unfold Canon; decide)
    (run_rmw.2 ⟨by decide, by rw [Ret.flag.injEq]; decide⟩)
  rw [Ret.flag.injEq] at this
  exact absurd this (by decide)

/-- … `negate` of an unsigned emulated value leaves a non-canonical word. -/
theorem C07_emulated_negate_violated :
    ¬ ∀ (w w' : BitVec 32) (r : Ret 8), Canon false 8 w →
      (emulated false false 8 32 (.negate)).Run w w' r → Canon false 8 w' := by
  intro hall
  have := hall 1 (-1) (.val 255) (by unfold Canon; decide)
    (run_rmw.2 ⟨by decide, by rw [Ret.val.injEq]; decide⟩)
  unfold Canon at this
  exact absurd this (by decide)

/-- … and so does setting the sign bit of a signed emulated value. -/
theorem C07_emulated_bitset_violated :
    ¬ ∀ (w w' : BitVec 32) (r : Ret 8), Canon true 8 w →
      (emulated false true 8 32 (.bitTestAndSet 7)).Run w w' r → Canon true 8 w' := by
  intro hall
  have := hall 0 0x80 (.flag false) (by unfold Canon; decide)
    (run_rmw.2 ⟨by decide, by rw [Ret.flag.injEq]; decide⟩)
  unfold Canon at this
  exact absurd this (by decide)

/-! ### C08 -/

/-- C08: for every back end and width, each `*_and_test` operation returns `true` exactly when the
value it stores is not zero. -/
theorem C08_op_and_test (b : Backend) (sgn : Bool) {N : Nat} (hN : 0 < N) (hb : b.Fits N)
    (op : Op N)
    (hop : (∃ v, op = .addAndTest v ∨ op = .subAndTest v ∨ op = .andAndTest v ∨ op = .orAndTest v ∨
      op = .xorAndTest v) ∨ op = .negateAndTest ∨ op = .complementAndTest)
    (w w' : BitVec N) (r : Ret N) (h : (native b sgn N op).Run w w' r) :
    ∃ t, r = .flag t ∧ (t = true ↔ w' ≠ 0) := by
  have hs := (native_implements b sgn hN hb op w w' r trivial (canon_self _) h).2
  simp only [trunc_self] at hs
  refine ⟨decide (w' ≠ 0), ?_, by simp⟩
  rcases hop with ⟨v, rfl | rfl | rfl | rfl | rfl⟩ | rfl | rfl <;> exact hs.2

example : (native (.x86 true) false 16 (.subAndTest 5)).Run 5 0 (.flag false) :=
  run_rmw.2 ⟨by decide, by rw [Ret.flag.injEq]; decide⟩

/-! ### C09 -/

/-- C09: for every back end and width, the bit operations return the previous value of the bit
and change no other bit. -/
theorem C09_bit_test_and (b : Backend) (sgn : Bool) {N : Nat} (hN : 0 < N) (hb : b.Fits N)
    (k : Fin N) (w w' : BitVec N) (r : Ret N) :
    ((native b sgn N (.bitTestAndSet k)).Run w w' r →
      r = .flag (w.getLsbD k) ∧ w'.getLsbD k = true ∧ ∀ j : Fin N, j ≠ k → w'.getLsbD j = w.getLsbD j) ∧
    ((native b sgn N (.bitTestAndReset k)).Run w w' r →
      r = .flag (w.getLsbD k) ∧ w'.getLsbD k = false ∧ ∀ j : Fin N, j ≠ k → w'.getLsbD j = w.getLsbD j) ∧
    ((native b sgn N (.bitTestAndComplement k)).Run w w' r →
      r = .flag (w.getLsbD k) ∧ w'.getLsbD k = (!w.getLsbD k) ∧
        ∀ j : Fin N, j ≠ k → w'.getLsbD j = w.getLsbD j) := by
  have key := fun op h => (native_implements b sgn hN hb op w w' r trivial (canon_self _) h).2
  simp only [trunc_self] at key
  refine ⟨fun h => ?_, fun h => ?_, fun h => ?_⟩
  all_goals
    obtain ⟨h1, h2⟩ := key _ h
    refine ⟨h2, by simpa using h1 k, fun j hj => by simpa [hj] using h1 j⟩

example : (native .locked true 8 (.bitTestAndReset 7)).Run (-1) 127 (.flag true) :=
  run_rmw.2 ⟨by decide, by rw [Ret.flag.injEq]; decide⟩

/-! ### C10 -/

/-- The seven modifications that exist in all flavours. -/
inductive Modify (N : Nat) where
  | add (v : BitVec N) | sub (v : BitVec N) | and (v : BitVec N) | or (v : BitVec N)
  | xor (v : BitVec N) | neg | not

/-- `fetch_<op>`, `<op>`, `opaque_<op>`, `<op>_and_test` of a modification. -/
def Modify.fetch {N : Nat} : Modify N → Op N
  | .add v => .fetchAdd v | .sub v => .fetchSub v | .and v => .fetchAnd v | .or v => .fetchOr v
  | .xor v => .fetchXor v | .neg => .fetchNegate | .not => .fetchComplement
def Modify.new {N : Nat} : Modify N → Op N
  | .add v => .add v | .sub v => .sub v | .and v => .bitwiseAnd v | .or v => .bitwiseOr v
  | .xor v => .bitwiseXor v | .neg => .negate | .not => .bitwiseComplement
def Modify.void {N : Nat} : Modify N → Op N
  | .add v => .opaqueAdd v | .sub v => .opaqueSub v | .and v => .opaqueAnd v | .or v => .opaqueOr v
  | .xor v => .opaqueXor v | .neg => .opaqueNegate | .not => .opaqueComplement
def Modify.test {N : Nat} : Modify N → Op N
  | .add v => .addAndTest v | .sub v => .subAndTest v | .and v => .andAndTest v | .or v => .orAndTest v
  | .xor v => .xorAndTest v | .neg => .negateAndTest | .not => .complementAndTest

/-- C10: started from the same value, the four flavours of a modification store the same new value —
on the same or on different back ends — and return, respectively, the old value, the new value,
nothing, and whether the new value is non-zero. -/
theorem C10_flavours_agree (b₁ b₂ b₃ b₄ : Backend) (sgn : Bool) {N : Nat} (hN : 0 < N)
    (h₁ : b₁.Fits N) (h₂ : b₂.Fits N) (h₃ : b₃.Fits N) (h₄ : b₄.Fits N) (m : Modify N)
    (w w₁ w₂ w₃ w₄ : BitVec N) (r₁ r₂ r₃ r₄ : Ret N)
    (e₁ : (native b₁ sgn N m.fetch).Run w w₁ r₁) (e₂ : (native b₂ sgn N m.new).Run w w₂ r₂)
    (e₃ : (native b₃ sgn N m.void).Run w w₃ r₃) (e₄ : (native b₄ sgn N m.test).Run w w₄ r₄) :
    (w₁ = w₂ ∧ w₂ = w₃ ∧ w₃ = w₄) ∧
      r₁ = .val w ∧ r₂ = .val w₂ ∧ r₃ = .unit ∧ r₄ = .flag (decide (w₄ ≠ 0)) := by
  have s₁ := (native_implements b₁ sgn hN h₁ _ _ _ _ trivial (canon_self _) e₁).2
  have s₂ := (native_implements b₂ sgn hN h₂ _ _ _ _ trivial (canon_self _) e₂).2
  have s₃ := (native_implements b₃ sgn hN h₃ _ _ _ _ trivial (canon_self _) e₃).2
  have s₄ := (native_implements b₄ sgn hN h₄ _ _ _ _ trivial (canon_self _) e₄).2
  simp only [trunc_self] at s₁ s₂ s₃ s₄
  cases m <;> simp only [Modify.fetch, Modify.new, Modify.void, Modify.test, spec] at s₁ s₂ s₃ s₄ <;>
    obtain ⟨rfl, rfl⟩ := s₁ <;> obtain ⟨rfl, rfl⟩ := s₂ <;> obtain ⟨rfl, rfl⟩ := s₃ <;>
    obtain ⟨rfl, rfl⟩ := s₄ <;> exact ⟨⟨rfl, rfl, rfl⟩, rfl, rfl, rfl, rfl⟩

example : (native (.x86 false) false 8 (Modify.sub 3#8).fetch).Run 2 255 (.val 2) ∧
    (native (.lse 32) false 8 (Modify.sub 3#8).new).Run 2 255 (.val 255) :=
  ⟨run_rmw.2 ⟨by decide, by rw [Ret.val.injEq]; decide⟩,
   run_rmw.2 ⟨by decide, by rw [Ret.val.injEq]; decide⟩⟩

/-- C10: every operation that cannot fail spuriously behaves the same on every back end. -/
theorem C10_backends_agree (b₁ b₂ : Backend) (sgn₁ sgn₂ : Bool) {N : Nat} (hN : 0 < N)
    (h₁ : b₁.Fits N) (h₂ : b₂.Fits N) (op : Op N) (hop : ∀ e d, op ≠ .casWeak e d)
    (w w₁ w₂ : BitVec N) (r₁ r₂ : Ret N)
    (e₁ : (native b₁ sgn₁ N op).Run w w₁ r₁) (e₂ : (native b₂ sgn₂ N op).Run w w₂ r₂) :
    w₁ = w₂ ∧ r₁ = r₂ := by
  have s₁ := (native_implements b₁ sgn₁ hN h₁ _ _ _ _ trivial (canon_self _) e₁).2
  have s₂ := (native_implements b₂ sgn₂ hN h₂ _ _ _ _ trivial (canon_self _) e₂).2
  simp only [trunc_self] at s₁ s₂
  have bits : ∀ {b : Fin N} {x : Bool}, SetsBit w w₁ b x → SetsBit w w₂ b x → w₁ = w₂ := by
    intro b x a1 a2
    apply BitVec.eq_of_getLsbD_eq
    intro i hi
    exact (a1 ⟨i, hi⟩).trans (a2 ⟨i, hi⟩).symm
  cases op <;> simp only [spec] at s₁ s₂
  case casWeak e d => exact absurd rfl (hop e d)
  case casStrong e d =>
    rcases s₁ with ⟨a, rfl, rfl⟩ | ⟨a, rfl, rfl⟩ <;> rcases s₂ with ⟨c, rfl, rfl⟩ | ⟨c, rfl, rfl⟩
    · exact ⟨rfl, rfl⟩
    · exact absurd a c
    · exact absurd c a
    · exact ⟨rfl, rfl⟩
  case bitTestAndSet b => exact ⟨bits s₁.1 s₂.1, by rw [s₁.2, s₂.2]⟩
  case bitTestAndReset b => exact ⟨bits s₁.1 s₂.1, by rw [s₁.2, s₂.2]⟩
  case bitTestAndComplement b => exact ⟨bits s₁.1 s₂.1, by rw [s₁.2, s₂.2]⟩
  all_goals
    obtain ⟨rfl, rfl⟩ := s₁
    obtain ⟨rfl, rfl⟩ := s₂
    exact ⟨rfl, rfl⟩

example : (native (.x86 true) true 16 (.fetchSub 7)).Run 3 (-4) (.val 3) ∧
    (native .locked false 16 (.fetchSub 7)).Run 3 (-4) (.val 3) :=
  ⟨run_rmw.2 ⟨by decide, by rw [Ret.val.injEq]; decide⟩,
   run_rmw.2 ⟨by decide, by rw [Ret.val.injEq]; decide⟩⟩

end Verif.Integral
