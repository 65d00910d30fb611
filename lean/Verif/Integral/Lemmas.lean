import Verif.Integral.Model

namespace Verif.Integral

/-- A storage word is canonical when it is the extension of the value it holds. -/
def Canon (sgn : Bool) (N : Nat) {W : Nat} (w : BitVec W) : Prop := w = ext sgn W (trunc N w)

section words
variable {N W : Nat} {sgn : Bool}

theorem getLsbD_ext {x : BitVec N} {k : Nat} :
    (ext sgn W x).getLsbD k = (decide (k < W) && (if k < N then x.getLsbD k else (sgn && x.msb))) := by
  unfold ext
  cases sgn
  · simp only [Bool.false_eq_true, if_false, BitVec.getLsbD_setWidth]
    by_cases hk : k < N
    · simp [hk]
    · simp [hk, BitVec.getLsbD_of_ge x k (by omega)]
  · simp [BitVec.getLsbD_signExtend]

theorem getLsbD_trunc {w : BitVec W} {k : Nat} :
    (trunc N w).getLsbD k = (decide (k < N) && w.getLsbD k) := by
  simp [trunc]

theorem trunc_ext (h : N ≤ W) (x : BitVec N) : trunc N (ext sgn W x) = x := by
  apply BitVec.eq_of_getLsbD_eq
  intro i hi
  rw [getLsbD_trunc, getLsbD_ext]
  rw [decide_eq_true hi, decide_eq_true (show i < W by omega), if_pos hi]
  rfl

theorem canon_ext (h : N ≤ W) (x : BitVec N) : Canon sgn N (ext sgn W x) := by
  unfold Canon; rw [trunc_ext h]

theorem msb_trunc {w : BitVec W} (hN : 0 < N) : (trunc N w).msb = w.getLsbD (N - 1) := by
  rw [BitVec.msb_eq_getLsbD_last, getLsbD_trunc]
  have : N - 1 < N := by omega
  simp [this]

theorem canon_iff (hN : 0 < N) {w : BitVec W} :
    Canon sgn N w ↔ ∀ k, N ≤ k → k < W → w.getLsbD k = (sgn && w.getLsbD (N - 1)) := by
  unfold Canon
  constructor
  · intro h k h1 h2
    have := congrArg (fun v => BitVec.getLsbD v k) h
    simp only [getLsbD_ext, msb_trunc hN] at this
    rw [this]; simp [h2, show ¬ k < N by omega]
  · intro h
    apply BitVec.eq_of_getLsbD_eq
    intro k hk
    rw [getLsbD_ext, msb_trunc hN, getLsbD_trunc]
    by_cases hkN : k < N
    · simp [hk, hkN]
    · rw [h k (by omega) hk]; simp [hk, hkN]

theorem canon_and (hN : 0 < N) {a b : BitVec W} (ha : Canon sgn N a) (hb : Canon sgn N b) :
    Canon sgn N (a &&& b) := by
  rw [canon_iff hN] at *
  intro k h1 h2; simp [ha k h1 h2, hb k h1 h2]; cases sgn <;> simp

theorem canon_or (hN : 0 < N) {a b : BitVec W} (ha : Canon sgn N a) (hb : Canon sgn N b) :
    Canon sgn N (a ||| b) := by
  rw [canon_iff hN] at *
  intro k h1 h2; simp [ha k h1 h2, hb k h1 h2]; cases sgn <;> simp

theorem canon_xor (hN : 0 < N) {a b : BitVec W} (ha : Canon sgn N a) (hb : Canon sgn N b) :
    Canon sgn N (a ^^^ b) := by
  rw [canon_iff hN] at *
  intro k h1 h2; simp [ha k h1 h2, hb k h1 h2]; cases sgn <;> simp

theorem canon_and_not (hN : 0 < N) (hNW : N ≤ W) {a b : BitVec W} (ha : Canon sgn N a)
    (hb : Canon sgn N b) : Canon sgn N (a &&& ~~~b) := by
  rw [canon_iff hN] at *
  intro k h1 h2
  rw [BitVec.getLsbD_and, BitVec.getLsbD_and, BitVec.getLsbD_not, BitVec.getLsbD_not,
    ha k h1 h2, hb k h1 h2, decide_eq_true h2, decide_eq_true (show N - 1 < W by omega)]
  cases sgn <;> simp

theorem trunc_add (h : N ≤ W) (a b : BitVec W) : trunc N (a + b) = trunc N a + trunc N b :=
  BitVec.setWidth_add a b h

theorem trunc_neg (h : N ≤ W) (a : BitVec W) : trunc N (-a) = - trunc N a :=
  BitVec.setWidth_neg_of_le h

theorem trunc_sub (h : N ≤ W) (a b : BitVec W) : trunc N (a - b) = trunc N a - trunc N b := by
  rw [BitVec.sub_eq_add_neg, trunc_add h, trunc_neg h, ← BitVec.sub_eq_add_neg]

theorem trunc_and (a b : BitVec W) : trunc N (a &&& b) = trunc N a &&& trunc N b := by
  simp [trunc]

theorem trunc_or (a b : BitVec W) : trunc N (a ||| b) = trunc N a ||| trunc N b := by
  simp [trunc]

theorem trunc_xor (a b : BitVec W) : trunc N (a ^^^ b) = trunc N a ^^^ trunc N b := by
  simp [trunc]

theorem trunc_not (h : N ≤ W) (a : BitVec W) : trunc N (~~~a) = ~~~ trunc N a := by
  apply BitVec.eq_of_getLsbD_eq
  intro i hi
  rw [getLsbD_trunc, BitVec.getLsbD_not, BitVec.getLsbD_not, getLsbD_trunc]
  simp [hi, show i < W by omega]

theorem trunc_self (w : BitVec W) : trunc W w = w := by simp [trunc]

theorem ext_self (w : BitVec W) : ext sgn W w = w := by
  unfold ext; cases sgn <;> simp

theorem canon_self (w : BitVec W) : Canon sgn W w := by
  unfold Canon; rw [trunc_self, ext_self]

theorem ext_zero : ext sgn W (0#N) = 0#W := by
  apply BitVec.eq_of_getLsbD_eq; intro i hi; rw [getLsbD_ext]; simp

theorem nz_canon {w : BitVec W} (hc : Canon sgn N w) : nz w = nz (trunc N w) := by
  unfold nz
  have : w = 0#W ↔ trunc N w = 0#N := by
    constructor
    · rintro rfl; simp [trunc]
    · intro h; rw [hc, h, ext_zero]
  simp only [BitVec.ofNat_eq_ofNat, ne_eq, this]

theorem trunc_onesMask (h : N ≤ W) : trunc N (onesMask N sgn W) = ~~~(0#N) := trunc_ext h _

theorem canon_onesMask (h : N ≤ W) : Canon sgn N (onesMask N sgn W) := canon_ext h _

theorem trunc_bitMask (h : N ≤ W) (b : Nat) : trunc N (bitMask N sgn W b) = 1#N <<< b :=
  trunc_ext h _

theorem canon_bitMask (h : N ≤ W) (b : Nat) : Canon sgn N (bitMask N sgn W b) := canon_ext h _

theorem getLsbD_one_shl (b : Fin N) (k : Nat) :
    ((1#N) <<< b.val).getLsbD k = decide (k = b.val) := by
  simp only [BitVec.getLsbD_shiftLeft]
  have hb := b.isLt
  by_cases hk : k = b.val
  · subst hk; simp; omega
  · by_cases h2 : k < b.val
    · simp [h2, hk]
    · have : k - b.val ≠ 0 := by omega
      simp only [BitVec.getLsbD_one]
      simp [h2, hk, this]

theorem twoPow_eq (b : Fin N) : BitVec.twoPow N b.val = 1#N <<< b.val := by
  apply BitVec.eq_of_getLsbD_eq; intro i hi
  rw [getLsbD_one_shl, BitVec.getLsbD_twoPow]
  simp [b.isLt, eq_comm]

theorem nz_and_bit (x : BitVec N) (b : Fin N) : nz (x &&& 1#N <<< b.val) = x.getLsbD b := by
  unfold nz
  cases hx : x.getLsbD b
  · have : x &&& 1#N <<< b.val = 0#N := by
      apply BitVec.eq_of_getLsbD_eq; intro i hi
      rw [BitVec.getLsbD_and, getLsbD_one_shl]
      by_cases h : i = b.val
      · subst h; rw [hx]; simp
      · simp [h]
    simp [this]
  · have : x &&& 1#N <<< b.val ≠ 0#N := by
      intro h
      have := congrArg (fun v => BitVec.getLsbD v b.val) h
      simp only [BitVec.getLsbD_and, getLsbD_one_shl, hx] at this
      simp at this
    simpa using this

theorem setsBit_or (x : BitVec N) (b : Fin N) : SetsBit x (x ||| 1#N <<< b.val) b true := by
  intro k
  rw [BitVec.getLsbD_or, getLsbD_one_shl]
  by_cases h : k = b
  · subst h; simp
  · simp [h, Fin.val_inj]

theorem setsBit_reset (x : BitVec N) (b : Fin N) :
    SetsBit x (x &&& ~~~(1#N <<< b.val)) b false := by
  intro k
  rw [BitVec.getLsbD_and, BitVec.getLsbD_not, getLsbD_one_shl]
  by_cases h : k = b
  · subst h; simp
  · simp [h, Fin.val_inj, k.isLt]

theorem setsBit_xor (x : BitVec N) (b : Fin N) :
    SetsBit x (x ^^^ 1#N <<< b.val) b (!x.getLsbD b) := by
  intro k
  rw [BitVec.getLsbD_xor, getLsbD_one_shl]
  by_cases h : k = b
  · subst h; simp
  · simp [h, Fin.val_inj]

end words

/-- `code` implements the specification: from a canonical word every sequential execution of
every operation leaves a canonical word and has the specified effect and result. -/
def Implements {N W : Nat} (sgn : Bool) (ok : Op N → Prop) (code : Op N → Code (BitVec W) (Ret N)) :
    Prop :=
  ∀ op w w' r, ok op → Canon sgn N w → (code op).Run w w' r →
    Canon sgn N w' ∧ spec (trunc N w) op (trunc N w') r

section runs
variable {W R : Type}

theorem run_rmw {f : W → W} {k : W → W → R} {w w' r} :
    (Code.rmw f k).Run w w' r ↔ w' = f w ∧ r = k w (f w) := by
  constructor
  · intro h; cases h; exact ⟨rfl, rfl⟩
  · rintro ⟨rfl, rfl⟩; exact .rmw

theorem run_load {k : W → R} {w w' r} : (Code.load k).Run w w' r ↔ w' = w ∧ r = k w := by
  constructor
  · intro h; cases h; exact ⟨rfl, rfl⟩
  · rintro ⟨rfl, rfl⟩; exact .load

theorem run_store {v : W} {r' : R} {w w' r} :
    (Code.store v r').Run w w' r ↔ w' = v ∧ r = r' := by
  constructor
  · intro h; cases h; exact ⟨rfl, rfl⟩
  · rintro ⟨rfl, rfl⟩; exact .store

theorem run_weak {e d : W} {k : Bool → W → R} {w w' r} :
    (Code.casWeak e d k).Run w w' r ↔
      (w = e ∧ w' = d ∧ r = k true w) ∨ (w' = w ∧ r = k false w) := by
  constructor
  · intro h; cases h
    · exact .inl ⟨rfl, rfl, rfl⟩
    · exact .inr ⟨rfl, rfl⟩
  · rintro (⟨rfl, rfl, rfl⟩ | ⟨rfl, rfl⟩)
    · exact .weakOk
    · exact .weakFail

theorem run_strong {e d : W} {k : Bool → W → R} {w w' r} :
    (Code.casStrong e d k).Run w w' r ↔
      (w = e ∧ w' = d ∧ r = k true w) ∨ (w ≠ e ∧ w' = w ∧ r = k false w) := by
  constructor
  · intro h; cases h
    · exact .inl ⟨rfl, rfl, rfl⟩
    · exact .inr ⟨‹_›, rfl, rfl⟩
  · rintro (⟨rfl, rfl, rfl⟩ | ⟨h, rfl, rfl⟩)
    · exact .strongOk
    · exact .strongFail h

end runs

/-- Equality of canonical words is equality of values. -/
theorem canon_eq_ext {N W : Nat} {sgn : Bool} (h : N ≤ W) {w : BitVec W} (hc : Canon sgn N w)
    (e : BitVec N) : w = ext sgn W e ↔ trunc N w = e := by
  constructor
  · rintro rfl; exact trunc_ext h e
  · rintro rfl; exact hc

theorem xor_ones {N : Nat} (x : BitVec N) : x ^^^ ~~~(0#N) = ~~~x := by
  apply BitVec.eq_of_getLsbD_eq; intro i hi
  simp [hi]

theorem emulatedWith_implements (cb sgn : Bool) {N W : Nat} (hN : 0 < N) (h : N ≤ W) :
    Implements sgn (fun _ => True) (emulatedWith N cb sgn N W) := by
  intro op w w' r _ hc hr
  cases cb <;> cases op <;>
    simp only [emulatedWith, api, coreExtending, corePlain, extraGeneric, extraCasBased, Code.map,
      run_rmw, run_load, run_store, run_weak, run_strong, if_true, Bool.false_eq_true, if_false,
      canon_eq_ext h hc, ne_eq] at hr
  all_goals (try (obtain ⟨rfl, rfl⟩ := hr))
  all_goals (try (rcases hr with ⟨h1, rfl, rfl⟩ | ⟨rfl, rfl⟩))
  all_goals (try (rcases hr with ⟨h1, rfl, rfl⟩ | ⟨h1, rfl, rfl⟩))
  all_goals simp [spec, canon_ext h, canon_and_not hN h, canon_and hN, canon_or hN, canon_xor hN,
    canon_onesMask h, canon_bitMask h, trunc_ext h, trunc_add h, trunc_sub h, trunc_neg h,
    trunc_and, trunc_or, trunc_xor, trunc_not h, trunc_onesMask h, trunc_bitMask h,
    nz_canon (W := W) (N := N) (sgn := sgn), nz_and_bit, setsBit_or, setsBit_reset, *]
  all_goals first
    | exact setsBit_xor _ _
    | simp [nz]

theorem lo_zx {R W : Nat} (h : W ≤ R) (s : BitVec W) : (s.setWidth R).setWidth W = s := by
  apply BitVec.eq_of_getLsbD_eq; intro i hi
  simp only [BitVec.getLsbD_setWidth, decide_eq_true hi, decide_eq_true (show i < R by omega),
    Bool.true_and]

theorem lo_reg {R W : Nat} (h : W ≤ R) (up : BitVec R) (v : BitVec W) :
    ((up <<< W) ||| v.setWidth R).setWidth W = v := by
  apply BitVec.eq_of_getLsbD_eq; intro i hi
  simp only [BitVec.getLsbD_setWidth, BitVec.getLsbD_or, BitVec.getLsbD_shiftLeft,
    decide_eq_true hi, decide_eq_true (show i < R by omega)]
  simp

/-- Register width is at least the operand width, where a register is involved. -/
def Backend.Fits (b : Backend) (N : Nat) : Prop :=
  match b with
  | .llsc R _ => N ≤ R
  | .lse R => N ≤ R
  | _ => True

theorem native_implements (b : Backend) (sgn : Bool) {N : Nat} (hN : 0 < N) (hb : b.Fits N) :
    Implements sgn (fun _ => True) (native b sgn N) := by
  intro op w w' r _ _ hr
  refine ⟨canon_self _, ?_⟩
  simp only [trunc_self]
  cases b with
  | intrinsics =>
    have := emulatedWith_implements false sgn hN (Nat.le_refl N) op w w' r trivial (canon_self _)
    simp only [trunc_self] at this
    refine (this ?_).2
    cases op <;> simpa [native, emulatedWith, api, corePlain, extraGeneric, coreExtending, Code.map,
      trunc_self, ext_self] using hr
  | casOnly =>
    have := emulatedWith_implements true sgn hN (Nat.le_refl N) op w w' r trivial (canon_self _)
    simp only [trunc_self] at this
    refine (this ?_).2
    cases op <;> simpa [native, emulatedWith, api, corePlain, extraCasBased, coreExtending, Code.map,
      trunc_self, ext_self] using hr
  | locked =>
    cases op <;>
      simp only [native, api, corePlain, extraEmulated, Code.map, run_rmw, run_load, run_store,
        run_weak, run_strong, trunc_self, ext_self, ne_eq] at hr
    all_goals (try (obtain ⟨rfl, rfl⟩ := hr))
    all_goals (try (rcases hr with ⟨h1, rfl, rfl⟩ | ⟨rfl, rfl⟩))
    all_goals (try (rcases hr with ⟨h1, rfl, rfl⟩ | ⟨h1, rfl, rfl⟩))
    all_goals simp [spec, nz_and_bit, setsBit_or, setsBit_reset, *]
    all_goals first
      | exact setsBit_xor _ _
      | simp [nz]
  | x86 wide =>
    cases wide <;> cases op <;>
      simp only [native, api, corePlain, coreX86, extraX86, extraGeneric, bitMask, onesMask,
        Code.map, run_rmw, run_load, run_store, if_true, Bool.false_eq_true, if_false,
        run_strong, trunc_self, ext_self, ne_eq, twoPow_eq] at hr
    all_goals (try (obtain ⟨rfl, rfl⟩ := hr))
    all_goals (try (rcases hr with ⟨h1, rfl, rfl⟩ | ⟨h1, rfl, rfl⟩))
    all_goals simp [spec, nz_and_bit, setsBit_or, setsBit_reset, BitVec.sub_eq_add_neg,
      BitVec.and_comm, BitVec.or_comm, BitVec.xor_comm, *]
    all_goals first
      | exact setsBit_xor _ _
      | (simp only [BitVec.or_comm _ w]; exact setsBit_or _ _)
      | (simp only [BitVec.and_comm _ w]; exact setsBit_reset _ _)
      | (simp only [BitVec.xor_comm _ w]; exact setsBit_xor _ _)
      | exact fun h => h.symm
      | (simp [nz]; done)
      | (simp [nz]; exact fun h => h.symm)
  | llsc R up =>
    have h : N ≤ R := hb
    have e1 : ∀ s : BitVec N, (s.setWidth R).setWidth N = s := lo_zx h
    have e2 : ∀ a b : BitVec R, (a + b).setWidth N = a.setWidth N + b.setWidth N := trunc_add h
    have e3 : ∀ a b : BitVec R, (a - b).setWidth N = a.setWidth N - b.setWidth N := trunc_sub h
    have e4 : ∀ a : BitVec R, (~~~a).setWidth N = ~~~(a.setWidth N) := trunc_not h
    have e5 : (0#R).setWidth N = 0#N := by simp
    have e6 : ∀ v : BitVec N, ((up <<< N) ||| v.setWidth R).setWidth N = v := lo_reg h up
    cases op <;>
      simp only [native, api, corePlain, coreNarrow, extraLlsc, extraGeneric, bitMask, onesMask,
        Code.map, run_rmw, run_load, run_store, run_weak,
        run_strong, trunc_self, ext_self, ne_eq, e1, e2, e3, e4, e5, e6, BitVec.setWidth_and,
        BitVec.setWidth_or, BitVec.setWidth_xor] at hr
    all_goals (try (obtain ⟨rfl, rfl⟩ := hr))
    all_goals (try (rcases hr with ⟨h1, rfl, rfl⟩ | ⟨rfl, rfl⟩))
    all_goals (try (rcases hr with ⟨h1, rfl, rfl⟩ | ⟨h1, rfl, rfl⟩))
    all_goals simp [spec, nz_and_bit, setsBit_or, setsBit_reset, BitVec.sub_eq_add_neg, *]
    all_goals first
      | exact setsBit_xor _ _
      | simp [nz]
  | lse R =>
    have h : N ≤ R := hb
    have e1 : ∀ s : BitVec N, (s.setWidth R).setWidth N = s := lo_zx h
    have e2 : ∀ a b : BitVec R, (a + b).setWidth N = a.setWidth N + b.setWidth N := trunc_add h
    have e3 : ∀ a b : BitVec R, (a - b).setWidth N = a.setWidth N - b.setWidth N := trunc_sub h
    have e4 : ∀ a : BitVec R, (~~~a).setWidth N = ~~~(a.setWidth N) := trunc_not h
    have e5 : (0#R).setWidth N = 0#N := by simp
    cases op <;>
      simp only [native, api, corePlain, coreLse, extraLlsc, extraGeneric, bitMask, onesMask,
        Code.map, run_rmw, run_load, run_store, run_weak,
        run_strong, trunc_self, ext_self, ne_eq, e1, e2, e3, e4, e5, BitVec.setWidth_and,
        BitVec.setWidth_or, BitVec.setWidth_xor] at hr
    all_goals (try (obtain ⟨rfl, rfl⟩ := hr))
    all_goals (try (rcases hr with ⟨h1, rfl, rfl⟩ | ⟨rfl, rfl⟩))
    all_goals (try (rcases hr with ⟨h1, rfl, rfl⟩ | ⟨h1, rfl, rfl⟩))
    all_goals simp [spec, nz_and_bit, setsBit_or, setsBit_reset, BitVec.sub_eq_add_neg, *]
    all_goals first
      | exact setsBit_xor _ _
      | simp [nz]

end Verif.Integral
