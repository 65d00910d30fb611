import Verif.Concurrent.Props
import Verif.Api.Model

/-! Helper lemmas for `Verif.Api.Props`. -/

namespace Verif.Api

open Verif.Integral Verif.Concurrent

theorem native_eq (b : Backend) (sgn : Bool) (N : Nat) :
    native b sgn N = Integral.api sgn (coreOf b N) (extraOf b sgn N) := by cases b <;> rfl

/-- Sequential correctness gives linearizability on all machines. -/
theorem everywhere {W Op Ret σ : Type} [DecidableEq W] {code : Op → Code W Ret} {I : W → Prop} {abs : W → σ}
    {spec : SeqSpec σ Op Ret} (hc : Correct code I abs spec) {w₀ : W} {s₀ : σ} (h₀ : I w₀) (e : abs w₀ = s₀) :
    LinearizableEverywhere code spec w₀ s₀ := by
  subst e
  refine ⟨cas_linearizable hc h₀, one_linearizable hc h₀, fun j => cas_linearizable (viaCas_correct j hc) h₀,
    kh_linearizable hc h₀, fun ver => ll_linearizable (m₀ := ⟨w₀, ver⟩) hc h₀,
    fun ver => ll_linearizable (m₀ := ⟨w₀, ver⟩) (viaRmw_correct hc) h₀,
    fun ver => mix_linearizable (m₀ := ⟨w₀, ver⟩) hc h₀, fun Addr _ idx => ?_⟩
  have h : ∀ a : Addr, ∃ w, (⟨fun _ => .whole w₀, fun _ => false⟩ : LkMem Addr W).cell a = .whole w ∧ I w :=
    fun a => ⟨_, rfl, h₀⟩
  exact lk_linearizable (idx := idx) hc h

/-- Correctness along a translation of operations. -/
theorem correct_lower {W Op Op' Ret σ : Type} {code : Op → Code W Ret} {code' : Op' → Code W Ret} {I : W → Prop}
    {abs : W → σ} {spec : SeqSpec σ Op Ret} {spec' : SeqSpec σ Op' Ret} (lower : Op' → Op) (hc : Correct code I abs spec)
    (he : ∀ op, code' op = code (lower op)) (hs : ∀ s op s' r, spec s (lower op) s' r → spec' s op s' r) :
    Correct code' I abs spec' := by
  intro op w w' r hI hr
  rw [he] at hr
  have := hc _ _ _ _ hI hr
  exact ⟨this.1, hs _ _ _ _ this.2⟩

/-! ### Pointers -/

def lowerPtr (S sz : Nat) {P : Nat} : PtrOp P → Op P
  | .load => .load
  | .store p => .store p
  | .exchange p => .exchange p
  | .casWeak e d => .casWeak e d
  | .casStrong e d => .casStrong e d
  | .fetchAdd n => .fetchAdd (offset S P sz n)
  | .fetchSub n => .fetchSub (offset S P sz n)
  | .add n | .addAssign n => .add (offset S P sz n)
  | .sub n | .subAssign n => .sub (offset S P sz n)
  | .opaqueAdd n => .opaqueAdd (offset S P sz n)
  | .opaqueSub n => .opaqueSub (offset S P sz n)
  | .addAndTest n => .addAndTest (offset S P sz n)
  | .subAndTest n => .subAndTest (offset S P sz n)
  | .postInc => .fetchAdd (offset S P sz 1)
  | .preInc => .add (offset S P sz 1)
  | .postDec => .fetchSub (offset S P sz 1)
  | .preDec => .sub (offset S P sz 1)

theorem ptrApi_eq (S sz : Nat) {P W : Nat} (c : CoreOps W) (x : ExtraOps W) (op : PtrOp P) :
    ptrApi S sz c x op = Integral.api false c x (lowerPtr S sz op) := by cases op <;> rfl

theorem offset_eq {S P : Nat} (h : P ≤ S) (sz : Nat) (n : Int) : offset S P sz n = BitVec.ofInt P (n * sz) := by
  have e : BitVec.ofNat S sz = BitVec.ofInt S sz := (BitVec.ofInt_natCast S sz).symm
  rw [offset, e, ← BitVec.ofInt_mul]
  apply BitVec.eq_of_toNat_eq
  have hd : (2 ^ P : Int) ∣ 2 ^ S := by
    have := Int.natCast_dvd_natCast.2 (Nat.pow_dvd_pow 2 h)
    simpa using this
  have hp : (0 : Int) < 2 ^ P := Int.pow_pos (by decide)
  have hs : (0 : Int) < 2 ^ S := Int.pow_pos (by decide)
  rw [BitVec.toNat_setWidth, BitVec.toNat_ofInt, BitVec.toNat_ofInt]
  apply Int.ofNat_inj.1
  rw [Int.natCast_emod]
  simp only [Int.natCast_pow, Int.cast_ofNat_Int]
  rw [Int.toNat_of_nonneg (Int.emod_nonneg _ (Int.ne_of_gt hs)), Int.toNat_of_nonneg (Int.emod_nonneg _ (Int.ne_of_gt hp)),
    Int.emod_emod_of_dvd _ hd]

theorem moves_add {P : Nat} (p : BitVec P) (d : Int) : Moves p d (p + BitVec.ofInt P d) := by
  have hp : (0 : Int) < 2 ^ P := Int.pow_pos (by decide)
  rw [Moves, BitVec.toNat_add, Int.natCast_emod, Int.natCast_add, BitVec.toNat_ofInt]
  simp only [Int.natCast_pow, Int.cast_ofNat_Int]
  rw [Int.toNat_of_nonneg (Int.emod_nonneg _ (Int.ne_of_gt hp)), Int.add_emod_emod]

theorem moves_sub {P : Nat} (p : BitVec P) (d : Int) : Moves p (-d) (p - BitVec.ofInt P d) := by
  rw [BitVec.sub_eq_add_neg, ← BitVec.ofInt_neg]
  exact moves_add p (-d)

theorem ptr_spec {S P sz : Nat} (h : P ≤ S) (s : BitVec P) (op : PtrOp P) (s' : BitVec P) (r : Ret P)
    (hs : Integral.spec s (lowerPtr S sz op) s' r) : ptrSpec sz s op s' r := by
  have o := offset_eq h sz
  have o1 := o 1
  rw [Int.one_mul] at o1
  cases op <;> simp only [lowerPtr, Integral.spec, o1, o] at hs <;> simp only [ptrSpec] <;>
    first
    | exact hs
    | (obtain ⟨h1, h2⟩ := hs; subst h1; exact ⟨moves_add _ _, h2⟩)
    | (obtain ⟨h1, h2⟩ := hs; subst h1; exact ⟨moves_sub _ _, h2⟩)

theorem ptrNative_correct (b : Backend) {S P : Nat} (sz : Nat) (hP : 0 < P) (h : P ≤ S) (hb : b.Fits P) :
    Correct (ptrNative b S sz P) (fun _ => True) (fun w => w) (ptrSpec sz) :=
  correct_lower (lowerPtr S sz) (native_correct b false hP hb)
    (fun op => by rw [native_eq, ptrNative, ptrApi_eq]) (ptr_spec h)

/-! ### bool -/

theorem nz_ofBool {W : Nat} (hW : 0 < W) (v : Bool) : nz (ofBool W v) = v := by
  have : (1 : BitVec W) ≠ 0 := by
    intro e
    have := congrArg BitVec.toNat e
    simp [Nat.mod_eq_of_lt (Nat.one_lt_two_pow (Nat.ne_of_gt hW))] at this
  cases v
  · simp [ofBool, nz]
  · exact decide_eq_true this

theorem rawBool_ofBool {W : Nat} (hW : 0 < W) (v : Bool) : rawBool (ofBool W v) = some v := by
  have := nz_ofBool hW v
  cases v
  · rfl
  · simp only [nz, ofBool, if_true, decide_eq_true_eq] at this
    rw [rawBool, ofBool, if_pos rfl, if_neg this, if_pos rfl]

/-- What the `bool` class needs of a core. -/
structure PlainCore {W : Nat} (c : CoreOps W) : Prop where
  load : c.load = .load fun w => w
  store : ∀ v, c.store v = .store v ()
  exchange : ∀ v, c.exchange v = .rmw (fun _ => v) (fun old _ => old)
  weak : ∀ e d, c.casWeak e d = .casWeak e d (fun b w => (b, w)) ∨ c.casWeak e d = .casStrong e d (fun b w => (b, w))
  strong : ∀ e d, c.casStrong e d = .casStrong e d (fun b w => (b, w))

theorem coreOf_plain (b : Backend) (N : Nat) : PlainCore (coreOf b N) := by
  cases b <;> exact ⟨rfl, fun _ => rfl, fun _ => rfl, fun _ _ => by first | exact .inl rfl | exact .inr rfl, fun _ _ => rfl⟩

theorem coreExtending_plain (N : Nat) (sgn : Bool) {W : Nat} {c : CoreOps W} (h : PlainCore c) :
    PlainCore (coreExtending N sgn c) := ⟨h.load, h.store, h.exchange, h.weak, h.strong⟩

theorem boolApi_correct (inPlace : Bool) {W : Nat} (hW : 0 < W) {c : CoreOps W} (hc : PlainCore c) :
    Correct (boolApi inPlace c) (fun w => w = ofBool W (nz w)) nz boolSpec := by
  have hinj : ∀ a b : Bool, ofBool W a = ofBool W b → a = b := fun a b h => by
    rw [← nz_ofBool hW a, h, nz_ofBool hW]
  have hexp : ∀ v, (if inPlace = true then rawBool (ofBool W v) else some (nz (ofBool W v))) = some v := fun v => by
    cases inPlace
    · simp [nz_ofBool hW]
    · simp [rawBool_ofBool hW]
  intro op w w' r hI hr
  generalize hv : nz w = v at hI ⊢
  subst hI
  cases op with
  | load =>
    simp only [boolApi, hc.load, Code.map, run_load] at hr
    obtain ⟨rfl, rfl⟩ := hr
    simp [nz_ofBool hW, boolSpec]
  | store v =>
    simp only [boolApi, hc.store, Code.map, run_store] at hr
    obtain ⟨rfl, rfl⟩ := hr
    simp [nz_ofBool hW, boolSpec]
  | exchange v =>
    simp only [boolApi, hc.exchange, Code.map, run_rmw] at hr
    obtain ⟨rfl, rfl⟩ := hr
    simp [nz_ofBool hW, boolSpec]
  | casWeak e d =>
    rcases hc.weak (ofBool W e) (ofBool W d) with h | h
    · simp only [boolApi, h, Code.map, run_weak, hexp] at hr
      rcases hr with ⟨h1, rfl, rfl⟩ | ⟨rfl, rfl⟩
      · have := hinj _ _ h1; subst this; simp [nz_ofBool hW, boolSpec]
      · simp [nz_ofBool hW, boolSpec]
    · simp only [boolApi, h, Code.map, run_strong, hexp] at hr
      rcases hr with ⟨h1, rfl, rfl⟩ | ⟨_, rfl, rfl⟩
      · have := hinj _ _ h1; subst this; simp [nz_ofBool hW, boolSpec]
      · simp [nz_ofBool hW, boolSpec]
  | casStrong e d =>
    simp only [boolApi, hc.strong, Code.map, run_strong, hexp] at hr
    rcases hr with ⟨h1, rfl, rfl⟩ | ⟨h1, rfl, rfl⟩
    · have := hinj _ _ h1; subst this; simp [nz_ofBool hW, boolSpec]
    · simp only [nz_ofBool hW, boolSpec]
      refine ⟨trivial, .inr ⟨fun h => h1 (by rw [h]), trivial, trivial⟩⟩

/-! ### Enumerations -/

def lowerEnum {N : Nat} : EnumOp N → Op N
  | .load => .load
  | .store v => .store v
  | .exchange v => .exchange v
  | .casWeak e d => .casWeak e d
  | .casStrong e d => .casStrong e d
  | .fetchAnd v => .fetchAnd v
  | .fetchOr v => .fetchOr v
  | .fetchXor v => .fetchXor v
  | .fetchComplement => .fetchComplement
  | .bitwiseAnd v | .andAssign v => .bitwiseAnd v
  | .bitwiseOr v | .orAssign v => .bitwiseOr v
  | .bitwiseXor v | .xorAssign v => .bitwiseXor v
  | .bitwiseComplement => .bitwiseComplement
  | .opaqueAnd v => .opaqueAnd v
  | .opaqueOr v => .opaqueOr v
  | .opaqueXor v => .opaqueXor v
  | .opaqueComplement => .opaqueComplement
  | .andAndTest v => .andAndTest v
  | .orAndTest v => .orAndTest v
  | .xorAndTest v => .xorAndTest v
  | .complementAndTest => .complementAndTest
  | .bitTestAndSet b => .bitTestAndSet b
  | .bitTestAndReset b => .bitTestAndReset b
  | .bitTestAndComplement b => .bitTestAndComplement b

theorem enum_spec {N : Nat} (s : BitVec N) (op : EnumOp N) (s' : BitVec N) (r : Ret N)
    (hs : Integral.spec s (lowerEnum op) s' r) : enumSpec s op s' r := by
  cases op <;> exact hs

theorem castDown_self (be : Bool) {N : Nat} (w : BitVec N) : castDown be N w = w := by
  cases be <;> simp [castDown]

theorem enumNative_eq (b : Backend) (be esgn : Bool) (N : Nat) (op : EnumOp N) :
    enumNative b be esgn N op = native b false N (lowerEnum op) := by
  rw [native_eq]
  cases op <;> simp only [enumNative, enumApi, lowerEnum, Integral.api, castDown_self, ext_self, trunc_self]

theorem enumNative_correct (b : Backend) (be esgn : Bool) {N : Nat} (hN : 0 < N) (hb : b.Fits N) :
    Correct (enumNative b be esgn N) (fun _ => True) (fun w => w) enumSpec :=
  correct_lower lowerEnum (native_correct b false hN hb) (enumNative_eq b be esgn N) enum_spec

theorem setsBit_ofBit {w w' : BitVec 8} {x : Bool} (hI : w = ofBit (trunc 1 w)) (h : SetsBit w w' 0 x) :
    w' = ofBit (BitVec.ofBool x) := by
  have hw : ∀ k : Fin 8, k ≠ 0 → w.getLsbD k = false := by
    rw [hI]; generalize trunc 1 w = u; revert u; decide
  have h0 : ∀ k : Fin 8, w'.getLsbD k = if k = 0 then x else false := fun k => by
    rw [h k]; split
    · rfl
    · exact hw k ‹_›
  have h1 : ∀ (x : Bool) (k : Fin 8), (ofBit (BitVec.ofBool x)).getLsbD k = if k = 0 then x else false := by decide
  apply BitVec.eq_of_getLsbD_eq
  intro i hi
  rw [h0 ⟨i, hi⟩, h1 x ⟨i, hi⟩]

theorem bit_cases (v : BitVec 1) : v = 0 ∨ v = 1 := by revert v; decide

theorem setsBit_bit (s : BitVec 1) (b : Fin 1) (x : Bool) : SetsBit s (BitVec.ofBool x) b x := by
  revert s b x; unfold SetsBit; decide

/-- On bytes that are 0 or 1 the operations other than the complements are those of one bit. -/
theorem bool_enum_spec (op : EnumOp 1) (hop : ¬ op.Complements) (w w' : BitVec 8) (r : Ret 8) (hI : w = ofBit (trunc 1 w))
    (h : enumSpec w op.ofBit w' r) :
    w' = ofBit (trunc 1 w') ∧ ∃ r₁, r = retOfBit r₁ ∧ enumSpec (trunc 1 w) op (trunc 1 w') r₁ := by
  have tr : ∀ u : BitVec 1, trunc 1 (ofBit u) = u := by decide
  have ha : ∀ u v : BitVec 1, ofBit u &&& ofBit v = ofBit (u &&& v) := by decide
  have ho : ∀ u v : BitVec 1, ofBit u ||| ofBit v = ofBit (u ||| v) := by decide
  have hx : ∀ u v : BitVec 1, ofBit u ^^^ ofBit v = ofBit (u ^^^ v) := by decide
  have hn : ∀ u : BitVec 1, decide (ofBit u ≠ 0) = decide (u ≠ 0) := by decide
  have hinj : ∀ u v : BitVec 1, ofBit u = ofBit v ↔ u = v := by decide
  have hb : ∀ u : BitVec 1, (ofBit u).getLsbD 0 = u.getLsbD 0 := by decide
  have hb' : ∀ (u : BitVec 1) (b : Fin 1), u.getLsbD b = u.getLsbD 0 := by decide
  obtain ⟨u, rfl⟩ : ∃ u, w = ofBit u := ⟨_, hI⟩
  cases op with
  | fetchComplement | bitwiseComplement | opaqueComplement | complementAndTest => exact absurd trivial hop
  | bitTestAndSet b | bitTestAndReset b | bitTestAndComplement b =>
    obtain ⟨h1, rfl⟩ := h
    have := setsBit_ofBit hI h1
    subst this
    simp only [tr]
    refine ⟨trivial, .flag _, rfl, ?_⟩
    first
      | exact ⟨setsBit_bit _ _ _, by rw [hb']; exact congrArg _ (hb u)⟩
      | exact ⟨by rw [hb', ← hb u]; exact setsBit_bit _ _ _, by rw [hb']; exact congrArg _ (hb u)⟩
  | casWeak e d =>
    simp only [EnumOp.ofBit, enumSpec, hinj] at h
    simp only [tr]
    rcases h with ⟨rfl, rfl, rfl⟩ | ⟨rfl, rfl⟩
    · exact ⟨by rw [tr], .cas true u, rfl, .inl ⟨rfl, tr _, rfl⟩⟩
    · exact ⟨by rw [tr], .cas false u, rfl, .inr ⟨tr _, rfl⟩⟩
  | casStrong e d =>
    simp only [EnumOp.ofBit, enumSpec, ne_eq, hinj] at h
    simp only [tr]
    rcases h with ⟨rfl, rfl, rfl⟩ | ⟨hne, rfl, rfl⟩
    · exact ⟨by rw [tr], .cas true u, rfl, .inl ⟨rfl, tr _, rfl⟩⟩
    · exact ⟨by rw [tr], .cas false u, rfl, .inr ⟨hne, tr _, rfl⟩⟩
  | load | store _ | exchange _ | fetchAnd _ | fetchOr _ | fetchXor _ | bitwiseAnd _ | bitwiseOr _ | bitwiseXor _ | opaqueAnd _
  | opaqueOr _ | opaqueXor _ | andAndTest _ | orAndTest _ | xorAndTest _ | andAssign _ | orAssign _ | xorAssign _ =>
    obtain ⟨rfl, rfl⟩ := h
    simp only [ha, ho, hx, tr, hn]
    refine ⟨trivial, ?_⟩
    first
      | exact ⟨.unit, rfl, rfl, rfl⟩
      | exact ⟨.val _, rfl, rfl, rfl⟩
      | exact ⟨.flag _, rfl, rfl, rfl⟩

theorem bitMask_self (sgn : Bool) (W b : Nat) : bitMask W sgn W b = 1#W <<< b := by rw [bitMask, ext_self]
theorem onesMask_self (sgn : Bool) (W : Nat) : onesMask W sgn W = ~~~(0#W) := by rw [onesMask, ext_self]

/-- On little-endian machines an enumeration in wider storage behaves as an integer of the same signedness. -/
theorem enumEmulated_eq (cb esgn : Bool) (N W : Nat) (op : EnumOp N) :
    enumEmulated cb false esgn N W op = emulated cb esgn N W (lowerEnum op) := by
  cases cb <;> cases op <;>
    simp only [enumEmulated, enumApi, lowerEnum, emulated, emulatedWith, Integral.api, castDown, trunc, if_true,
      Bool.false_eq_true, if_false, coreExtending, corePlain, extraGeneric, extraCasBased, bitMask_self, onesMask_self,
      ext_self, BitVec.setWidth_eq]

/-! ### Operators -/

theorem operators_correct {N W : Nat} {table : Op N → Code (BitVec W) (Ret N)} {I : BitVec W → Prop}
    {abs : BitVec W → BitVec N} (hc : Correct table I abs Integral.spec)
    (hst : ∀ v w w' r, ((table (.store v)).map fun _ => Ret.val v).Run w w' r →
      (table (.store v)).Run w w' .unit ∧ r = .val v) :
    Correct (operators table) I abs operatorSpec := by
  intro op w w' r hI hr
  cases op with
  | assign v =>
    obtain ⟨h1, rfl⟩ := hst v w w' r hr
    have := hc _ _ _ _ hI h1
    exact ⟨this.1, this.2.1, rfl⟩
  | _ =>
    have := hc _ _ _ _ hI hr
    refine ⟨this.1, ?_⟩
    have := this.2
    simp only [Integral.spec] at this
    obtain ⟨h1, h2⟩ := this
    simp only [operatorSpec, h1, h2, and_self]

/-- The operators whose emulation in wider storage is right. -/
def OperatorSafe (cb : Bool) {N : Nat} : Operator N → Prop
  | .preInc | .preDec => cb = false
  | .addAssign v | .subAssign v => cb = false ∨ v = 0
  | _ => True

theorem operators_emulated_correct (cb sgn : Bool) {N W : Nat} (hN : 0 < N) (h : N ≤ W) :
    Correct (fun op : {op : Operator N // OperatorSafe cb op} => operators (emulated cb sgn N W) op.1) (Canon sgn N)
      (trunc N) (fun s op s' r => operatorSpec s op.1 s' r) := by
  rintro ⟨op, hop⟩ w w' r hI hr
  have key : ∀ o : Op N, EmulSafe cb sgn o → ∀ w w' r, Canon sgn N w → (emulated cb sgn N W o).Run w w' r →
      Canon sgn N w' ∧ Integral.spec (trunc N w) o (trunc N w') r :=
    fun o ho w w' r hI hr => emulated_implements cb sgn hN h o w w' r ho hI hr
  cases op with
  | assign v =>
    have e : emulated cb sgn N W (.store v) = .store (ext sgn W v) .unit := rfl
    have hr' : ((emulated cb sgn N W (.store v)).map fun _ => Ret.val v).Run w w' r := hr
    rw [e, Code.map, run_store] at hr'
    obtain ⟨rfl, rfl⟩ := hr'
    have := key (.store v) trivial w _ .unit hI .store
    exact ⟨this.1, this.2.1, rfl⟩
  | preInc => obtain ⟨a, b, c⟩ := key (.add 1) (.inl hop) _ _ _ hI hr; exact ⟨a, b, by rw [← b]; exact c⟩
  | preDec => obtain ⟨a, b, c⟩ := key (.sub 1) (.inl hop) _ _ _ hI hr; exact ⟨a, b, by rw [← b]; exact c⟩
  | addAssign v => obtain ⟨a, b, c⟩ := key (.add v) hop _ _ _ hI hr; exact ⟨a, b, by rw [← b]; exact c⟩
  | subAssign v => obtain ⟨a, b, c⟩ := key (.sub v) hop _ _ _ hI hr; exact ⟨a, b, by rw [← b]; exact c⟩
  | andAssign v => obtain ⟨a, b, c⟩ := key (.bitwiseAnd v) trivial _ _ _ hI hr; exact ⟨a, b, by rw [← b]; exact c⟩
  | orAssign v => obtain ⟨a, b, c⟩ := key (.bitwiseOr v) trivial _ _ _ hI hr; exact ⟨a, b, by rw [← b]; exact c⟩
  | xorAssign v => obtain ⟨a, b, c⟩ := key (.bitwiseXor v) trivial _ _ _ hI hr; exact ⟨a, b, by rw [← b]; exact c⟩
  | convert => exact key .load trivial _ _ _ hI hr
  | postInc => exact key (.fetchAdd 1) trivial _ _ _ hI hr
  | postDec => exact key (.fetchSub 1) trivial _ _ _ hI hr

end Verif.Api
