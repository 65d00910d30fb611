import Verif.Concurrent.Props
import Verif.Pair.Model

/-! Helper lemmas for `Verif.Pair.Props`. -/

namespace Verif.Pair

open Verif.Integral Verif.Concurrent

variable (be : Bool) {h : Nat}

theorem append_toNat (u l : BitVec h) : (u ++ l).toNat = u.toNat * 2 ^ h + l.toNat := by
  rw [BitVec.toNat_append, Nat.shiftLeft_eq, Nat.mul_comm, Nat.two_pow_add_eq_or_of_lt l.isLt]

theorem halves_toNat (w : BitVec (h + h)) :
    w.toNat = ((w >>> h).setWidth h : BitVec h).toNat * 2 ^ h + (w.setWidth h : BitVec h).toNat := by
  have hw := w.isLt
  rw [Nat.pow_add] at hw
  rw [BitVec.toNat_setWidth, BitVec.toNat_setWidth, BitVec.toNat_ushiftRight, Nat.shiftRight_eq_div_pow,
    Nat.mod_eq_of_lt (Nat.div_lt_of_lt_mul hw), Nat.mul_comm, Nat.div_add_mod]

theorem append_halves (w : BitVec (h + h)) : ((w >>> h).setWidth h : BitVec h) ++ (w.setWidth h : BitVec h) = w :=
  BitVec.eq_of_toNat_eq (by rw [append_toNat, ← halves_toNat])

theorem append_inj {u l u' l' : BitVec h} (e : u ++ l = u' ++ l') : u = u' ∧ l = l' := by
  have := congrArg BitVec.toNat e
  rw [append_toNat, append_toNat] at this
  have hl := l.isLt
  have hl' := l'.isLt
  have hp : 0 < 2 ^ h := Nat.two_pow_pos h
  have e1 := congrArg (· / 2 ^ h) this
  simp only [Nat.mul_comm _ (2 ^ h), Nat.mul_add_div hp, Nat.div_eq_of_lt hl, Nat.div_eq_of_lt hl', Nat.add_zero] at e1
  have e2 := congrArg (· % 2 ^ h) this
  simp only [Nat.mul_comm _ (2 ^ h), Nat.mul_add_mod, Nat.mod_eq_of_lt hl, Nat.mod_eq_of_lt hl'] at e2
  exact ⟨BitVec.eq_of_toNat_eq e1, BitVec.eq_of_toNat_eq e2⟩

theorem ofRegs_toRegs (w : BitVec (h + h)) : ofRegs be (toRegs be w) = w := by
  cases be <;> exact append_halves w

theorem ofRegs_inj {r s : Regs h} (e : ofRegs be r = ofRegs be s) : r = s := by
  cases r; cases s
  cases be <;> obtain ⟨rfl, rfl⟩ := append_inj e <;> rfl

theorem toRegs_ofRegs (r : Regs h) : toRegs be (ofRegs be r) = r :=
  ofRegs_inj be (ofRegs_toRegs be _)

theorem word_eq (w : BitVec (h + h)) : w = (toRegs be w).hi be ++ (toRegs be w).lo be := by
  cases be <;> exact (append_halves w).symm

theorem ofRegs_mkRegs (u l : BitVec h) : ofRegs be (mkRegs be u l) = u ++ l := by cases be <;> rfl

/-- Full-width addition from its halves. -/
theorem append_add (u l u' l' : BitVec h) :
    (u ++ l) + (u' ++ l') = adc u u' (adds l l').2 ++ (adds l l').1 := by
  apply BitVec.eq_of_toNat_eq
  have hl := l.isLt
  have hl' := l'.isLt
  have hp : 0 < 2 ^ h := Nat.two_pow_pos h
  have key : ∀ a b c d k : Nat, c + d < 2 ^ h → b = k * 2 ^ h + (c + d) → a % 2 ^ h = k % 2 ^ h →
      b % (2 ^ h * 2 ^ h) = (a % 2 ^ h) * 2 ^ h + (c + d) := by
    rintro a b c d k hcd rfl hk
    rw [hk, Nat.mul_comm k, Nat.mod_mul, Nat.mul_add_mod, Nat.mul_add_div hp, Nat.mod_eq_of_lt hcd,
      Nat.div_eq_of_lt hcd, Nat.add_zero, Nat.add_comm, Nat.mul_comm]
  rw [BitVec.toNat_add, append_toNat, append_toNat, append_toNat, Nat.pow_add]
  by_cases hc : 2 ^ h ≤ l.toNat + l'.toNat
  · have hone : (1 : BitVec h).toNat = 1 % 2 ^ h := by simp
    have hf : (adds l l').2 = true := decide_eq_true hc
    simp only [hf, adc, if_true]
    have e1 : (adds l l').1.toNat = 0 + (l.toNat + l'.toNat - 2 ^ h) := by
      rw [adds, BitVec.toNat_add, Nat.mod_eq_sub_mod hc, Nat.mod_eq_of_lt (by omega), Nat.zero_add]
    rw [e1, BitVec.toNat_add, BitVec.toNat_add, hone]
    refine key _ _ _ _ (u.toNat + u'.toNat + 1) (by omega) ?_ ?_
    · rw [Nat.add_mul, Nat.add_mul]; omega
    · simp only [Nat.add_mod_mod, Nat.mod_add_mod]
  · have hf : (adds l l').2 = false := decide_eq_false hc
    simp only [hf, adc, Bool.false_eq_true, if_false]
    have e1 : (adds l l').1.toNat = l.toNat + l'.toNat := by
      rw [adds, BitVec.toNat_add, Nat.mod_eq_of_lt (by omega)]
    rw [e1, BitVec.toNat_add, BitVec.toNat_add]
    refine key _ _ _ _ (u.toNat + u'.toNat) (by omega) ?_ ?_
    · rw [Nat.add_mul]; omega
    · simp

/-- Full-width subtraction from its halves. -/
theorem append_sub (u l u' l' : BitVec h) :
    (u ++ l) - (u' ++ l') = sbc u u' (subs l l').2 ++ (subs l l').1 := by
  have key : (sbc u u' (subs l l').2 ++ (subs l l').1) + (u' ++ l') = u ++ l := by
    rw [append_add]
    have el : (adds (subs l l').1 l').1 = l := by simp [adds, subs, BitVec.sub_add_cancel]
    have eu : adc (sbc u u' (subs l l').2) u' (adds (subs l l').1 l').2 = u := by
      have hl := l.isLt
      have hl' := l'.isLt
      have ec : (adds (subs l l').1 l').2 = !(subs l l').2 := by
        by_cases hb : l'.toNat ≤ l.toNat
        · have : (subs l l').1.toNat = l.toNat - l'.toNat := by
            rw [subs, BitVec.toNat_sub, Nat.mod_eq_sub_mod (by omega), Nat.mod_eq_of_lt (by omega)]; omega
          have hf : (subs l l').2 = true := decide_eq_true hb
          rw [hf]
          exact decide_eq_false (by rw [this]; omega)
        · have : (subs l l').1.toNat = 2 ^ h - l'.toNat + l.toNat := by
            rw [subs, BitVec.toNat_sub, Nat.mod_eq_of_lt (by omega)]
          have hf : (subs l l').2 = false := decide_eq_false hb
          rw [hf]
          exact decide_eq_true (by rw [this]; omega)
      rw [ec]
      cases (subs l l').2
      · simp only [sbc, adc, Bool.not_false, Bool.false_eq_true, if_false, if_true]
        rw [BitVec.add_assoc, BitVec.add_comm u', ← BitVec.add_assoc, BitVec.sub_add_cancel, BitVec.sub_add_cancel]
      · simp only [sbc, adc, Bool.not_true, Bool.false_eq_true, if_false, if_true]
        exact (BitVec.add_zero _).trans ((congrArg (· + u') (BitVec.sub_zero _)).trans (BitVec.sub_add_cancel _ _))
    rw [el, eu]
  rw [← key, BitVec.add_sub_cancel]

theorem onWord_add (w v : BitVec (h + h)) : onWord be (fun r => addRegs be r (toRegs be v)) w = w + v := by
  conv => rhs; rw [word_eq be w, word_eq be v, append_add]
  exact ofRegs_mkRegs be _ _

theorem onWord_sub (w v : BitVec (h + h)) : onWord be (fun r => subRegs be r (toRegs be v)) w = w - v := by
  conv => rhs; rw [word_eq be w, word_eq be v, append_sub]
  exact ofRegs_mkRegs be _ _

theorem onWord_not (w : BitVec (h + h)) : onWord be notRegs w = ~~~ w := by
  conv => rhs; rw [← append_halves w, BitVec.not_append]
  cases be <;> rfl

theorem onWord_and (w v : BitVec (h + h)) : onWord be (fun r => andRegs r (toRegs be v)) w = w &&& v := by
  conv => rhs; rw [← append_halves w, ← append_halves v, BitVec.and_append]
  cases be <;> rfl

theorem onWord_or (w v : BitVec (h + h)) : onWord be (fun r => orRegs r (toRegs be v)) w = w ||| v := by
  conv => rhs; rw [← append_halves w, ← append_halves v, BitVec.or_append]
  cases be <;> rfl

theorem onWord_xor (w v : BitVec (h + h)) : onWord be (fun r => xorRegs r (toRegs be v)) w = w ^^^ v := by
  conv => rhs; rw [← append_halves w, ← append_halves v, BitVec.xor_append]
  cases be <;> rfl

theorem onWord_neg (hh : 0 < h) (w : BitVec (h + h)) : onWord be (negRegs be) w = -w := by
  have one : (1 : BitVec (h + h)) = (0 : BitVec h) ++ (1 : BitVec h) := by
    apply BitVec.eq_of_toNat_eq
    rw [append_toNat]
    simp [Nat.mod_eq_of_lt (Nat.one_lt_two_pow (Nat.ne_of_gt hh)),
      Nat.mod_eq_of_lt (Nat.one_lt_two_pow (by omega : h + h ≠ 0))]
  have e : (~~~ w) = (notRegs (toRegs be w)).hi be ++ (notRegs (toRegs be w)).lo be := by
    rw [← append_halves w, BitVec.not_append]
    conv => rhs; rw [append_halves w]
    cases be <;> rfl
  have : -w = ~~~ w + 1 := BitVec.neg_eq_not_add w
  rw [this, e, one, append_add]
  exact ofRegs_mkRegs be _ _

theorem table_run (sgn : Bool) (hh : 0 < h) (op : Op (h + h)) (w w' : BitVec (h + h)) (r : Ret (h + h))
    (hr : (table be sgn h op).Run w w' r) : (native (.llsc (h + h) 0) sgn (h + h) op).Run w w' r := by
  have e1 : ∀ v : BitVec (h + h), onWord be (fun r => addRegs be r (toRegs be v)) = fun w => w + v := fun v => funext (onWord_add be · v)
  have e2 : ∀ v : BitVec (h + h), onWord be (fun r => subRegs be r (toRegs be v)) = fun w => w - v := fun v => funext (onWord_sub be · v)
  have e3 : ∀ v : BitVec (h + h), onWord be (fun r => andRegs r (toRegs be v)) = fun w => w &&& v := fun v => funext (onWord_and be · v)
  have e4 : ∀ v : BitVec (h + h), onWord be (fun r => orRegs r (toRegs be v)) = fun w => w ||| v := fun v => funext (onWord_or be · v)
  have e5 : ∀ v : BitVec (h + h), onWord be (fun r => xorRegs r (toRegs be v)) = fun w => w ^^^ v := fun v => funext (onWord_xor be · v)
  have e6 : onWord be (negRegs be) = fun w : BitVec (h + h) => -w := funext (onWord_neg be hh)
  have e7 : onWord be notRegs = fun w : BitVec (h + h) => ~~~ w := funext (onWord_not be)
  have e8 : ∀ v : BitVec (h + h), ((0 : BitVec (h + h)) <<< (h + h) ||| v) = v := fun v => by simp
  cases op <;>
    simp only [table, native, api, corePair, extraPair, extraGeneric, corePlain, coreNarrow, extraLlsc, Code.map, e1, e2, e3, e4,
      e5, e6, e7, e8, BitVec.setWidth_eq, BitVec.zero_sub] at hr ⊢ <;>
    first
    | exact hr
    | (cases hr; exact .rmw)

theorem storeViaRmw_run {W R : Type} (c : Code W R) (w w' : W) (r : R) (hr : (storeViaRmw c).Run w w' r) : c.Run w w' r := by
  cases c <;> first | exact hr | (cases hr; exact .store)

theorem eqRegs_iff (w v : BitVec (h + h)) : eqRegs (toRegs be w) (toRegs be v) = true ↔ w = v := by
  rw [eqRegs, Bool.and_eq_true, decide_eq_true_eq, decide_eq_true_eq]
  constructor
  · rintro ⟨e0, e1⟩
    rw [← ofRegs_toRegs be w, ← ofRegs_toRegs be v]
    congr 1
    generalize toRegs be w = r at *
    generalize toRegs be v = s at *
    cases r; cases s; cases e0; cases e1; rfl
  · rintro rfl; exact ⟨rfl, rfl⟩

/-! ### The torn machine -/

section
variable {W Op Ret H' : Type}

/-- What is needed of `tear`. -/
structure IsTear (tear : W → W → W) (p q : W → H') : Prop where
  fst : ∀ x y, p (tear x y) = p x
  snd : ∀ x y, q (tear x y) = q y
  ext : ∀ x y, p x = p y → q x = q y → x = y

/-- The part of the word that has been read. -/
def part (p q : W → H') (first : Bool) (x : W) : H' := if first then p x else q x

def PairP (m : LlMem W) : PairLoc W Ret → Prop
  | .half _ x v => v ≤ m.ver ∧ (v = m.ver → m.word = x)
  | .linked x v => v ≤ m.ver ∧ (v = m.ver → m.word = x)
  | _ => True

structure PairInv {Id : Type} {tear : W → W → W} {code : Op → Code W Ret} (sys : Sys Id (pairMachine tear code)) : Prop where
  link : ∀ i op l, sys.calls i = .run op l → PairP sys.sh l

theorem pair_inv {tear : W → W → W} {p q : W → H'} (ht : IsTear tear p q) {code : Op → Code W Ret} {m₀ : LlMem W}
    {Id : Type} [DecidableEq Id] {sys : Sys Id (pairMachine tear code)} {H} (h : Exec (pairMachine tear code) m₀ sys H) :
    PairInv sys := by
  have same : ∀ x, tear x x = x := fun x => ht.ext _ _ (ht.fst x x) (ht.snd x x)
  have := Exec.invariant (M := pairMachine tear code) (fun _ => True) (fun m _ l => PairP m l) (fun _ _ _ _ => True)
    trivial (fun _ _ _ => trivial) (fun _ _ _ => ⟨trivial, trivial⟩) ?_ ?_ h
  · exact ⟨this.2.1⟩
  · intro op m l m' l' _ hP hst
    refine ⟨trivial, ?_⟩
    cases hst with
    | link first => exact ⟨Nat.le_refl _, fun _ => rfl⟩
    | rest =>
      refine ⟨hP.1, fun hv => ?_⟩
      have := hP.2 hv
      subst this
      split <;> rw [same]
    | _ => trivial
  · intro op m l m' l' o k _ hP hPo _ _ hst
    refine ⟨?_, trivial, trivial⟩
    have bump : ∀ w', PairP ⟨w', m.ver + 1⟩ k := by
      intro w'
      cases k with
      | half f x v =>
        refine ⟨Nat.le_succ_of_le hPo.1, fun h => ?_⟩
        have := hPo.1
        simp at h; omega
      | linked x v =>
        refine ⟨Nat.le_succ_of_le hPo.1, fun h => ?_⟩
        have := hPo.1
        simp at h; omega
      | _ => trivial
    cases hst <;> first | exact hPo | exact bump _

theorem pair_linearizable {tear : W → W → W} {p q : W → H'} (ht : IsTear tear p q) {code : Op → Code W Ret}
    {spec : SeqSpec W Op Ret} (hc : Correct code (fun _ => True) (fun w => w) spec)
    (hw : ∀ op e d k, code op = .casWeak e d k → ∀ s x, spec s op s (k false x))
    (hst' : ∀ op e d k, code op = .casStrong e d k → ∀ s x, s ≠ e → spec s op s (k false x)) {m₀ : LlMem W} :
    (pairMachine tear code).IsLinearizable spec m₀ m₀.word := by
  intro Id _ sys H h
  refine Sim.linearizable (M := pairMachine tear code) (spec := spec) (sh₀ := m₀) (Inv := PairInv)
    { abs := fun m => m.word
      may := fun op l t => match l with
        | .fin r => t = some r
        | .begin => t = none
        | .half first x _ => t = none ∨
            ∃ e d k y, code op = .casStrong e d k ∧ part p q first x ≠ part p q first e ∧ t = some (k false y)
        | .linked x _ => (t = none ∧ ∀ e d k, code op = .casStrong e d k → x = e) ∨
            ∃ e d k, code op = .casStrong e d k ∧ x ≠ e ∧ t = some (k false x)
      abs_init := rfl
      may_ne := fun op l => by
        cases l with
        | begin => exact ⟨_, rfl⟩
        | half => exact ⟨none, .inl rfl⟩
        | fin => exact ⟨_, rfl⟩
        | linked x v =>
          by_cases hx : ∃ e d k, code op = .casStrong e d k ∧ x ≠ e
          · obtain ⟨e, d, k, h1, h2⟩ := hx
            exact ⟨_, .inr ⟨e, d, k, h1, h2, rfl⟩⟩
          · refine ⟨none, .inl ⟨rfl, fun e d k h1 => ?_⟩⟩
            by_cases hxe : x = e
            · exact hxe
            · exact absurd ⟨e, d, k, h1, hxe⟩ hx
      start_none := fun op t h => h
      step_ok := ?_
      ret_ok := ?_ } (fun sys H h => pair_inv ht h) h
  · intro sys i op l sh' l' t' hI hi hst ht'
    have key : ∀ {w' r}, (code op).Run sys.sh.word w' r → spec sys.sh.word op w' r :=
      fun hr => (hc _ _ _ _ trivial hr).2
    cases hst with
    | link first =>
      rcases ht' with ht' | ⟨e, d, k, y, h1, h2, ht'⟩
      · exact ⟨none, rfl, .inl ⟨ht'.symm, rfl⟩⟩
      · refine ⟨none, rfl, .inr ⟨rfl, _, ht', hst' _ _ _ _ h1 _ _ ?_⟩⟩
        intro he; rw [he] at h2; exact h2 rfl
    | @rest _ first x v =>
      rcases ht' with ⟨ht', h1⟩ | ⟨e, d, k, h1, h2, ht'⟩
      · exact ⟨none, .inl rfl, .inl ⟨ht'.symm, rfl⟩⟩
      · by_cases hp : part p q first x = part p q first e
        · refine ⟨none, .inl rfl, .inr ⟨rfl, _, ht', hst' _ _ _ _ h1 _ _ ?_⟩⟩
          intro he
          apply h2
          cases first
          · exact ht.ext _ _ ((ht.fst _ _).trans (by rw [he])) ((ht.snd _ _).trans hp)
          · exact ht.ext _ _ ((ht.fst _ _).trans hp) ((ht.snd _ _).trans (by rw [he]))
        · exact ⟨t', .inr ⟨e, d, k, _, h1, hp, ht'⟩, .inl ⟨rfl, rfl⟩⟩
    | rmwSc h =>
      have := (hI.link i op _ hi).2 rfl
      subst this
      exact ⟨none, .inl ⟨rfl, fun _ _ _ h' => by simp [h] at h'⟩, .inr ⟨rfl, _, ht', key (by rw [h]; exact .rmw)⟩⟩
    | rmwScFail h => exact ⟨none, .inl ⟨rfl, fun _ _ _ h' => by simp [h] at h'⟩, .inl ⟨ht'.symm, rfl⟩⟩
    | weakMiss h _ =>
      exact ⟨none, .inl ⟨rfl, fun _ _ _ h' => by simp [h] at h'⟩, .inr ⟨rfl, _, ht', hw _ _ _ _ h _ _⟩⟩
    | weakSc h =>
      have := (hI.link i op _ hi).2 rfl
      subst this
      exact ⟨none, .inl ⟨rfl, fun _ _ _ h' => by simp [h] at h'⟩, .inr ⟨rfl, _, ht', key (by rw [h]; exact .weakOk)⟩⟩
    | weakScFail h =>
      exact ⟨none, .inl ⟨rfl, fun _ _ _ h' => by simp [h] at h'⟩, .inr ⟨rfl, _, ht', hw _ _ _ _ h _ _⟩⟩
    | strongMiss h hne => exact ⟨t', .inr ⟨_, _, _, h, hne, ht'⟩, .inl ⟨rfl, rfl⟩⟩
    | strongSc h =>
      have := (hI.link i op _ hi).2 rfl
      subst this
      exact ⟨none, .inl ⟨rfl, fun _ _ _ h' => by rw [h] at h'; cases h'; rfl⟩,
        .inr ⟨rfl, _, ht', key (by rw [h]; exact .strongOk)⟩⟩
    | strongScFail h =>
      exact ⟨none, .inl ⟨rfl, fun _ _ _ h' => by rw [h] at h'; cases h'; rfl⟩, .inl ⟨ht'.symm, rfl⟩⟩
  · intro sys i op l r _ _ hres
    cases l <;> cases hres
    rfl

end

theorem tearWord_isTear : IsTear (tearWord be (h := h)) (fun w => (toRegs be w).r0) (fun w => (toRegs be w).r1) where
  fst x y := by simp only [tearWord, toRegs_ofRegs]
  snd x y := by simp only [tearWord, toRegs_ofRegs]
  ext x y e0 e1 := by
    have := (eqRegs_iff be x y).1
    simp only [eqRegs, Bool.and_eq_true, decide_eq_true_eq] at this
    exact this ⟨e0, e1⟩

theorem no_legal_torn {N : Nat} {Id : Type} {v e d x : BitVec N} {s s' : BitVec N} {L : List (Entry Id (Op N) (Ret N))}
    (hx : x ≠ v) (hL : Legal Integral.spec s L s') (hs : x ≠ s)
    (hops : ∀ a ∈ L, (a.op = .store v) ∨ (a.op = .casStrong e d ∧ a.ret = .cas false x)) :
    ∀ a ∈ L, a.op = .store v := by
  induction hL with
  | nil => intro a ha; cases ha
  | @cons s s₁ s₂ a L hsp hL ih =>
    have hrest : ∀ b ∈ L, (b.op = .store v) ∨ (b.op = .casStrong e d ∧ b.ret = .cas false x) :=
      fun b hb => hops b (List.mem_cons_of_mem _ hb)
    rcases hops a (List.mem_cons_self ..) with h1 | ⟨h1, h2⟩
    · rw [h1] at hsp
      have := ih (by rw [hsp.1]; exact hx) hrest
      intro b hb
      rcases List.mem_cons.1 hb with rfl | hb
      · exact h1
      · exact this b hb
    · rw [h1, h2] at hsp
      rcases hsp with ⟨_, _, h3⟩ | ⟨_, _, h3⟩
      · cases h3
      · injection h3 with _ h3; exact absurd h3 hs

theorem torn_exec {W Op Ret : Type} {tear : W → W → W} {code : Op → Code W Ret} {c s : Op} {e d : W}
    {k : Bool → W → Ret} {f : W → W} {ks : W → W → Ret} (hc : code c = .casStrong e d k) (hs : code s = .rmw f ks)
    (w : W) (hw : tear w w = w) (hne : tear w (f w) ≠ e) :
    ∃ sys : Sys Nat (pairMachine tear code), Exec (pairMachine tear code) ⟨w, 0⟩ sys
      [.inv 0 c, .inv 1 s, .res 1 (ks w (f w)), .res 0 (k false (tear w (f w)))] := by
  have e0 := Exec.init (Id := Nat) (M := pairMachine tear code) (sh₀ := ⟨w, 0⟩)
  have e1 := Exec.invoke 0 c e0 rfl
  have e2 := Exec.step 0 c _ _ _ e1 rfl (PairStep.link (tear := tear) (code := code) true)
  have e3 := Exec.invoke 1 s e2 rfl
  have e4 := Exec.step 1 s _ _ _ e3 rfl (PairStep.link (tear := tear) (code := code) true)
  have e5 := Exec.step 1 s _ _ _ e4 rfl (PairStep.rest (tear := tear) (code := code))
  have e6 := Exec.step 1 s _ _ _ e5 rfl (PairStep.rmwSc (tear := tear) (m := ⟨w, 0⟩) hs)
  have e7 := Exec.ret 1 s _ _ e6 rfl rfl
  have e8 := Exec.step 0 c _ _ _ e7 rfl (PairStep.rest (tear := tear) (code := code))
  have e9 := Exec.step 0 c _ _ _ e8 rfl (PairStep.strongMiss (tear := tear) hc (by simpa [hw] using hne))
  have e10 := Exec.ret 0 c _ _ e9 rfl rfl
  simp [hw] at e10
  exact ⟨_, e10⟩

end Verif.Pair
