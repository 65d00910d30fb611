import Verif.Bytes.Lemmas

/-
Helper lemmas about `refMachine`: constructing atomic_refs while others are in use.
-/

namespace Verif.Bytes

open Verif.Concurrent (Correct)

theorem attachMask_eq {c : Cfg} {T : Ty} (hT : T.Wf) (hk : Known c T) : attachMask c T = T.mask := by
  unfold attachMask
  cases hc : c.clear
  · simp only [Bool.false_eq_true, if_false]
    rcases hk with h | h | h
    · rw [hc] at h; cases h
    · rw [if_neg (by rw [h.1]; simp)]
      funext i; exact (h.2 i).symm
    · by_cases e : T.vs = T.size
      · rw [if_neg (by rw [e]; simp)]
        funext i; exact (hT.fp_full h.1 e i).symm
      · rw [if_pos ⟨h.1, e⟩]
        funext i; exact (h.2 i).symm
  · rfl

/-- `refInit` clears what `attachMask` does not keep. -/
theorem refInit_eq (c : Cfg) (T : Ty) (obj : Bytes T.size) (i : Fin T.size) :
    refInit c T obj i = obj i &&& attachMask c T i := by
  unfold refInit attachMask
  cases c.clear
  · simp only [Bool.false_eq_true, if_false]
    by_cases h : T.fp ∧ T.vs ≠ T.size
    · have hv := T.vs_le
      rw [if_pos h, if_pos h, clear_tail_padding_bits, if_pos (by omega)]
      by_cases h' : i.1 < T.vs
      · simp only [if_pos h', and_ff]; rw [if_neg (by omega)]
      · simp only [if_neg h']; rw [if_pos (by omega)]; simp
    · rw [if_neg h, if_neg h, and_ff]
  · rfl

theorem extMask_self {n : Nat} (mask : Bytes n) : extMask mask n = mask := by
  funext i; simp [extMask]

theorem clean_clear {n : Nat} {mask w : Bytes n} (h : Clean mask w) : clear_padding mask w = w := by
  funext i; have := h i; rwa [extMask_self] at this

section
variable {Mode : Type} {n : Nat} {keep : Bytes n} {code : Op Mode n → Code (Bytes n) (Ret n)}

/-- What a construction in progress has established. -/
def RefP (keep : Bytes n) (m : RefSh n) (_ : RefOp Mode n) : RefLoc n → Prop
  | .clearing k => ∀ i : Fin n, i.1 < k → m.obj i &&& keep i = m.obj i
  | .read _ _ => False
  | .begin | .fin _ => True

theorem RefP_mono {m m' : RefSh n} {o : RefOp Mode n} {l : RefLoc n}
    (h : ∀ i, m.obj i &&& keep i = m.obj i → m'.obj i &&& keep i = m'.obj i)
    (hP : RefP keep m o l) : RefP keep m' o l := by
  cases l with
  | clearing k => exact fun i hi => h i (hP i hi)
  | read k b => exact hP
  | begin | fin => trivial

/-- Clearing a byte of padding keeps clean bytes clean and does not touch the value. -/
theorem setByte_zero {w : Bytes n} {k : Nat} (i : Fin n) (h : w i &&& keep i = w i) :
    setByte w k 0 i &&& keep i = setByte w k 0 i := by
  unfold setByte
  split
  · simp
  · exact h

variable {F : Mode → Fp n}

theorem ref_inv (hb : Bytewise keep)
    (hc : Correct code (Clean keep) (fun w => w) (spec F keep)) (obj₀ : Bytes n)
    {Id : Type} [DecidableEq Id] {sys : Sys Id (refMachine keep code)} {H}
    (h : Exec (refMachine keep code) ⟨obj₀, false⟩ sys H) :
    (sys.sh.attached = true → Clean keep sys.sh.obj) ∧
      ∀ i op l, sys.calls i = .run op l → RefP keep sys.sh op l := by
  have := Exec.invariant (M := refMachine keep code)
    (fun m => m.attached = true → Clean keep m.obj) (RefP keep) (fun _ _ _ _ => True)
    (by intro h; cases h) (by intros; trivial) (by intros; exact ⟨trivial, trivial⟩)
    (by
      intro op m l m' l' hG hP hst
      cases hst with
      | enter => exact ⟨hG, fun i hi => by omega⟩
      | @skip m k h hk =>
        refine ⟨hG, fun i hi => ?_⟩
        by_cases e : i.1 = k
        · have : i = ⟨k, h⟩ := Fin.ext e
          rw [this, hk, and_ff]
        · exact hP i (by omega)
      | @zero m k h hk =>
        refine ⟨fun ha i => ?_, fun i hi => ?_⟩
        · rw [extMask_self]
          have := hG ha i
          rw [extMask_self] at this
          exact setByte_zero i this
        · by_cases e : i.1 = k
          · simp [setByte, e]
          · exact setByte_zero i (hP i (by omega))
      | @read m k h h1 h2 => rcases hb ⟨k, h⟩ with e | e <;> contradiction
      | write => exact hP.elim
      | @leave m k hk =>
        refine ⟨fun _ i => ?_, trivial⟩
        rw [extMask_self]
        exact hP i (by have := i.2; omega)
      | call ha hr => exact ⟨fun _ => (hc _ _ _ _ (hG ha) hr).1, trivial⟩)
    (by
      intro op m l m' l' o k hG hP hPo _ _ hst
      refine ⟨?_, trivial, trivial⟩
      cases hst with
      | enter => exact hPo
      | skip => exact hPo
      | zero h hk => exact RefP_mono (fun i => setByte_zero i) hPo
      | read => exact hPo
      | write => exact hP.elim
      | leave => exact RefP_mono (fun i h => h) hPo
      | @call m op w' r ha hr =>
        refine RefP_mono (fun i _ => ?_) hPo
        have := (hc _ _ _ _ (hG ha) hr).1 i
        rwa [extMask_self] at this) h
  exact ⟨this.1, this.2.1⟩

theorem ref_linearizable (hb : Bytewise keep)
    (hc : Correct code (Clean keep) (fun w => w) (spec F keep)) (obj₀ : Bytes n) :
    (refMachine keep code).IsLinearizable (refSpec F keep) ⟨obj₀, false⟩ (clear_padding keep obj₀) := by
  intro Id _ sys H h
  refine Sim.linearizable (M := refMachine keep code) (spec := refSpec F keep) (sh₀ := ⟨obj₀, false⟩)
    (Inv := fun sys => (sys.sh.attached = true → Clean keep sys.sh.obj) ∧
      ∀ i op l, sys.calls i = .run op l → RefP keep sys.sh op l)
    { abs := fun m => clear_padding keep m.obj
      may := fun _ l t => match l with | .fin r => t = some r | _ => t = none
      abs_init := rfl
      may_ne := fun _ l => by cases l <;> exact ⟨_, rfl⟩
      start_none := fun op t h => h
      step_ok := ?_
      ret_ok := ?_ } (fun sys H h => ref_inv hb hc obj₀ h) h
  · intro sys i op l sh' l' t' hI hrun hst ht'
    have hP := hI.2 i op l hrun
    generalize hm : sys.sh = m at hst hP hI
    cases hst with
    | enter => exact ⟨none, rfl, .inl ⟨ht'.symm, rfl⟩⟩
    | skip => exact ⟨none, rfl, .inl ⟨ht'.symm, rfl⟩⟩
    | @zero m k h hk =>
      refine ⟨none, rfl, .inl ⟨ht'.symm, ?_⟩⟩
      funext i
      simp only [clear_padding, setByte]
      split
      · rename_i e
        have : i = ⟨k, h⟩ := Fin.ext e
        rw [this, hk]; simp
      · rfl
    | read => exact ⟨none, rfl, .inl ⟨ht'.symm, rfl⟩⟩
    | write => exact hP.elim
    | leave => exact ⟨none, rfl, .inr ⟨rfl, _, ht', rfl, rfl⟩⟩
    | @call m op w' r ha hr =>
      have hw := hI.1 ha
      have := hc _ _ _ _ hw hr
      refine ⟨none, rfl, .inr ⟨rfl, _, ht', ?_⟩⟩
      simp only [clean_clear hw, clean_clear this.1]
      exact this.2
  · intro sys i op l r _ _ hres
    cases l with
    | begin | clearing | read => cases hres
    | fin r' => cases hres; rfl

end

end Verif.Bytes
