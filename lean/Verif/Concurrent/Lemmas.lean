import Verif.Common.LinLemmas
import Verif.Concurrent.Model

/-
Simulations for the machines of `Verif.Concurrent.Model`, for any table of operation bodies whose
uninterrupted execution meets a sequential specification.
-/

namespace Verif.Concurrent

variable {W Op Ret σ : Type}

/-- Run without interruption, every body keeps the storage invariant `I` and does what `spec` says to the
value `abs w` represented by the storage word `w`. -/
def Correct (code : Op → Code W Ret) (I : W → Prop) (abs : W → σ) (spec : SeqSpec σ Op Ret) : Prop :=
  ∀ op w w' r, I w → (code op).Run w w' r → I w' ∧ spec (abs w) op (abs w') r

/-! ### One instruction -/

theorem one_inv {code : Op → Code W Ret} {I : W → Prop} {abs : W → σ} {spec : SeqSpec σ Op Ret}
    (hc : Correct code I abs spec) {w₀ : W} (h₀ : I w₀) {Id : Type} [DecidableEq Id]
    {sys : Sys Id (oneMachine code)} {H} (h : Exec (oneMachine code) w₀ sys H) : I sys.sh := by
  induction h with
  | init => exact h₀
  | invoke i op _ _ ih => exact ih
  | step i op l sh' l' _ _ hst ih =>
    obtain ⟨_, r, hr, _⟩ := hst
    exact (hc _ _ _ _ ih hr).1
  | ret i op l r _ _ _ ih => exact ih

theorem one_linearizable {code : Op → Code W Ret} {I : W → Prop} {abs : W → σ}
    {spec : SeqSpec σ Op Ret} (hc : Correct code I abs spec) {w₀ : W} (h₀ : I w₀) :
    (oneMachine code).IsLinearizable spec w₀ (abs w₀) := by
  intro Id _ sys H h
  refine Sim.linearizable (M := oneMachine code) (spec := spec) (sh₀ := w₀) (Inv := fun sys => I sys.sh)
    { abs := abs
      may := fun _ l t => match l with | .fin r => t = some r | .begin => t = none
      abs_init := rfl
      may_ne := fun _ l => by cases l <;> exact ⟨_, rfl⟩
      start_none := fun op t h => h
      step_ok := ?_
      ret_ok := ?_ } (fun sys H h => one_inv hc h₀ h) h
  · rintro sys i op l sh' l' t' hI _ ⟨rfl, r, hr, rfl⟩ ht'
    exact ⟨none, rfl, .inr ⟨rfl, r, ht', (hc _ _ _ _ hI hr).2⟩⟩
  · intro sys i op l r _ _ hres
    cases l with
    | begin => cases hres
    | fin r' => cases hres; rfl

/-! ### CAS loop -/

theorem cas_step_I {code : Op → Code W Ret} {I : W → Prop} {abs : W → σ} {spec : SeqSpec σ Op Ret}
    (hc : Correct code I abs spec) {op w l w' l'} (hw : I w) (h : CasStep code op w l w' l') : I w' := by
  cases h with
  | load _ => exact hw
  | store h => exact (hc op _ _ _ hw (by rw [h]; exact .store)).1
  | weakOk h => exact (hc op _ _ _ hw (by rw [h]; exact .weakOk)).1
  | weakFail _ => exact hw
  | strongOk h => exact (hc op _ _ _ hw (by rw [h]; exact .strongOk)).1
  | strongFail _ _ => exact hw
  | snapshot _ _ => exact hw
  | loopOk h => exact (hc op _ _ _ hw (by rw [h]; exact .rmw)).1
  | loopFail _ => exact hw

theorem cas_inv {code : Op → Code W Ret} {I : W → Prop} {abs : W → σ} {spec : SeqSpec σ Op Ret}
    (hc : Correct code I abs spec) {w₀ : W} (h₀ : I w₀) {Id : Type} [DecidableEq Id]
    {sys : Sys Id (casMachine code)} {H} (h : Exec (casMachine code) w₀ sys H) : I sys.sh := by
  induction h with
  | init => exact h₀
  | invoke i op _ _ ih => exact ih
  | step i op l sh' l' _ _ hst ih => exact cas_step_I hc ih hst
  | ret i op l r _ _ _ ih => exact ih

theorem cas_linearizable {code : Op → Code W Ret} {I : W → Prop} {abs : W → σ}
    {spec : SeqSpec σ Op Ret} (hc : Correct code I abs spec) {w₀ : W} (h₀ : I w₀) :
    (casMachine code).IsLinearizable spec w₀ (abs w₀) := by
  intro Id _ sys H h
  refine Sim.linearizable (M := casMachine code) (spec := spec) (sh₀ := w₀) (Inv := fun sys => I sys.sh)
    { abs := abs
      may := fun _ l t => match l with | .fin r => t = some r | _ => t = none
      abs_init := rfl
      may_ne := fun _ l => by cases l <;> exact ⟨_, rfl⟩
      start_none := fun op t h => h
      step_ok := ?_
      ret_ok := ?_ } (fun sys H h => cas_inv hc h₀ h) h
  · intro sys i op l sh' l' t' hI _ hst ht'
    have key : ∀ {w' r}, (code op).Run sys.sh w' r → spec (abs sys.sh) op (abs w') r :=
      fun hr => (hc _ _ _ _ hI hr).2
    cases hst with
    | load h => exact ⟨none, rfl, .inr ⟨rfl, _, ht', key (by rw [h]; exact .load)⟩⟩
    | store h => exact ⟨none, rfl, .inr ⟨rfl, _, ht', key (by rw [h]; exact .store)⟩⟩
    | weakOk h => exact ⟨none, rfl, .inr ⟨rfl, _, ht', key (by rw [h]; exact .weakOk)⟩⟩
    | weakFail h => exact ⟨none, rfl, .inr ⟨rfl, _, ht', key (by rw [h]; exact .weakFail)⟩⟩
    | strongOk h => exact ⟨none, rfl, .inr ⟨rfl, _, ht', key (by rw [h]; exact .strongOk)⟩⟩
    | strongFail h hne => exact ⟨none, rfl, .inr ⟨rfl, _, ht', key (by rw [h]; exact .strongFail hne)⟩⟩
    | snapshot _ _ => exact ⟨none, rfl, .inl ⟨ht'.symm, rfl⟩⟩
    | loopOk h => exact ⟨none, rfl, .inr ⟨rfl, _, ht', key (by rw [h]; exact .rmw)⟩⟩
    | loopFail _ => exact ⟨none, rfl, .inl ⟨ht'.symm, rfl⟩⟩
  · intro sys i op l r _ _ hres
    cases l <;> cases hres
    rfl

/-! ### Kernel helper -/

theorem kh_step_I {code : Op → Code W Ret} {I : W → Prop} {abs : W → σ} {spec : SeqSpec σ Op Ret}
    (hc : Correct code I abs spec) {op w l w' l'} (hw : I w) (h : KhStep code op w l w' l') : I w' := by
  cases h with
  | store h => exact (hc op _ _ _ hw (by rw [h]; exact .store)).1
  | weakOk h => exact (hc op _ _ _ hw (by rw [h]; exact .weakOk)).1
  | strongOk h => exact (hc op _ _ _ hw (by rw [h]; exact .strongOk)).1
  | loopOk h => exact (hc op _ _ _ hw (by rw [h]; exact .rmw)).1
  | _ => exact hw

theorem kh_inv {code : Op → Code W Ret} {I : W → Prop} {abs : W → σ} {spec : SeqSpec σ Op Ret}
    (hc : Correct code I abs spec) {w₀ : W} (h₀ : I w₀) {Id : Type} [DecidableEq Id]
    {sys : Sys Id (khMachine code)} {H} (h : Exec (khMachine code) w₀ sys H) : I sys.sh := by
  induction h with
  | init => exact h₀
  | invoke i op _ _ ih => exact ih
  | step i op l sh' l' _ _ hst ih => exact kh_step_I hc ih hst
  | ret i op l r _ _ _ ih => exact ih

theorem kh_linearizable {code : Op → Code W Ret} {I : W → Prop} {abs : W → σ}
    {spec : SeqSpec σ Op Ret} (hc : Correct code I abs spec) {w₀ : W} (h₀ : I w₀) :
    (khMachine code).IsLinearizable spec w₀ (abs w₀) := by
  intro Id _ sys H h
  refine Sim.linearizable (M := khMachine code) (spec := spec) (sh₀ := w₀) (Inv := fun sys => I sys.sh)
    { abs := abs
      may := fun _ l t => match l with | .fin r => t = some r | _ => t = none
      abs_init := rfl
      may_ne := fun _ l => by cases l <;> exact ⟨_, rfl⟩
      start_none := fun op t h => h
      step_ok := ?_
      ret_ok := ?_ } (fun sys H h => kh_inv hc h₀ h) h
  · intro sys i op l sh' l' t' hI _ hst ht'
    have key : ∀ {w' r}, (code op).Run sys.sh w' r → spec (abs sys.sh) op (abs w') r :=
      fun hr => (hc _ _ _ _ hI hr).2
    cases hst with
    | load h => exact ⟨none, rfl, .inr ⟨rfl, _, ht', key (by rw [h]; exact .load)⟩⟩
    | store h => exact ⟨none, rfl, .inr ⟨rfl, _, ht', key (by rw [h]; exact .store)⟩⟩
    | weakOk h => exact ⟨none, rfl, .inr ⟨rfl, _, ht', key (by rw [h]; exact .weakOk)⟩⟩
    | weakReread h => exact ⟨none, rfl, .inr ⟨rfl, _, ht', key (by rw [h]; exact .weakFail)⟩⟩
    | strongOk h => exact ⟨none, rfl, .inr ⟨rfl, _, ht', key (by rw [h]; exact .strongOk)⟩⟩
    | strongReturn h hne =>
      exact ⟨none, rfl, .inr ⟨rfl, _, ht', key (by rw [h]; exact .strongFail hne)⟩⟩
    | loopOk h => exact ⟨none, rfl, .inr ⟨rfl, _, ht', key (by rw [h]; exact .rmw)⟩⟩
    | weakHelperFail _ | strongHelperFail _ | strongRetry _ | snapshot _ _ | loopHelperFail _
    | loopReread _ => exact ⟨none, rfl, .inl ⟨ht'.symm, rfl⟩⟩
  · intro sys i op l r _ _ hres
    cases l <;> cases hres
    rfl

/-! ### LL/SC -/

/-- Reservations are faithful: a reservation that has not been lost was taken on the current word, and a
compare-exchange only links when the comparison held. -/
def LlP (code : Op → Code W Ret) (m : LlMem W) (op : Op) : LlLoc W Ret → Prop
  | .linked x v => (v ≤ m.ver ∧ (v = m.ver → m.word = x)) ∧
      ∀ e d k, (code op = .casWeak e d k ∨ code op = .casStrong e d k) → x = e
  | _ => True

structure LlInv {Id : Type} (code : Op → Code W Ret) (I : W → Prop)
    (sys : Sys Id (llMachine code)) : Prop where
  word : I sys.sh.word
  link : ∀ i op l, sys.calls i = .run op l → LlP code sys.sh op l

theorem ll_inv {code : Op → Code W Ret} {I : W → Prop} {abs : W → σ} {spec : SeqSpec σ Op Ret}
    (hc : Correct code I abs spec) {m₀ : LlMem W} (h₀ : I m₀.word) {Id : Type} [DecidableEq Id]
    {sys : Sys Id (llMachine code)} {H} (h : Exec (llMachine code) m₀ sys H) : LlInv code I sys := by
  have := Exec.invariant (M := llMachine code) (fun m => I m.word) (LlP code) (fun _ _ _ _ => True) h₀
    (fun _ _ _ => trivial) (fun _ _ _ => ⟨trivial, trivial⟩) ?_ ?_ h
  · exact ⟨this.1, this.2.1⟩
  · intro op m l m' l' hI hP hst
    have run : ∀ {w' r}, (code op).Run m.word w' r → I w' := fun hr => (hc _ _ _ _ hI hr).1
    cases hst with
    | load _ => exact ⟨hI, trivial⟩
    | store h => exact ⟨run (by rw [h]; exact .store), trivial⟩
    | rmwLink h => exact ⟨hI, ⟨Nat.le_refl _, fun _ => rfl⟩, by simp [h]⟩
    | rmwSc h =>
      have := hP.1.2 rfl
      subst this
      exact ⟨run (by rw [h]; exact .rmw), trivial⟩
    | rmwScFail _ => exact ⟨hI, trivial⟩
    | weakLink h =>
      exact ⟨hI, ⟨Nat.le_refl _, fun _ => rfl⟩,
        by rintro e d k (h' | h') <;> simp [h] at h'; exact h'.1⟩
    | weakMiss _ _ => exact ⟨hI, trivial⟩
    | weakSc h =>
      have e1 := hP.1.2 rfl
      have e2 := hP.2 _ _ _ (.inl h)
      subst e1; subst e2
      exact ⟨run (by rw [h]; exact .weakOk), trivial⟩
    | weakScFail _ => exact ⟨hI, trivial⟩
    | strongLink h =>
      exact ⟨hI, ⟨Nat.le_refl _, fun _ => rfl⟩,
        by rintro e d k (h' | h') <;> simp [h] at h'; exact h'.1⟩
    | strongMiss _ _ => exact ⟨hI, trivial⟩
    | strongSc h =>
      have e1 := hP.1.2 rfl
      have e2 := hP.2 _ _ _ (.inr h)
      subst e1; subst e2
      exact ⟨run (by rw [h]; exact .strongOk), trivial⟩
    | strongScFail _ => exact ⟨hI, trivial⟩
  · intro op m l m' l' o k hI hP hPo _ _ hst
    refine ⟨?_, trivial, trivial⟩
    have bump : ∀ w', LlP code ⟨w', m.ver + 1⟩ o k := by
      intro w'
      cases k with
      | linked x v =>
        refine ⟨⟨Nat.le_succ_of_le hPo.1.1, fun h => ?_⟩, hPo.2⟩
        have := hPo.1.1
        simp at h; omega
      | _ => trivial
    cases hst <;> first | exact hPo | exact bump _

theorem ll_linearizable {code : Op → Code W Ret} {I : W → Prop} {abs : W → σ}
    {spec : SeqSpec σ Op Ret} (hc : Correct code I abs spec) {m₀ : LlMem W} (h₀ : I m₀.word) :
    (llMachine code).IsLinearizable spec m₀ (abs m₀.word) := by
  intro Id _ sys H h
  refine Sim.linearizable (M := llMachine code) (spec := spec) (sh₀ := m₀) (Inv := LlInv code I)
    { abs := fun m => abs m.word
      may := fun op l t => match l with
        | .fin r => t = some r
        | .begin => t = none
        | .linked x _ => t = none ∨ ∃ e d k, code op = .casWeak e d k ∧ t = some (k false x)
      abs_init := rfl
      may_ne := fun _ l => by
        cases l
        · exact ⟨_, rfl⟩
        · exact ⟨none, .inl rfl⟩
        · exact ⟨_, rfl⟩
      start_none := fun op t h => h
      step_ok := ?_
      ret_ok := ?_ } (fun sys H h => ll_inv hc h₀ h) h
  · intro sys i op l sh' l' t' hI hi hst ht'
    have key : ∀ {w' r}, (code op).Run sys.sh.word w' r → spec (abs sys.sh.word) op (abs w') r :=
      fun hr => (hc _ _ _ _ hI.word hr).2
    cases hst with
    | load h => exact ⟨none, rfl, .inr ⟨rfl, _, ht', key (by rw [h]; exact .load)⟩⟩
    | store h => exact ⟨none, rfl, .inr ⟨rfl, _, ht', key (by rw [h]; exact .store)⟩⟩
    | rmwLink h =>
      rcases ht' with ht' | ⟨e, d, k, h', _⟩
      · exact ⟨none, rfl, .inl ⟨ht'.symm, rfl⟩⟩
      · simp [h] at h'
    | rmwSc h =>
      have := (hI.link i op _ hi).1.2 rfl
      subst this
      exact ⟨none, .inl rfl, .inr ⟨rfl, _, ht', key (by rw [h]; exact .rmw)⟩⟩
    | rmwScFail _ => exact ⟨none, .inl rfl, .inl ⟨ht'.symm, rfl⟩⟩
    | weakLink h =>
      rcases ht' with ht' | ⟨e, d, k, h', ht'⟩
      · exact ⟨none, rfl, .inl ⟨ht'.symm, rfl⟩⟩
      · exact ⟨none, rfl, .inr ⟨rfl, _, ht', key (by rw [h']; exact .weakFail)⟩⟩
    | weakMiss h _ => exact ⟨none, rfl, .inr ⟨rfl, _, ht', key (by rw [h]; exact .weakFail)⟩⟩
    | weakSc h =>
      have e1 := (hI.link i op _ hi).1.2 rfl
      have e2 := (hI.link i op _ hi).2 _ _ _ (.inl h)
      subst e1; subst e2
      exact ⟨none, .inl rfl, .inr ⟨rfl, _, ht', key (by rw [h]; exact .weakOk)⟩⟩
    | weakScFail h => exact ⟨t', .inr ⟨_, _, _, h, ht'⟩, .inl ⟨rfl, rfl⟩⟩
    | strongLink h =>
      rcases ht' with ht' | ⟨e, d, k, h', _⟩
      · exact ⟨none, rfl, .inl ⟨ht'.symm, rfl⟩⟩
      · simp [h] at h'
    | strongMiss h hne =>
      exact ⟨none, rfl, .inr ⟨rfl, _, ht', key (by rw [h]; exact .strongFail hne)⟩⟩
    | strongSc h =>
      have e1 := (hI.link i op _ hi).1.2 rfl
      have e2 := (hI.link i op _ hi).2 _ _ _ (.inr h)
      subst e1; subst e2
      exact ⟨none, .inl rfl, .inr ⟨rfl, _, ht', key (by rw [h]; exact .strongOk)⟩⟩
    | strongScFail _ => exact ⟨none, .inl rfl, .inl ⟨ht'.symm, rfl⟩⟩
  · intro sys i op l r _ _ hres
    cases l <;> cases hres
    rfl

/-! ### Mixed skeletons -/

def MixP (code : Op → Code W Ret) (m : LlMem W) (op : Op) : MixLoc W Ret → Prop
  | .linked x v => (v ≤ m.ver ∧ (v = m.ver → m.word = x)) ∧
      ∀ e d k, (code op = .casWeak e d k ∨ code op = .casStrong e d k) → x = e
  | .loopLinked x v => v ≤ m.ver ∧ (v = m.ver → m.word = x)
  | _ => True

theorem mix_inv {code : Op → Code W Ret} {I : W → Prop} {abs : W → σ} {spec : SeqSpec σ Op Ret}
    (hc : Correct code I abs spec) {m₀ : LlMem W} (h₀ : I m₀.word) {Id : Type} [DecidableEq Id]
    {sys : Sys Id (mixMachine code)} {H} (h : Exec (mixMachine code) m₀ sys H) :
    I sys.sh.word ∧ ∀ i op l, sys.calls i = .run op l → MixP code sys.sh op l := by
  have := Exec.invariant (M := mixMachine code) (fun m => I m.word) (MixP code) (fun _ _ _ _ => True) h₀
    (fun _ _ _ => trivial) (fun _ _ _ => ⟨trivial, trivial⟩) ?_ ?_ h
  · exact ⟨this.1, this.2.1⟩
  · intro op m l m' l' hI hP hst
    have run : ∀ {w' r}, (code op).Run m.word w' r → I w' := fun hr => (hc _ _ _ _ hI hr).1
    cases hst with
    | one h => exact ⟨run h, trivial⟩
    | loopOk h => exact ⟨run (by rw [h]; exact .rmw), trivial⟩
    | loopLink _ => exact ⟨hI, Nat.le_refl _, fun _ => rfl⟩
    | loopSc h =>
      have := hP.2 rfl
      subst this
      exact ⟨run (by rw [h]; exact .rmw), trivial⟩
    | rmwLink h => exact ⟨hI, ⟨Nat.le_refl _, fun _ => rfl⟩, by simp [h]⟩
    | rmwSc h =>
      have := hP.1.2 rfl
      subst this
      exact ⟨run (by rw [h]; exact .rmw), trivial⟩
    | weakLink h =>
      exact ⟨hI, ⟨Nat.le_refl _, fun _ => rfl⟩,
        by rintro e d k (h' | h') <;> simp [h] at h'; exact h'.1⟩
    | weakSc h =>
      have e1 := hP.1.2 rfl
      have e2 := hP.2 _ _ _ (.inl h)
      subst e1; subst e2
      exact ⟨run (by rw [h]; exact .weakOk), trivial⟩
    | strongLink h =>
      exact ⟨hI, ⟨Nat.le_refl _, fun _ => rfl⟩,
        by rintro e d k (h' | h') <;> simp [h] at h'; exact h'.1⟩
    | strongSc h =>
      have e1 := hP.1.2 rfl
      have e2 := hP.2 _ _ _ (.inr h)
      subst e1; subst e2
      exact ⟨run (by rw [h]; exact .strongOk), trivial⟩
    | _ => exact ⟨hI, trivial⟩
  · intro op m l m' l' o k hI hP hPo _ _ hst
    refine ⟨?_, trivial, trivial⟩
    have bump : ∀ w', MixP code ⟨w', m.ver + 1⟩ o k := by
      intro w'
      cases k with
      | linked x v =>
        refine ⟨⟨Nat.le_succ_of_le hPo.1.1, fun h => ?_⟩, hPo.2⟩
        have := hPo.1.1
        simp at h; omega
      | loopLinked x v =>
        refine ⟨Nat.le_succ_of_le hPo.1, fun h => ?_⟩
        have := hPo.1
        simp at h; omega
      | _ => trivial
    cases hst <;> first | exact hPo | exact bump _

theorem mix_linearizable {code : Op → Code W Ret} {I : W → Prop} {abs : W → σ}
    {spec : SeqSpec σ Op Ret} (hc : Correct code I abs spec) {m₀ : LlMem W} (h₀ : I m₀.word) :
    (mixMachine code).IsLinearizable spec m₀ (abs m₀.word) := by
  intro Id _ sys H h
  refine Sim.linearizable (M := mixMachine code) (spec := spec) (sh₀ := m₀)
    (Inv := fun sys => I sys.sh.word ∧ ∀ i op l, sys.calls i = .run op l → MixP code sys.sh op l)
    { abs := fun m => abs m.word
      may := fun op l t => match l with
        | .fin r => t = some r
        | .linked x _ => t = none ∨ ∃ e d k, code op = .casWeak e d k ∧ t = some (k false x)
        | _ => t = none
      abs_init := rfl
      may_ne := fun _ l => by
        cases l
        case linked => exact ⟨none, .inl rfl⟩
        all_goals exact ⟨_, rfl⟩
      start_none := fun op t h => h
      step_ok := ?_
      ret_ok := ?_ } (fun sys H h => mix_inv hc h₀ h) h
  · intro sys i op l sh' l' t' hI hi hst ht'
    have key : ∀ {w' r}, (code op).Run sys.sh.word w' r → spec (abs sys.sh.word) op (abs w') r :=
      fun hr => (hc _ _ _ _ hI.1 hr).2
    have hP := hI.2 i op l hi
    cases hst with
    | one h => exact ⟨none, rfl, .inr ⟨rfl, _, ht', key h⟩⟩
    | loopOk h => exact ⟨none, rfl, .inr ⟨rfl, _, ht', key (by rw [h]; exact .rmw)⟩⟩
    | loopSc h =>
      have := hP.2 rfl
      subst this
      exact ⟨none, rfl, .inr ⟨rfl, _, ht', key (by rw [h]; exact .rmw)⟩⟩
    | rmwLink h =>
      rcases ht' with ht' | ⟨e, d, k, h', _⟩
      · exact ⟨none, rfl, .inl ⟨ht'.symm, rfl⟩⟩
      · simp [h] at h'
    | rmwSc h =>
      have := hP.1.2 rfl
      subst this
      exact ⟨none, .inl rfl, .inr ⟨rfl, _, ht', key (by rw [h]; exact .rmw)⟩⟩
    | rmwScFail _ => exact ⟨none, .inl rfl, .inl ⟨ht'.symm, rfl⟩⟩
    | weakLink h =>
      rcases ht' with ht' | ⟨e, d, k, h', ht'⟩
      · exact ⟨none, rfl, .inl ⟨ht'.symm, rfl⟩⟩
      · exact ⟨none, rfl, .inr ⟨rfl, _, ht', key (by rw [h']; exact .weakFail)⟩⟩
    | weakSc h =>
      have e1 := hP.1.2 rfl
      have e2 := hP.2 _ _ _ (.inl h)
      subst e1; subst e2
      exact ⟨none, .inl rfl, .inr ⟨rfl, _, ht', key (by rw [h]; exact .weakOk)⟩⟩
    | weakScFail h => exact ⟨t', .inr ⟨_, _, _, h, ht'⟩, .inl ⟨rfl, rfl⟩⟩
    | strongLink h =>
      rcases ht' with ht' | ⟨e, d, k, h', _⟩
      · exact ⟨none, rfl, .inl ⟨ht'.symm, rfl⟩⟩
      · simp [h] at h'
    | strongSc h =>
      have e1 := hP.1.2 rfl
      have e2 := hP.2 _ _ _ (.inr h)
      subst e1; subst e2
      exact ⟨none, .inl rfl, .inr ⟨rfl, _, ht', key (by rw [h]; exact .strongOk)⟩⟩
    | strongScFail _ => exact ⟨none, .inl rfl, .inl ⟨ht'.symm, rfl⟩⟩
    | snapshot _ _ | loopFail _ | loopLink _ | loopScFail _ => exact ⟨none, rfl, .inl ⟨ht'.symm, rfl⟩⟩
  · intro sys i op l r _ _ hres
    cases l <;> cases hres
    rfl

/-! ### Lock pool -/

/-- The specification of a family of independent objects, one per address. -/
def specAll {Addr : Type} (spec : SeqSpec σ Op Ret) : SeqSpec (Addr → σ) (Addr × Op) Ret :=
  fun s op s' r => spec (s op.1) op.2 (s' op.1) r ∧ ∀ b, b ≠ op.1 → s' b = s b

section lock
variable {Addr : Type} [DecidableEq Addr] {idx : Addr → Nat} {code : Op → Code W Ret} {I : W → Prop}

/-- The call is inside its critical section. -/
def LkLoc.crit : LkLoc W Ret → Prop
  | .locked | .toWrite _ _ | .midWrite _ _ | .unlocking _ => True
  | _ => False

def lkG (idx : Addr → Nat) (I : W → Prop) (m : LkMem Addr W) : Prop :=
  (∀ a w, m.cell a = .whole w ∨ m.cell a = .writing w → I w) ∧
  (∀ a, m.locked (idx a) = false → ∃ w, m.cell a = .whole w)

def lkP (idx : Addr → Nat) (code : Op → Code W Ret) (m : LkMem Addr W) (op : Addr × Op) :
    LkLoc W Ret → Prop
  | .locked => m.locked (idx op.1) = true ∧ ∀ c, idx c = idx op.1 → ∃ w, m.cell c = .whole w
  | .unlocking _ => m.locked (idx op.1) = true ∧ ∀ c, idx c = idx op.1 → ∃ w, m.cell c = .whole w
  | .toWrite w' r => m.locked (idx op.1) = true ∧ (∀ c, idx c = idx op.1 → ∃ w, m.cell c = .whole w) ∧
      ∃ w, m.cell op.1 = .whole w ∧ (code op.2).Run w w' r
  | .midWrite w' r => m.locked (idx op.1) = true ∧
      (∀ c, idx c = idx op.1 → c ≠ op.1 → ∃ w, m.cell c = .whole w) ∧
      ∃ w, m.cell op.1 = .writing w ∧ (code op.2).Run w w' r
  | .begin | .fin _ => True
  | .race => False

def lkQ (idx : Addr → Nat) (op : Addr × Op) (l : LkLoc W Ret) (o : Addr × Op) (k : LkLoc W Ret) : Prop :=
  l.crit → k.crit → idx op.1 ≠ idx o.1

omit [DecidableEq Addr] in
theorem lkP_crit {m : LkMem Addr W} {op} {l : LkLoc W Ret} (h : lkP idx code m op l) (hc : l.crit) :
    m.locked (idx op.1) = true := by
  cases l <;> first | exact hc.elim | exact h.1

omit [DecidableEq Addr] in
/-- What a call inside its critical section knows does not change while others change cells and locks
that belong to other lock indices. -/
theorem lkP_stable {m m' : LkMem Addr W} {op} {l : LkLoc W Ret} (h : lkP idx code m op l)
    (hl : l.crit → m'.locked (idx op.1) = m.locked (idx op.1))
    (hc : l.crit → ∀ c, idx c = idx op.1 → m'.cell c = m.cell c) : lkP idx code m' op l := by
  cases l with
  | begin => trivial
  | fin r => trivial
  | race => exact h
  | locked => exact ⟨(hl trivial).trans h.1, fun c e => by rw [hc trivial c e]; exact h.2 c e⟩
  | unlocking r => exact ⟨(hl trivial).trans h.1, fun c e => by rw [hc trivial c e]; exact h.2 c e⟩
  | toWrite w' r =>
    exact ⟨(hl trivial).trans h.1, fun c e => by rw [hc trivial c e]; exact h.2.1 c e,
      by rw [hc trivial _ rfl]; exact h.2.2⟩
  | midWrite w' r =>
    exact ⟨(hl trivial).trans h.1, fun c e => by rw [hc trivial c e]; exact h.2.1 c e,
      by rw [hc trivial _ rfl]; exact h.2.2⟩

theorem lk_inv {abs : W → σ} {spec : SeqSpec σ Op Ret}
    (hc : Correct code I abs spec) {m₀ : LkMem Addr W}
    (h₀ : ∀ a, ∃ w, m₀.cell a = .whole w ∧ I w) {Id : Type} [DecidableEq Id]
    {sys : Sys Id (lkMachine idx code)} {H} (h : Exec (lkMachine idx code) m₀ sys H) :
    lkG idx I sys.sh ∧ (∀ i op l, sys.calls i = .run op l → lkP idx code sys.sh op l) ∧
      (∀ i j op l o k, i ≠ j → sys.calls i = .run op l → sys.calls j = .run o k →
        lkQ idx op l o k) := by
  refine Exec.invariant (M := lkMachine idx code) (lkG idx I) (lkP idx code) (lkQ idx) ?_ ?_ ?_ ?_ ?_ h
  · refine ⟨?_, fun a _ => (h₀ a).imp fun w h => h.1⟩
    intro a w hw
    obtain ⟨w₁, h1, h2⟩ := h₀ a
    rw [h1] at hw
    rcases hw with hw | hw <;> cases hw
    exact h2
  · intros; trivial
  · intro op op' l'
    exact ⟨fun h => h.elim, fun _ h => h.elim⟩
  · intro op m l m' l' hG hP hst
    cases hst with
    | @acquire a op _ hl =>
      refine ⟨⟨hG.1, ?_⟩, by simp [upd], fun c e => hG.2 c (by rw [e]; exact hl)⟩
      intro b hb
      apply hG.2
      simp only [upd] at hb
      split at hb
      · cases hb
      · exact hb
    | @body a op _ w w' r hw hr => exact ⟨hG, hP.1, hP.2, w, hw, hr⟩
    | @bodyNoWrite a op _ w r hw hr => exact ⟨hG, hP⟩
    | @bodyRace a op _ old hw =>
      obtain ⟨w, h1⟩ := hP.2 a rfl
      rw [h1] at hw; cases hw
    | @writeBegin a op _ w w' r hw =>
      obtain ⟨hl, hcells, w₁, h1, h2⟩ := hP
      have : w₁ = w := by have h1 : m.cell a = .whole w₁ := h1; rw [hw] at h1; cases h1; rfl
      subst this
      refine ⟨⟨?_, ?_⟩, hl, ?_, w₁, by simp, h2⟩
      · intro c x hx
        by_cases hca : c = a
        · subst hca; simp at hx; subst hx; exact hG.1 c _ (.inl hw)
        · simp only [upd_other _ _ hca] at hx; exact hG.1 c x hx
      · intro c hcl
        by_cases hca : c = a
        · subst hca; rw [hl] at hcl; cases hcl
        · simp only [upd_other _ _ hca]; exact hG.2 c hcl
      · intro c e hca
        simp only at hca
        simp only [upd_other _ _ hca]; exact hcells c e
    | @writeRace a op _ w' r old hw =>
      obtain ⟨w, h1⟩ := hP.2.1 a rfl
      rw [h1] at hw; cases hw
    | @writeEnd a op _ w' r =>
      obtain ⟨hl, hcells, w, h1, h2⟩ := hP
      have hIw := (hc op w w' r (hG.1 a w (.inr h1)) h2).1
      refine ⟨⟨?_, ?_⟩, hl, ?_⟩
      · intro c x hx
        by_cases hca : c = a
        · subst hca; simp at hx; subst hx; exact hIw
        · simp only [upd_other _ _ hca] at hx; exact hG.1 c x hx
      · intro c hcl
        by_cases hca : c = a
        · subst hca; exact ⟨w', by simp⟩
        · simp only [upd_other _ _ hca]; exact hG.2 c hcl
      · intro c e
        by_cases hca : c = a
        · subst hca; exact ⟨w', by simp⟩
        · simp only [upd_other _ _ hca]; exact hcells c e hca
    | @release a op _ r =>
      refine ⟨⟨hG.1, ?_⟩, trivial⟩
      intro c hcl
      simp only [upd] at hcl
      split at hcl
      · rename_i e; exact hP.2 c e
      · exact hG.2 c hcl
  · intro op m l m' l' o k hG hP hPo hQ hQ' hst
    have same : ∀ {l l' : LkLoc W Ret}, lkQ idx op l o k → lkQ idx o k op l → (l'.crit → l.crit) →
        lkQ idx op l' o k ∧ lkQ idx o k op l' :=
      fun h1 h2 h => ⟨fun a b => h1 (h a) b, fun a b => h2 a (h b)⟩
    cases hst with
    | @acquire a op _ hl =>
      have hne : k.crit → idx o.1 ≠ idx a := by
        intro hk e
        have := lkP_crit hPo hk
        rw [e, hl] at this; cases this
      refine ⟨lkP_stable hPo (fun hk => upd_other _ _ (hne hk)) (fun _ _ _ => rfl),
        fun _ hk => Ne.symm (hne hk), fun hk _ => hne hk⟩
    | body _ _ => exact ⟨hPo, same hQ hQ' (fun _ => trivial)⟩
    | bodyNoWrite _ _ => exact ⟨hPo, same hQ hQ' (fun _ => trivial)⟩
    | bodyRace _ => exact ⟨hPo, same hQ hQ' (fun h => h.elim)⟩
    | @writeBegin a op _ w w' r hw =>
      refine ⟨lkP_stable hPo (fun _ => rfl) (fun hk c e => upd_other _ _ ?_),
        same hQ hQ' (fun _ => trivial)⟩
      rintro rfl; exact hQ trivial hk e
    | writeRace _ => exact ⟨hPo, same hQ hQ' (fun h => h.elim)⟩
    | @writeEnd a op _ w' r =>
      refine ⟨lkP_stable hPo (fun _ => rfl) (fun hk c e => upd_other _ _ ?_),
        same hQ hQ' (fun _ => trivial)⟩
      rintro rfl; exact hQ trivial hk e
    | @release a op _ r =>
      refine ⟨lkP_stable hPo (fun hk => upd_other _ _ ?_) (fun _ _ _ => rfl),
        same hQ hQ' (fun h => h.elim)⟩
      exact Ne.symm (hQ trivial hk)

/-- The value an object is regarded as holding: while a write is in progress, the value before it. -/
def cellAbs (abs : W → σ) (m : LkMem Addr W) (a : Addr) : σ :=
  match m.cell a with
  | .whole w => abs w
  | .writing w => abs w

theorem lk_linearizable {abs : W → σ} {spec : SeqSpec σ Op Ret}
    (hc : Correct code I abs spec) {m₀ : LkMem Addr W}
    (h₀ : ∀ a, ∃ w, m₀.cell a = .whole w ∧ I w) :
    (lkMachine idx code).IsLinearizable (specAll spec) m₀ (cellAbs abs m₀) := by
  intro Id _ sys H h
  refine Sim.linearizable (M := lkMachine idx code) (spec := specAll spec) (sh₀ := m₀)
    (Inv := fun sys => lkG idx I sys.sh ∧ ∀ i op l, sys.calls i = .run op l → lkP idx code sys.sh op l)
    { abs := cellAbs abs
      may := fun _ l t => match l with
        | .unlocking r => t = some r
        | .fin r => t = some r
        | _ => t = none
      abs_init := rfl
      may_ne := fun _ l => by cases l <;> exact ⟨_, rfl⟩
      start_none := fun op t h => h
      step_ok := ?_
      ret_ok := ?_ } (fun sys H h => ⟨(lk_inv hc h₀ h).1, (lk_inv hc h₀ h).2.1⟩) h
  · intro sys i op l sh' l' t' hI hi hst ht'
    have hP := hI.2 i op l hi
    have hG := hI.1
    cases hst with
    | acquire _ => exact ⟨none, rfl, .inl ⟨ht'.symm, rfl⟩⟩
    | body _ _ => exact ⟨none, rfl, .inl ⟨ht'.symm, rfl⟩⟩
    | @bodyNoWrite a op _ w r hw hr =>
      refine ⟨none, rfl, .inr ⟨rfl, _, ht', ?_, fun b _ => rfl⟩⟩
      have := (hc op w w r (hG.1 a w (.inl hw)) hr).2
      simpa [cellAbs, hw] using this
    | bodyRace _ => exact ⟨none, rfl, .inl ⟨ht'.symm, rfl⟩⟩
    | @writeBegin a op _ w w' r hw =>
      refine ⟨none, rfl, .inl ⟨ht'.symm, ?_⟩⟩
      funext b
      by_cases hb : b = a
      · subst hb; simp [cellAbs, hw]
      · simp [cellAbs, upd_other _ _ hb]
    | writeRace _ => exact ⟨none, rfl, .inl ⟨ht'.symm, rfl⟩⟩
    | @writeEnd a op _ w' r =>
      obtain ⟨_, _, w, h1, h2⟩ := hP
      refine ⟨none, rfl, .inr ⟨rfl, _, ht', ?_, fun b hb => ?_⟩⟩
      · have := (hc op w w' r (hG.1 a w (.inr h1)) h2).2
        simp only at h1
        simpa [cellAbs, h1] using this
      · simp only at hb
        simp [cellAbs, upd_other _ _ hb]
    | @release a op _ r => exact ⟨t', ht', .inl ⟨rfl, rfl⟩⟩
  · intro sys i op l r _ _ hres
    cases l <;> cases hres
    rfl

end lock

end Verif.Concurrent
