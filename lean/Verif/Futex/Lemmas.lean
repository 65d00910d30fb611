import Verif.Futex.Spec

set_option linter.unusedSectionVars false

namespace Verif.Futex

open Verif (upd upd_same upd_other)

variable {T C V : Type} [DecidableEq T] [DecidableEq C] {cfg : Cfg}

/-- What a step of `t` may do to another thread: nothing, wake it from the mutex futex, or move it from
the condition variable to the mutex. -/
theorem step_other {s s' : State T C V} {t u : T} (h : Step cfg s t s') (hu : u ≠ t) :
    s'.pc u = s.pc u ∨
    (∃ x w k, s.pc u = .asleepM x ∧ s'.pc u = x.woken .ok ∧ s.pc t = .ulWake w k) ∨
    (∃ w a, s.pc u = .asleepC w ∧ s'.pc u = .asleepM (.cond w) ∧ s.pc t = .ntRequeue a w.c ∧
      s'.pc t = .ntOr a w.c) := by
  cases h with
  | store => exact .inl rfl
  | @ulWakeOne w k v x h1 h2 =>
    by_cases hv : u = v
    · subst hv
      refine .inr (.inl ⟨x, w, k, h2, ?_, h1⟩)
      simp [State.goto, upd, hu]
    · left; simp [State.goto, upd, hu, hv]
  | @ntAll c mv _ h1 h2 =>
    simp only [State.goto, upd_other _ _ hu, upd_same, requeue]
    cases hp : s.pc u <;> simp
    rename_i w
    by_cases hm : mv u
    · obtain ⟨w', hw', hc⟩ := (h2 u).1 hm
      rw [hp] at hw'; cases hw'
      exact .inr ⟨hm, by rw [hc]; exact h1, hc.symm⟩
    · exact .inl hm
  | @ntOne c v h1 h2 =>
    simp only [State.goto, upd_other _ _ hu, upd_same, requeue]
    cases hp : s.pc u <;> simp
    rename_i w
    by_cases hm : u = v
    · obtain ⟨w', hw', hc⟩ := h2
      rw [← hm, hp] at hw'; cases hw'
      exact .inr ⟨hm, by rw [hc]; exact h1, hc.symm⟩
    · exact .inl hm
  | _ => left; simp [State.goto, upd, hu]

/-- Properties of other threads that waking and requeueing preserve, a step preserves. -/
theorem step_other_pres {P : PC C V → Prop} {s s' : State T C V} {t u : T} (h : Step cfg s t s') (hu : u ≠ t)
    (h1 : ∀ x r, P (.asleepM x) ↔ P (x.woken r)) (h2 : ∀ w, P (.asleepC w) ↔ P (.asleepM (.cond w))) :
    P (s'.pc u) ↔ P (s.pc u) := by
  rcases step_other h hu with h | ⟨x, w, k, e, e', -⟩ | ⟨w, a, e, e', -⟩
  · rw [h]
  · rw [e, e']; exact (h1 x _).symm
  · rw [e, e']; exact (h2 w).symm

theorem owns_other {s s' : State T C V} {t u : T} (h : Step cfg s t s') (hu : u ≠ t) :
    Owns (s'.pc u) ↔ Owns (s.pc u) :=
  step_other_pres (P := Owns) h hu (by intro x r; cases x <;> simp [Sleep.woken, Owns])
    (by intro w; simp [Owns])

theorem waitOf_woken (x : Sleep C V) (r : Res) : waitOf (x.woken r) = waitOf (.asleepM x) := by
  rcases x with (_ | _ | _) | _ <;> rfl

theorem waitOf_other {s s' : State T C V} {t u : T} (h : Step cfg s t s') (hu : u ≠ t) :
    waitOf (s'.pc u) = waitOf (s.pc u) := by
  rcases step_other h hu with h | ⟨x, w, k, e, e', -⟩ | ⟨w, a, e, e', -⟩
  · rw [h]
  · rw [e, e']; exact waitOf_woken ..
  · rw [e, e']; rfl

theorem owns_lockNext (k : LockFor C V) : Owns k.next := by cases k <;> exact trivial
theorem not_owns_unlockNext (k : UnlockFor C V) : ¬ Owns k.next := by cases k <;> exact id

@[simp] theorem goto_pc_self (s : State T C V) (t : T) (q : PC C V) : (s.goto t q).pc t = q := by
  simp [State.goto]
@[simp] theorem goto_m (s : State T C V) (t : T) (q : PC C V) : (s.goto t q).m = s.m := rfl
@[simp] theorem goto_cond (s : State T C V) (t : T) (q : PC C V) : (s.goto t q).cond = s.cond := rfl
@[simp] theorem goto_wc (s : State T C V) (t : T) (q : PC C V) : (s.goto t q).wc = s.wc := rfl
@[simp] theorem goto_val (s : State T C V) (t : T) (q : PC C V) : (s.goto t q).val = s.val := rfl

/-- The five ways a step treats the lock word. -/
inductive WordStep (cfg : Cfg) (s s' : State T C V) (t : T) : Prop where
  | same (h : Owns (s'.pc t) ↔ Owns (s.pc t)) (e : s'.m = s.m)
  | acq (h : ¬ Owns (s.pc t)) (h' : Owns (s'.pc t)) (l : s.m.locked = false) (e : s'.m = s.m.lock)
  | rel (h : Owns (s.pc t)) (h' : ¬ Owns (s'.pc t)) (e : s'.m = s.m.unlock)
      (k : UnlockFor C V) (w : Word) (q0 : s.pc t = .ulCas w k)
      (q : s'.pc t = .ulWake s'.m k ∧ s.m.contended = true ∨
        s'.pc t = k.next ∧ s.m.contended = false)
  | contend (h : Owns (s'.pc t) ↔ Owns (s.pc t)) (e : s'.m = s.m.contend)
      (q : (∃ all c, s.pc t = .ntOr all c) ∨ s.m.locked = true)
  | clear (w : Word) (k : UnlockFor C V) (q : s.pc t = .ulClear w k) (e : s'.m = s.m.clear)
      (e' : s.m.Same cfg.mutexMod w) (q' : s'.pc t = k.next)

/-- `spinCas` and `slow` with the unlocked bit: the invariant on remembered words. -/
def Remembers : PC C V → Prop
  | .spinCas _ w _ => w.locked = false
  | .slowWait w _ => w.locked = true ∧ w.contended = true
  | _ => True

theorem step_remembers {s s' : State T C V} {t : T} (h : Step cfg s t s')
    (hr : ∀ u, Remembers (s.pc u)) : ∀ u, Remembers (s'.pc u) := by
  intro u
  by_cases hu : u = t
  · subst hu
    cases h with
    | store => exact hr u
    | spinLoad _ h => simpa [Remembers] using h
    | slowContend h1 h2 h3 => simp [Remembers, Word.contend, h3.1, h2]
    | @spinOk _ _ k | @slowLock _ k => simp; cases k <;> exact trivial
    | @ulOk w k => simp; split <;> first | exact trivial | (cases k <;> exact trivial)
    | @ulWakeOne _ k | @ulClearOk _ k | @ulClearFail _ k => simp; cases k <;> exact trivial
    | @wakeM x => rcases x with _ | _ <;> simp [Sleep.woken, Remembers]
    | _ => simp [Remembers]
  · exact (step_other_pres (P := Remembers) h hu
      (by intro x r; rcases x with _ | _ <;> simp [Remembers, Sleep.woken])
      (by intro w; simp [Remembers])).2 (hr u)

theorem wordStep {s s' : State T C V} {t : T} (h : Step cfg s t s') (hr : Remembers (s.pc t)) :
    WordStep cfg s s' t := by
  cases h with
  | store c v h => exact .same Iff.rfl rfl
  | @spinOk i w k h1 h2 =>
    rw [h1] at hr
    exact .acq (by simp [h1, Owns]) (by simpa using owns_lockNext k) (h2.1.trans hr) (by simp)
  | @slowLock w k h1 h2 h3 =>
    exact .acq (by simp [h1, Owns]) (by simpa using owns_lockNext k) (h3.1.trans h2) (by simp)
  | @slowContend w k h1 h2 h3 =>
    exact .contend (by simp [h1, Owns]) (by simp) (.inr (h3.1.trans h2))
  | @ulOk w k h1 h2 =>
    refine .rel (by simp [h1, Owns]) ?_ (by simp) k w h1 ?_
    · simp; split <;> first | exact id | exact not_owns_unlockNext k
    · simp only [goto_pc_self, goto_m]
      cases hc : w.contended
      · exact .inr ⟨by simp, h2.2.1.trans hc⟩
      · exact .inl ⟨by simp, h2.2.1.trans hc⟩
  | @ulWakeOne w k u x h1 h2 =>
    exact .same (by simp [h1, Owns]; exact not_owns_unlockNext k) (by simp)
  | @ulClearOk w k h1 h2 => exact .clear w k h1 (by simp) h2 (by simp)
  | @ulClearFail w k h1 h2 =>
    exact .same (by simp [h1, Owns]; exact not_owns_unlockNext k) (by simp)
  | @wakeM x r h1 => exact .same (by simp [h1, Owns]; rcases x with _ | _ <;> simp [Sleep.woken]) (by simp)
  | @ntOr all c h1 => exact .contend (by simp [h1, Owns]) (by simp) (.inl ⟨all, c, h1⟩)
  | _ => refine .same ?_ (by simp); simp [*, Owns]

/-- Mutual exclusion. -/
structure Mutex (s : State T C V) : Prop where
  unique : ∀ t u, Owns (s.pc t) → Owns (s.pc u) → t = u
  locked : s.m.locked = true ↔ ∃ t, Owns (s.pc t)

theorem Mutex.step {s s' : State T C V} {t : T} (hi : Mutex s) (h : Step cfg s t s')
    (hr : Remembers (s.pc t)) : Mutex s' := by
  have ho := fun u => owns_other (u := u) h
  have same : (Owns (s'.pc t) ↔ Owns (s.pc t)) → ∀ u, Owns (s'.pc u) ↔ Owns (s.pc u) := by
    intro h u
    by_cases hu : u = t
    · subst hu; exact h
    · exact ho u hu
  have keep : (Owns (s'.pc t) ↔ Owns (s.pc t)) → s'.m.locked = s.m.locked → Mutex s' := by
    intro h e
    have := same h
    refine ⟨fun a b ha hb => hi.unique a b ((this a).1 ha) ((this b).1 hb), ?_⟩
    rw [e, hi.locked]
    exact exists_congr fun u => (this u).symm
  cases wordStep h hr with
  | same h e => exact keep h (by rw [e])
  | contend h e => exact keep h (by rw [e]; rfl)
  | clear w k q e e' q' =>
    exact keep (by rw [q, q']; simp [Owns]; exact not_owns_unlockNext k) (by rw [e]; rfl)
  | acq h h' l e =>
    have none : ∀ u, ¬ Owns (s.pc u) := fun u hu => by
      have := hi.locked.2 ⟨u, hu⟩; rw [l] at this; cases this
    have only : ∀ u, Owns (s'.pc u) → u = t := fun u hu => by
      by_cases e : u = t
      · exact e
      · exact absurd ((ho u e).1 hu) (none u)
    exact ⟨fun a b ha hb => (only a ha).trans (only b hb).symm, by rw [e]; simp [Word.lock]; exact ⟨t, h'⟩⟩
  | rel h h' e =>
    have none : ∀ u, ¬ Owns (s'.pc u) := fun u hu => by
      by_cases e : u = t
      · subst e; exact h' hu
      · exact e (hi.unique u t ((ho u e).1 hu) h)
    refine ⟨fun a b ha => absurd ha (none a), ?_⟩
    rw [e]; simp [Word.unlock]; exact none

theorem Mutex.start (val : C → V) : Mutex (State.start T val) :=
  ⟨fun t u h => h.elim, by simp [State.start, Owns]⟩

/-- The condition variable for which the thread is counted in `m_waiter_count`. -/
def regOf : PC C V → Option C
  | .waitInc _ => none
  | q => (waitOf q).map (·.c)

theorem regOf_woken (x : Sleep C V) (r : Res) : regOf (x.woken r) = regOf (.asleepM x) := by
  rcases x with (_ | _ | _) | _ <;> rfl

theorem regOf_other {s s' : State T C V} {t u : T} (h : Step cfg s t s') (hu : u ≠ t) :
    regOf (s'.pc u) = regOf (s.pc u) := by
  rcases step_other h hu with h | ⟨x, w, k, e, e', -⟩ | ⟨w, a, e, e', -⟩
  · rw [h]
  · rw [e, e']; exact regOf_woken ..
  · rw [e, e']; rfl

/-- `m_waiter_count` counts the threads inside waiting functions. -/
def Counted (s : State T C V) : Prop :=
  ∀ c, ∃ l : List T, l.Nodup ∧ l.length = s.wc c ∧ ∀ t, t ∈ l ↔ regOf (s.pc t) = some c

theorem Counted.step {s s' : State T C V} {t : T} (hi : Counted s) (h : Step cfg s t s') :
    Counted s' := by
  have keep : regOf (s'.pc t) = regOf (s.pc t) → s'.wc = s.wc → Counted s' := by
    intro h1 h2 c
    obtain ⟨l, hn, hl, hm⟩ := hi c
    refine ⟨l, hn, by rw [h2]; exact hl, fun u => ?_⟩
    rw [hm u]
    by_cases hu : u = t
    · subst hu; rw [h1]
    · rw [regOf_other h hu]
  have hoth := fun u => regOf_other (u := u) h
  cases h with
  | @waitInc w h1 =>
    intro c
    obtain ⟨l, hn, hl, hm⟩ := hi c
    simp only [goto_wc]
    by_cases hc : c = w.c
    · subst hc
      have hnt : t ∉ l := by rw [hm, h1]; simp [regOf]
      refine ⟨t :: l, List.nodup_cons.2 ⟨hnt, hn⟩, by simp [hl], fun u => ?_⟩
      by_cases hu : u = t
      · subst hu; simp [regOf, waitOf]
      · rw [hoth u hu, ← hm u]; simp [hu]
    · refine ⟨l, hn, by simp [upd, hc, hl], fun u => ?_⟩
      by_cases hu : u = t
      · subst hu; rw [hm, h1]; simp [regOf, waitOf]; exact fun h => hc h.symm
      · rw [hoth u hu, ← hm u]
  | @waitDec w h1 =>
    intro c
    obtain ⟨l, hn, hl, hm⟩ := hi c
    simp only [goto_wc]
    by_cases hc : c = w.c
    · subst hc
      have hnt : t ∈ l := by rw [hm, h1]; simp [regOf, waitOf]
      refine ⟨l.erase t, hn.erase t, by simp [hl, List.length_erase_of_mem hnt], fun u => ?_⟩
      rw [hn.mem_erase_iff]
      by_cases hu : u = t
      · subst hu; simp [regOf, waitOf]
      · rw [hoth u hu, ← hm u]; simp [hu]
    · refine ⟨l, hn, by simp [upd, hc, hl], fun u => ?_⟩
      by_cases hu : u = t
      · subst hu; rw [hm, h1]; simp [regOf, waitOf]; exact fun h => hc h.symm
      · rw [hoth u hu, ← hm u]
  | store => exact keep rfl rfl
  | @spinOk _ _ k h1 | @slowLock _ k h1 => exact keep (by simp [h1]; cases k <;> rfl) (by simp)
  | @spinLoad _ k h1 | @spinBusy _ k h1 | @spinFail _ _ k h1 | @spinEnd k h1 | @slowLoad k h1
  | @slowContend _ k h1 | @slowFail _ k h1 | @slowSleep _ k h1 | @slowNoSleep _ k h1 =>
    exact keep (by simp [h1]; cases k <;> rfl) (by simp)
  | @ulLoad k h1 | @ulFail _ k h1 | @ulWakeNone _ k h1 | @ulWakeOne _ k _ _ h1
  | @ulClearOk _ k h1 | @ulClearFail _ k h1 => exact keep (by simp [h1]; cases k <;> rfl) (by simp)
  | @ulOk w k h1 => exact keep (by simp [h1]; split <;> cases k <;> rfl) (by simp)
  | @wakeM x r h1 => exact keep (by simp [h1]; exact regOf_woken ..) (by simp)
  | _ => exact keep (by simp [*, regOf, waitOf]) (by simp)

theorem Counted.start (val : C → V) : Counted (State.start T val) :=
  fun c => ⟨[], by simp, rfl, by simp [State.start, regOf, waitOf]⟩

/-- How a step changes the waiting function of the thread that makes it. -/
theorem waitOf_self {s s' : State T C V} {t : T} (h : Step cfg s t s') :
    waitOf (s'.pc t) = waitOf (s.pc t) ∨ waitOf (s'.pc t) = none ∨
    ∃ c old m, s.pc t = .waitRead c old m ∧ waitOf (s'.pc t) = some ⟨c, s.cond c, old, m⟩ ∧
      s'.cond = s.cond := by
  cases h with
  | store => exact .inl rfl
  | @spinOk _ _ k h1 | @slowLock _ k h1 => left; simp [h1]; cases k <;> rfl
  | @spinLoad _ k h1 | @spinBusy _ k h1 | @spinFail _ _ k h1 | @spinEnd k h1 | @slowLoad k h1
  | @slowContend _ k h1 | @slowFail _ k h1 | @slowSleep _ k h1 | @slowNoSleep _ k h1 =>
    left; simp [h1]; cases k <;> rfl
  | @ulLoad k h1 | @ulFail _ k h1 | @ulWakeNone _ k h1 | @ulWakeOne _ k _ _ h1
  | @ulClearOk _ k h1 | @ulClearFail _ k h1 => left; simp [h1]; cases k <;> rfl
  | @ulOk w k h1 => left; simp [h1]; split <;> cases k <;> rfl
  | @wakeM x r h1 => left; simp [h1]; exact waitOf_woken ..
  | @waitRead c old m h1 => exact .inr (.inr ⟨c, old, m, h1, by simp [waitOf], by simp⟩)
  | @waitDec w h1 => right; left; simp [waitOf]
  | _ => left; simp [*, waitOf]

/-- Notification counters only grow. -/
theorem cond_mono {s s' : State T C V} {t : T} (h : Step cfg s t s') (c : C) :
    s.cond c ≤ s'.cond c ∧ (s.cond c < s'.cond c → ∃ all, s.pc t = .ntInc all c ∧ s'.pc t = .ntTest all c) := by
  cases h with
  | store => exact ⟨Nat.le_refl _, fun h => absurd h (Nat.lt_irrefl _)⟩
  | @ntInc all c' h1 =>
    by_cases hc : c = c'
    · subst hc; simp [upd]; exact h1
    · simp [upd, hc]
  | _ => simp

/-- Invariants of the notification counters. -/
structure Conds (s : State T C V) : Prop where
  /-- remembered values are not newer than the counter -/
  le : ∀ t w, waitOf (s.pc t) = some w → w.p ≤ s.cond w.c
  /-- after the increment of a notification all remembered values are old -/
  nt : ∀ t all c, s.pc t = .ntTest all c ∨ s.pc t = .ntRequeue all c →
    ∀ u w, waitOf (s.pc u) = some w → w.c = c → w.p < s.cond c
  /-- threads that were moved to the mutex remember old values -/
  moved : ∀ t w, s.pc t = .asleepM (.cond w) → w.p < s.cond w.c

theorem Conds.step {s s' : State T C V} {t : T} (hi : Conds s) (hm : Mutex s) (h : Step cfg s t s') :
    Conds s' := by
  have hmono := cond_mono h
  have hw := waitOf_self h
  have hoth := fun u => waitOf_other (u := u) h
  have le' : ∀ u w, waitOf (s'.pc u) = some w → w.p ≤ s'.cond w.c := by
    intro u w hu
    by_cases e : u = t
    · subst e
      rcases hw with hw | hw | ⟨c, old, m, -, hw, hc⟩
      · exact Nat.le_trans (hi.le u w (hw ▸ hu)) (hmono w.c).1
      · rw [hw] at hu; cases hu
      · rw [hw] at hu; cases hu; simp [hc]
    · rw [hoth u e] at hu
      exact Nat.le_trans (hi.le u w hu) (hmono w.c).1
  have nt' : ∀ v all c, s'.pc v = .ntTest all c ∨ s'.pc v = .ntRequeue all c →
      ∀ u w, waitOf (s'.pc u) = some w → w.c = c → w.p < s'.cond c := by
    intro v all c hv u w hu hc
    by_cases hinc : s.pc v = .ntInc all c ∧ v = t
    · obtain ⟨h1, rfl⟩ := hinc
      have hlt : s.cond c < s'.cond c := by
        cases h <;> simp_all [upd]
      by_cases hne : u = v
      · subst hne; rcases hv with hv | hv <;> rw [hv] at hu <;> simp [waitOf] at hu
      · rw [hoth u hne] at hu
        exact Nat.lt_of_le_of_lt (hc ▸ hi.le u w hu) hlt
    · have hv' : s.pc v = .ntTest all c ∨ s.pc v = .ntRequeue all c := by
        by_cases hvt : v = t
        · subst hvt
          cases h with
          | store => exact hv
          | @spinOk _ _ k | @slowLock _ k => simp at hv; cases k <;> simp [LockFor.next] at hv
          | @ulWakeOne _ k | @ulClearOk _ k | @ulClearFail _ k =>
            simp at hv; cases k <;> simp [UnlockFor.next] at hv
          | @ulOk w k => simp at hv; split at hv <;> cases k <;> simp [UnlockFor.next] at hv
          | @wakeM x => simp at hv; cases x <;> simp [Sleep.woken] at hv
          | @ntInc all' c' h1 => simp at hv; exact absurd ⟨by rw [h1, hv.1, hv.2], rfl⟩ hinc
          | @ntTest all' c' h1 => simp at hv; rw [h1, hv.1, hv.2]; exact .inl rfl
          | _ => simp at hv
        · rcases step_other h hvt with e | ⟨x, _, _, _, e, _⟩ | ⟨_, _, _, e, _⟩
          · rwa [e] at hv
          · rw [e] at hv; cases x <;> simp [Sleep.woken] at hv
          · rw [e] at hv; simp at hv
      have how : Owns (s.pc v) := by rcases hv' with e | e <;> rw [e] <;> exact trivial
      by_cases hne : u = t
      · subst hne
        rcases hw with hw | hw | ⟨c', old, m, h1, hw, hc'⟩
        · exact Nat.lt_of_lt_of_le (hi.nt v all c hv' u w (hw ▸ hu) hc) (hmono c).1
        · rw [hw] at hu; cases hu
        · have := hm.unique v u how (by rw [h1]; exact trivial)
          subst this
          rw [h1] at hv'; rcases hv' with e | e <;> cases e
      · rw [hoth u hne] at hu
        exact Nat.lt_of_lt_of_le (hi.nt v all c hv' u w hu hc) (hmono c).1
  refine ⟨le', nt', ?_⟩
  intro u w hu
  by_cases hne : u = t
  · subst hne
    have old : s.pc u = .asleepM (.cond w) := by
      cases h with
      | store => exact hu
      | @spinOk _ _ k | @slowLock _ k => simp at hu; cases k <;> simp [LockFor.next] at hu
      | @ulWakeOne _ k | @ulClearOk _ k | @ulClearFail _ k =>
        simp at hu; cases k <;> simp [UnlockFor.next] at hu
      | @ulOk w k => simp at hu; split at hu <;> cases k <;> simp [UnlockFor.next] at hu
      | @wakeM x => simp at hu; cases x <;> simp [Sleep.woken] at hu
      | _ => simp at hu
    exact Nat.lt_of_lt_of_le (hi.moved u w old) (hmono w.c).1
  · rcases step_other h hne with e | ⟨x, _, _, _, e, _⟩ | ⟨w', a, e0, e, e1, _⟩
    · exact Nat.lt_of_lt_of_le (hi.moved u w (e ▸ hu)) (hmono w.c).1
    · rw [e] at hu; cases x <;> simp [Sleep.woken] at hu
    · rw [e] at hu; cases hu
      exact Nat.lt_of_lt_of_le (hi.nt t a w.c (.inr e1) u w (by rw [e0]; rfl) rfl) (hmono w.c).1

theorem Conds.start (val : C → V) : Conds (State.start T val) :=
  ⟨by simp [State.start, waitOf], by simp [State.start], by simp [State.start]⟩

/-- The number of releases only grows, and grows when the lock becomes free. -/
theorem n_mono {s s' : State T C V} {t : T} (h : Step cfg s t s') (hr : Remembers (s.pc t)) :
    s.m.n ≤ s'.m.n ∧ (s.m.locked = true → s'.m.locked = false → s.m.n < s'.m.n) := by
  cases wordStep h hr with
  | same h e => rw [e]; exact ⟨Nat.le_refl _, by simp_all⟩
  | contend h e => rw [e]; exact ⟨Nat.le_refl _, by simp_all [Word.contend]⟩
  | clear w k q e => rw [e]; exact ⟨Nat.le_refl _, by simp_all [Word.clear]⟩
  | acq h h' l e => rw [e]; exact ⟨Nat.le_refl _, by simp_all [Word.lock]⟩
  | rel h h' e => rw [e]; exact ⟨Nat.le_succ _, by simp [Word.unlock]⟩

/-- A thread falls asleep on the mutex futex only while the lock is held. -/
theorem new_sleeper {s s' : State T C V} {t u : T} {x} (h : Step cfg s t s') (hm : Mutex s)
    (hr : Remembers (s.pc t)) (hu : s'.pc u = .asleepM x) :
    s.pc u = .asleepM x ∨ (s.m.locked = true ∧ s'.m.locked = true) := by
  by_cases hne : u = t
  · subst hne
    cases h with
    | store => exact .inl hu
    | @spinOk _ _ k | @slowLock _ k => simp at hu; cases k <;> simp [LockFor.next] at hu
    | @ulWakeOne _ k | @ulClearOk _ k | @ulClearFail _ k =>
      simp at hu; cases k <;> simp [UnlockFor.next] at hu
    | @ulOk w k => simp at hu; split at hu <;> cases k <;> simp [UnlockFor.next] at hu
    | @wakeM x => simp at hu; cases x <;> simp [Sleep.woken] at hu
    | @slowSleep w k h1 h2 =>
      rw [h1] at hr
      exact .inr ⟨h2.1.trans hr.1, h2.1.trans hr.1⟩
    | _ => simp at hu
  · rcases step_other h hne with e | ⟨x, _, _, _, e, _⟩ | ⟨w', a, e0, e, e1, e2⟩
    · exact .inl (e ▸ hu)
    · rw [e] at hu; cases x <;> simp [Sleep.woken] at hu
    · have h1 := hm.locked.2 ⟨t, by rw [e1]; exact trivial⟩
      have h2 := wordStep h hr
      refine .inr ⟨h1, ?_⟩
      cases h2 with
      | same h e => rw [e]; exact h1
      | contend h e => rw [e]; exact h1
      | clear w k q => rw [e1] at q; cases q
      | acq h => exact absurd (by rw [e1]; exact trivial) h
      | rel h h' => exact absurd (by rw [e2]; exact trivial) h'

/-- Invariant of a thread that has released the lock and is going to wake a sleeper or to clear the
contended bit. -/
structure Clearing (s : State T C V) : Prop where
  wake : ∀ t w k, s.pc t = .ulWake w k → w.locked = false ∧ w.n ≤ s.m.n
  clear : ∀ t w k, s.pc t = .ulClear w k → w.locked = false ∧ w.n ≤ s.m.n ∧
    (w.n = s.m.n → s.m.locked = false → ∀ u x, s.pc u ≠ .asleepM x)

theorem Clearing.step {s s' : State T C V} {t : T} (hi : Clearing s) (hm : Mutex s)
    (hr : ∀ u, Remembers (s.pc u)) (h : Step cfg s t s') : Clearing s' := by
  have hn := n_mono h (hr t)
  have hs := fun u x => new_sleeper (u := u) (x := x) h hm (hr t)
  constructor
  · intro u w k hu
    by_cases hne : u = t
    · subst hne
      cases h with
      | store => exact hi.wake u w k hu
      | @spinOk _ _ k | @slowLock _ k => simp at hu; cases k <;> simp [LockFor.next] at hu
      | @ulWakeOne _ k | @ulClearOk _ k | @ulClearFail _ k =>
        simp at hu; cases k <;> simp [UnlockFor.next] at hu
      | @ulOk w k =>
        simp at hu; split at hu
        · cases hu; simp [Word.unlock]
        · cases k <;> simp [UnlockFor.next] at hu
      | @wakeM x => simp at hu; cases x <;> simp [Sleep.woken] at hu
      | _ => simp at hu
    · rcases step_other h hne with e | ⟨x, _, _, _, e, _⟩ | ⟨w', a, e0, e, e1, e2⟩
      · have := hi.wake u w k (e ▸ hu); exact ⟨this.1, by omega⟩
      · rw [e] at hu; cases x <;> simp [Sleep.woken] at hu
      · rw [e] at hu; cases hu
  · intro u w k hu
    have keep : s.pc u = .ulClear w k → w.locked = false ∧ w.n ≤ s'.m.n ∧
        (w.n = s'.m.n → s'.m.locked = false → ∀ u x, s'.pc u ≠ .asleepM x) := by
      intro hu
      have h1 := hi.clear u w k hu
      refine ⟨h1.1, by omega, ?_⟩
      intro h2 h3 v x hv
      cases hl : s.m.locked with
      | true => have := hn.2 hl h3; omega
      | false =>
        rcases hs v x hv with h4 | h4
        · exact h1.2.2 (by omega) hl v x h4
        · rw [hl] at h4; cases h4.1
    by_cases hne : u = t
    · subst hne
      cases h with
      | store => exact keep hu
      | @spinOk _ _ k | @slowLock _ k => simp at hu; cases k <;> simp [LockFor.next] at hu
      | @ulWakeOne _ k | @ulClearOk _ k | @ulClearFail _ k =>
        simp at hu; cases k <;> simp [UnlockFor.next] at hu
      | @ulOk w k =>
        simp at hu; split at hu <;> cases k <;> simp [UnlockFor.next] at hu
      | @wakeM x => simp at hu; cases x <;> simp [Sleep.woken] at hu
      | @ulWakeNone w' k' h1 h2 =>
        simp at hu
        obtain ⟨rfl, rfl⟩ := hu
        have := hi.wake u w' k' h1
        refine ⟨this.1, this.2, fun _ _ v x hv => ?_⟩
        by_cases hvu : v = u
        · subst hvu; simp at hv
        · rw [State.goto] at hv; simp only [upd_other _ _ hvu] at hv; exact h2 v x hv
      | _ => simp at hu
    · rcases step_other h hne with e | ⟨x, _, _, _, e, _⟩ | ⟨w', a, e0, e, e1, e2⟩
      · exact keep (e ▸ hu)
      · rw [e] at hu; cases x <;> simp [Sleep.woken] at hu
      · rw [e] at hu; cases hu

theorem Clearing.start (val : C → V) : Clearing (State.start T val) :=
  ⟨by simp [State.start], by simp [State.start]⟩

/-- No lost wake-up. -/
def NoLost (s : State T C V) : Prop :=
  (∃ u, BlockedOnLock (s.pc u)) →
    (s.m.contended = true ∨ ∃ t all c, s.pc t = .ntOr all c) ∧
    (s.m.locked = true ∨ ∃ t, Committed s t)

theorem mod_ne {a b M : Nat} (h1 : a < b) (h2 : b < a + M) : b % M ≠ a % M := by
  intro h
  have := Nat.sub_mod_eq_zero_of_mod_eq h
  rw [Nat.mod_eq_of_lt (by omega)] at this
  omega

/-- A committed thread stays committed, or takes the lock, or wakes another thread which then is. -/
theorem committed_step {s s' : State T C V} {t v : T} (hc : Conds s) (hf : Fresh cfg s)
    (hr : ∀ u, Remembers (s.pc u)) (h : Step cfg s t s') (hv : Committed s v) :
    s'.m.locked = true ∨ (∃ t, Committed s' t) ∨ (∀ u, ¬ BlockedOnLock (s'.pc u)) := by
  have hmono := cond_mono h
  by_cases hvt : v = t
  · subst hvt
    rcases hv with ⟨w, k, hv⟩ | hv | ⟨w, r, hv, hlt⟩
    · cases h with
      | store _ _ h => rcases h with h | h <;> rw [hv] at h <;> cases h
      | @ulWakeOne w' k' u x h1 h2 =>
        have hne : u ≠ v := by rintro rfl; rw [h1] at h2; cases h2
        refine .inr (.inl ⟨u, ?_⟩)
        rcases x with k'' | w''
        · exact .inr (.inl (by simp [State.goto, upd, hne, Sleep.woken, Acquiring]))
        · exact .inr (.inr ⟨w'', .ok, by simp [State.goto, upd, hne, Sleep.woken],
            hc.moved u w'' h2⟩)
      | @ulWakeNone w' k' h1 h2 =>
        refine .inr (.inr fun u ⟨x, hx⟩ => ?_)
        by_cases hu : u = v
        · subst hu; simp at hx
        · rw [State.goto] at hx; simp only [upd_other _ _ hu] at hx; exact h2 u x hx
      | _ => simp_all
    · cases h with
      | store _ _ h => rcases h with h | h <;> rw [h] at hv <;> cases hv
      | spinOk | slowLock => exact .inl rfl
      | slowSleep h1 h2 =>
        have := hr v; rw [h1] at this
        exact .inl (h2.1.trans this.1)
      | _ =>
        first
        | (exfalso; simp_all [Acquiring]; done)
        | (refine .inr (.inl ⟨v, .inr (.inl ?_)⟩); simp [Acquiring]; done)
    · cases h with
      | store _ _ h => rcases h with h | h <;> rw [hv] at h <;> cases h
      | condLeave | condChanged => exact .inr (.inl ⟨v, .inr (.inl (by simp [Acquiring]))⟩)
      | @condLoop w' r' h1 h2 h3 =>
        rw [hv] at h1; cases h1
        exact absurd h3 (mod_ne hlt (hf.2 v w (by rw [hv]; rfl)))
      | _ => simp_all
  · have keep : s'.pc v = s.pc v := by
      rcases step_other h hvt with e | ⟨x, _, _, e, _⟩ | ⟨w', a, e, _⟩
      · exact e
      · rcases hv with ⟨w, k, hv⟩ | hv | ⟨w, r, hv, hlt⟩
        · rw [hv] at e; cases e
        · rw [e] at hv; cases hv
        · rw [hv] at e; cases e
      · rcases hv with ⟨w, k, hv⟩ | hv | ⟨w, r, hv, hlt⟩
        · rw [hv] at e; cases e
        · rw [e] at hv; cases hv
        · rw [hv] at e; cases e
    refine .inr (.inl ⟨v, ?_⟩)
    rcases hv with ⟨w, k, hv⟩ | hv | ⟨w, r, hv, hlt⟩
    · exact .inl ⟨w, k, keep.trans hv⟩
    · exact .inr (.inl (by rw [keep]; exact hv))
    · exact .inr (.inr ⟨w, r, keep.trans hv, Nat.lt_of_lt_of_le hlt (hmono w.c).1⟩)

theorem NoLost.step {s s' : State T C V} {t : T} (hi : NoLost s) (hm : Mutex s) (hcl : Clearing s)
    (hc : Conds s) (hf : Fresh cfg s) (hr : ∀ u, Remembers (s.pc u)) (h : Step cfg s t s') :
    NoLost s' := by
  rintro ⟨u, x, hx⟩
  have hw := wordStep h (hr t)
  have hns := new_sleeper h hm (hr t) hx
  -- the contended bit
  have hcont : (s.m.contended = true ∨ ∃ t all c, s.pc t = .ntOr all c) →
      (s'.m.contended = true ∨ ∃ t all c, s'.pc t = .ntOr all c) := by
    intro hold
    have keepOr : ∀ v all c, s.pc v = .ntOr all c → v ≠ t → s'.pc v = .ntOr all c := by
      intro v all c hv hvt
      rcases step_other h hvt with e | ⟨x, _, _, e, _⟩ | ⟨w', a, e, _⟩
      · rw [e, hv]
      · rw [hv] at e; cases e
      · rw [hv] at e; cases e
    have byT : ∀ all c, s.pc t = .ntOr all c → s'.m.contended = true := by
      intro all c ht
      cases h with
      | store _ _ h => rcases h with h | h <;> rw [ht] at h <;> cases h
      | ntOr => rfl
      | _ => simp_all
    rcases hold with hold | ⟨v, all, c, hv⟩
    · cases hw with
      | same h e => rw [e]; exact .inl hold
      | contend h e => rw [e]; exact .inl rfl
      | acq h h' l e => rw [e]; exact .inl hold
      | rel h h' e => rw [e]; exact .inl hold
      | clear w k q e e' q' =>
        exfalso
        obtain ⟨h1, h2, h3⟩ := hcl.clear t w k q
        have hneq : w.n = s.m.n := by
          rcases Nat.lt_or_ge w.n s.m.n with hlt | hge
          · exact absurd e'.2.2 (mod_ne hlt (hf.1 t w k q))
          · omega
        have hl : s.m.locked = false := e'.1.trans h1
        rcases hns with hns | hns
        · exact h3 hneq hl u x hns
        · rw [hl] at hns; cases hns.1
    · by_cases hvt : v = t
      · subst hvt; exact .inl (byT all c hv)
      · exact .inr ⟨v, all, c, keepOr v all c hv hvt⟩
  have hbl : BlockedOnLock (s'.pc u) := ⟨x, hx⟩
  rcases hns with hns | hns
  · obtain ⟨h1, h2⟩ := hi ⟨u, x, hns⟩
    refine ⟨hcont h1, ?_⟩
    rcases h2 with h2 | ⟨v, hv⟩
    · cases hw with
      | same h e => rw [e]; exact .inl h2
      | contend h e => rw [e]; exact .inl h2
      | acq h h' l e => rw [e]; exact .inl rfl
      | clear w k q e => rw [e]; exact .inl h2
      | rel h h' e k w q0 q =>
        rcases q with ⟨q, -⟩ | ⟨-, q⟩
        · exact .inr ⟨t, .inl ⟨_, _, q⟩⟩
        · exfalso
          rw [q] at h1
          rcases h1 with h1 | ⟨v, all, c, hv⟩
          · cases h1
          · have := hm.unique v t (by rw [hv]; exact trivial) h
            subst this; rw [hv] at q0; cases q0
    · rcases committed_step hc hf hr h hv with h3 | h3 | h3
      · exact .inl h3
      · exact .inr h3
      · exact absurd hbl (h3 u)
  · refine ⟨?_, .inl hns.2⟩
    -- a new sleeper: either it just called futex_wait with the contended word, or it was requeued
    by_cases hu : s.pc u = .asleepM x
    · exact hcont (hi ⟨u, x, hu⟩).1
    · by_cases hne : u = t
      · subst hne
        have := hr u
        cases h with
        | store => exact absurd hx hu
        | @spinOk _ _ k | @slowLock _ k => simp at hx; cases k <;> simp [LockFor.next] at hx
        | @ulWakeOne _ k | @ulClearOk _ k | @ulClearFail _ k =>
          simp at hx; cases k <;> simp [UnlockFor.next] at hx
        | @ulOk w k => simp at hx; split at hx <;> cases k <;> simp [UnlockFor.next] at hx
        | @wakeM x => simp at hx; cases x <;> simp [Sleep.woken] at hx
        | @slowSleep w k h1 h2 => rw [h1] at this; exact .inl (h2.2.1.trans this.2)
        | _ => simp at hx
      · rcases step_other h hne with e | ⟨x', _, _, _, e, _⟩ | ⟨w', a, e0, e, e1, e2⟩
        · exact absurd (e ▸ hx) hu
        · rw [e] at hx; cases x' <;> simp [Sleep.woken] at hx
        · exact .inr ⟨t, a, _, e2⟩

theorem NoLost.start (val : C → V) : NoLost (State.start T val) := by
  rintro ⟨u, x, hx⟩; cases hx

/-- All invariants that hold without any assumption. -/
structure Basic (s : State T C V) : Prop where
  rem : ∀ u, Remembers (s.pc u)
  mutex : Mutex s
  counted : Counted s
  conds : Conds s
  clearing : Clearing s

theorem Basic.step {s s' : State T C V} {t : T} (hi : Basic s) (h : Step cfg s t s') : Basic s' :=
  ⟨step_remembers h hi.rem, hi.mutex.step h (hi.rem t), hi.counted.step h, hi.conds.step hi.mutex h,
    hi.clearing.step hi.mutex hi.rem h⟩

theorem Basic.start (val : C → V) : Basic (State.start T val) :=
  ⟨fun _ => trivial, .start val, .start val, .start val, .start val⟩

theorem Exec.basic {n} (x : Exec T C V cfg n) {i : Nat} (hi : i ≤ n) : Basic (x.st i) := by
  induction i with
  | zero => rw [x.start]; exact Basic.start _
  | succ i ih =>
    obtain ⟨t, h⟩ := x.step i (by omega)
    exact (ih (by omega)).step h

theorem Exec.noLost {n} (x : Exec T C V cfg n) {i : Nat} (hi : i ≤ n)
    (hf : ∀ j < i, Fresh cfg (x.st j)) : NoLost (x.st i) := by
  induction i with
  | zero => rw [x.start]; exact NoLost.start _
  | succ i ih =>
    obtain ⟨t, h⟩ := x.step i (by omega)
    have hb := x.basic (i := i) (by omega)
    exact (ih (by omega) (fun j hj => hf j (by omega))).step hb.mutex hb.clearing hb.conds
      (hf i (by omega)) hb.rem h

end Verif.Futex
