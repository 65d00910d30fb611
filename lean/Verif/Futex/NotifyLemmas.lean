import Verif.Futex.Lemmas

set_option linter.unusedSectionVars false

namespace Verif.Futex

open Verif (upd upd_same upd_other)

variable {T C V : Type} [DecidableEq T] [DecidableEq C] {cfg : Cfg}

/-- A thread falls asleep on a condition variable only by the kernel's comparison. -/
theorem new_condSleeper {s s' : State T C V} {t u : T} {w} (h : Step cfg s t s')
    (hu : s'.pc u = .asleepC w) :
    s.pc u = .asleepC w ∨ (u = t ∧ s.pc u = .condWait w ∧ s.cond w.c % cfg.condMod = w.p % cfg.condMod) := by
  by_cases hne : u = t
  · subst hne
    cases h with
    | store => exact .inl hu
    | @spinOk _ _ k | @slowLock _ k => simp at hu; cases k <;> simp [LockFor.next] at hu
    | @ulWakeOne _ k | @ulClearOk _ k | @ulClearFail _ k =>
      simp at hu; cases k <;> simp [UnlockFor.next] at hu
    | @ulOk w k => simp at hu; split at hu <;> cases k <;> simp [UnlockFor.next] at hu
    | @wakeM x => simp at hu; cases x <;> simp [Sleep.woken] at hu
    | @condSleep w' h1 h2 => simp at hu; subst hu; exact .inr ⟨rfl, h1, h2⟩
    | _ => simp at hu
  · rcases step_other h hne with e | ⟨x, _, _, _, e, _⟩ | ⟨w', a, e0, e, e1, e2⟩
    · exact .inl (e ▸ hu)
    · rw [e] at hu; cases x <;> simp [Sleep.woken] at hu
    · rw [e] at hu; cases hu

/-- A thread whose remembered value is old does not fall asleep. -/
theorem never_sleep {s s' : State T C V} {t u : T} {w} (hf : Fresh cfg s) (h : Step cfg s t s')
    (hw : waitOf (s.pc u) = some w) (hlt : w.p < s.cond w.c) (hns : s.pc u ≠ .asleepC w) :
    s'.pc u ≠ .asleepC w := by
  intro hu
  rcases new_condSleeper h hu with h1 | ⟨-, -, h1⟩
  · exact hns h1
  · exact mod_ne hlt (hf.2 u w hw) h1

/-- The steps of a notification. -/
theorem nt_step {s s' : State T C V} {t N : T} {all c} (h : Step cfg s t s')
    (hN : s.pc N = .ntInc all c ∨ s.pc N = .ntTest all c ∨ s.pc N = .ntRequeue all c) :
    (N ≠ t ∧ s'.pc N = s.pc N) ∨
    (N = t ∧ s.pc N = .ntInc all c ∧ s'.pc N = .ntTest all c ∧ s'.cond c = s.cond c + 1 ∧
      ∀ u, u ≠ N → s'.pc u = s.pc u) ∨
    (N = t ∧ s.pc N = .ntTest all c ∧ s'.pc N = .ntRequeue all c ∧ s'.cond = s.cond ∧
      ∀ u, u ≠ N → s'.pc u = s.pc u) ∨
    (N = t ∧ s.pc N = .ntTest all c ∧ s'.pc N = .hold ∧ s.wc c = 0 ∧ s'.cond = s.cond ∧
      ∀ u, u ≠ N → s'.pc u = s.pc u) ∨
    (N = t ∧ s.pc N = .ntRequeue all c ∧ s'.pc N = .ntOr all c ∧ s'.cond = s.cond ∧
      (∀ u w, s'.pc u = .asleepC w → w.c = c → all = false ∧ ∃ v w', s.pc v = .asleepC w' ∧ w'.c = c ∧ v ≠ u ∧
        s'.pc v = .asleepM (.cond w'))) := by
  by_cases hne : N = t
  · right
    subst hne
    cases h with
    | @ntInc all' c' h1 =>
      rw [h1] at hN; simp at hN; obtain ⟨rfl, rfl⟩ := hN
      exact .inl ⟨rfl, h1, by simp, by simp, fun u hu => by simp [State.goto, upd, hu]⟩
    | @ntTest all' c' h1 =>
      rw [h1] at hN; simp at hN; obtain ⟨rfl, rfl⟩ := hN
      exact .inr (.inl ⟨rfl, h1, by simp, by simp, fun u hu => by simp [State.goto, upd, hu]⟩)
    | @ntSkip all' c' h1 h2 =>
      rw [h1] at hN; simp at hN; obtain ⟨rfl, rfl⟩ := hN
      exact .inr (.inr (.inl ⟨rfl, h1, by simp, h2, by simp, fun u hu => by simp [State.goto, upd, hu]⟩))
    | @ntAll c' mv _ h1 h2 =>
      rw [h1] at hN; simp at hN; obtain ⟨rfl, rfl⟩ := hN
      refine .inr (.inr (.inr ⟨rfl, h1, by simp, by simp, fun u w hu hc => ?_⟩))
      exfalso
      by_cases huN : u = N
      · subst huN; simp at hu
      · simp only [State.goto, upd_other _ _ huN, requeue] at hu
        cases hp : s.pc u <;> simp [hp] at hu
        rename_i w'
        by_cases hm : mv u
        · simp [hm] at hu
        · simp [hm] at hu; subst hu; exact hm ((h2 u).2 ⟨_, hp, hc⟩)
    | @ntOne c' v h1 h2 =>
      rw [h1] at hN; simp at hN; obtain ⟨rfl, rfl⟩ := hN
      refine .inr (.inr (.inr ⟨rfl, h1, by simp, by simp, fun u w hu hc => ⟨rfl, ?_⟩⟩))
      obtain ⟨w', hw', hc'⟩ := h2
      have hvN : v ≠ N := by rintro rfl; rw [h1] at hw'; cases hw'
      have huN : u ≠ N := by rintro rfl; simp at hu
      refine ⟨v, w', hw', hc', ?_, ?_⟩
      · rintro rfl
        simp [State.goto, upd, huN, requeue, hw'] at hu
      · simp [State.goto, upd, hvN, requeue, hw']
    | @ntNone c' h1 h2 =>
      rw [h1] at hN; simp at hN; obtain ⟨rfl, rfl⟩ := hN
      refine .inr (.inr (.inr ⟨rfl, h1, by simp, by simp, fun u w hu hc => ?_⟩))
      exfalso
      by_cases huN : u = N
      · subst huN; simp at hu
      · simp only [State.goto, upd_other _ _ huN] at hu
        exact h2 u ⟨w, hu, hc⟩
    | store _ _ h => rcases h with h | h <;> rw [h] at hN <;> simp at hN
    | ulWakeOne h1 => simp [h1] at hN
    | _ => exfalso; simp_all
  · left
    refine ⟨hne, ?_⟩
    rcases step_other h hne with e | ⟨x, _, _, e, _⟩ | ⟨w', a, e, _⟩
    · exact e
    · rw [e] at hN; simp at hN
    · rw [e] at hN; simp at hN

theorem waiter_counted {s : State T C V} (hb : Basic s) {t N : T} {w} (hN : Owns (s.pc N))
    (hN' : waitOf (s.pc N) = none) (hw : waitOf (s.pc t) = some w) : 0 < s.wc w.c := by
  obtain ⟨l, -, hl, hm⟩ := hb.counted w.c
  have : t ∈ l := by
    rw [hm]
    cases hp : s.pc t <;> simp only [hp, regOf] at hw ⊢ <;> try (rw [hw]; rfl)
    have := hb.mutex.unique t N (by rw [hp]; exact trivial) hN
    subst this
    rw [hp] at hN'; cases hN'
  rw [← hl]
  exact List.length_pos_of_mem this

/-- Without stale checks no thread carries one. -/
def HasStale : PC C V → Prop
  | .spin _ (.stale ..) | .spinCas _ _ (.stale ..) | .slowLoad (.stale ..) | .slow _ (.stale ..)
  | .slowWait _ (.stale ..) | .asleepM (.lock (.stale ..)) => True
  | _ => False

theorem noStale_step {s s' : State T C V} {t : T} (hcfg : cfg.staleCheck = false) (h : Step cfg s t s')
    (hi : ∀ u, ¬ HasStale (s.pc u)) : ∀ u, ¬ HasStale (s'.pc u) := by
  intro u
  by_cases hu : u = t
  · subst hu
    have hiu := hi u
    cases h with
    | store => exact hiu
    | enterStale _ _ h => rw [hcfg] at h; cases h
    | @spinOk _ _ k h1 | @slowLock _ k h1 => simp; cases k <;> exact id
    | @spinLoad _ k h1 | @spinBusy _ k h1 | @spinFail _ _ k h1 | @spinEnd k h1 | @slowLoad k h1
    | @slowContend _ k h1 | @slowFail _ k h1 | @slowSleep _ k h1 | @slowNoSleep _ k h1 =>
      rw [h1] at hiu; simp; cases k <;> simp_all [HasStale]
    | @ulWakeOne _ k | @ulClearOk _ k | @ulClearFail _ k => simp; cases k <;> simp [UnlockFor.next, HasStale]
    | @ulOk w k => simp; split <;> cases k <;> simp [UnlockFor.next, HasStale]
    | @wakeM x r h1 => rw [h1] at hiu; simp; rcases x with (_ | _ | _) | _ <;> simp_all [Sleep.woken, HasStale]
    | _ => simp [HasStale]
  · have := step_other_pres (P := HasStale) h hu
      (by intro x r; rcases x with (_ | _ | _) | _ <;> simp [HasStale, Sleep.woken])
      (by intro w; simp [HasStale])
    rw [this]; exact hi u

theorem Exec.noStale {n} (x : Exec T C V cfg n) (hcfg : cfg.staleCheck = false) {i : Nat} (hi : i ≤ n) :
    ∀ u, ¬ HasStale ((x.st i).pc u) := by
  induction i with
  | zero => rw [x.start]; intro u; exact id
  | succ i ih =>
    obtain ⟨t, h⟩ := x.step i (by omega)
    exact noStale_step hcfg h (ih (by omega))

/-- A thread arrives at `waitRead c old` only by comparing the object with `old` under the lock. -/
theorem new_waitRead {s s' : State T C V} {t u : T} {c old m} (h : Step cfg s t s')
    (hst : ¬ HasStale (s.pc u)) (hu : s'.pc u = .waitRead c old m) :
    s.pc u = .waitRead c old m ∨ s.val c = old := by
  by_cases hne : u = t
  · subst hne
    cases h with
    | store => exact .inl hu
    | @spinOk _ _ k h1 | @slowLock _ k h1 =>
      rw [h1] at hst; simp at hu; cases k <;> simp [LockFor.next, HasStale] at hu hst
    | @ulWakeOne _ k | @ulClearOk _ k | @ulClearFail _ k =>
      simp at hu; cases k <;> simp [UnlockFor.next] at hu
    | @ulOk w k => simp at hu; split at hu <;> cases k <;> simp [UnlockFor.next] at hu
    | @wakeM x => simp at hu; cases x <;> simp [Sleep.woken] at hu
    | @waitBegin c' m' h1 => simp at hu; obtain ⟨rfl, h, -⟩ := hu; exact .inr h
    | _ => simp at hu
  · rcases step_other h hne with e | ⟨x, _, _, _, e, _⟩ | ⟨w', a, e0, e, e1, e2⟩
    · exact .inl (e ▸ hu)
    · rw [e] at hu; cases x <;> simp [Sleep.woken] at hu
    · rw [e] at hu; cases hu

end Verif.Futex
