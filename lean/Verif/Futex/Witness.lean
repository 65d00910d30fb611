import Verif.Futex.Props

/-!
Concrete executions of the futex lock: the hypotheses of the theorems in `Futex/Props.lean` can be met, and the
excluded cases (counter wrap-around, stale comparison) really break the properties.
-/

set_option linter.unusedSectionVars false
set_option linter.unusedSimpArgs false

namespace Verif.Futex

open Verif (upd upd_same upd_other)

variable {T C V : Type} [DecidableEq T] [DecidableEq C] {cfg : Cfg} {P : (C → V) → Prop}

/-- `n` steps from `s` to `s'`; the objects satisfy `P` in all states. -/
inductive Run (cfg : Cfg) (P : (C → V) → Prop) : State T C V → Nat → State T C V → Prop where
  | nil {s} : P s.val → Run cfg P s 0 s
  | cons {s t s' n s''} : P s.val → Step cfg s t s' → Run cfg P s' n s'' → Run cfg P s (n + 1) s''

theorem Run.append {s s' s'' : State T C V} {n m} (h : Run cfg P s n s') (h' : Run cfg P s' m s'') :
    Run cfg P s (n + m) s'' := by
  induction h with
  | nil => rw [Nat.zero_add]; exact h'
  | @cons _ _ _ n _ hp hs _ ih =>
    rw [show n + 1 + m = (n + m) + 1 by omega]
    exact .cons hp hs (ih h')

theorem Run.snoc {s s' s'' : State T C V} {t n} (h : Run cfg P s n s') (h' : Step cfg s' t s'')
    (hp' : P s''.val) : Run cfg P s (n + 1) s'' := by
  have hp : P s'.val := by
    induction h with
    | nil h => exact h
    | cons _ _ _ ih => exact ih h'
  exact h.append (.cons hp h' (.nil hp'))

theorem Run.trace {s s' : State T C V} {n} (h : Run cfg P s n s') :
    ∃ f : Nat → State T C V, f 0 = s ∧ f n = s' ∧ (∀ i ≤ n, P (f i).val) ∧
      ∀ i < n, ∃ t, Step cfg (f i) t (f (i + 1)) := by
  induction h with
  | @nil s hp => exact ⟨fun _ => s, rfl, rfl, fun _ _ => hp, fun i h => absurd h (by omega)⟩
  | @cons s t s₁ n s₂ hp hs h ih =>
    obtain ⟨f, h0, hn, hP, hst⟩ := ih
    refine ⟨fun i => match i with | 0 => s | i + 1 => f i, rfl, hn, ?_, ?_⟩
    · intro i hi
      cases i with
      | zero => exact hp
      | succ i => exact hP i (by omega)
    · intro i hi
      cases i with
      | zero => refine ⟨t, ?_⟩; show Step cfg s t (f 0); rw [h0]; exact hs
      | succ i => exact hst i (by omega)

/-- Glue three runs to an execution. -/
theorem exec_of_runs {val : C → V} {s₁ s₂ s₃ : State T C V} {a b c : Nat}
    (h₁ : Run cfg (fun _ => True) (State.start T val) a s₁) (h₂ : Run cfg P s₁ b s₂) (h₃ : Run cfg P s₂ c s₃) :
    ∃ x : Exec T C V cfg (a + b + c), x.st a = s₁ ∧ x.st (a + b) = s₂ ∧ x.st (a + b + c) = s₃ ∧
      ∀ i, a ≤ i → i ≤ a + b + c → P (x.st i).val := by
  obtain ⟨f, f0, fa, -, fst⟩ := h₁.trace
  obtain ⟨f2, f20, f2n, f2P, f2st⟩ := h₂.trace
  obtain ⟨f3, f30, f3n, f3P, f3st⟩ := h₃.trace
  let st : Nat → State T C V := fun i => if i < a then f i else if i < a + b then f2 (i - a) else f3 (i - (a + b))
  have st1 : st a = s₁ := by
    simp only [st, Nat.lt_irrefl, if_false]
    split
    · simpa using f20
    · have : b = 0 := by omega
      subst this
      simp only [Nat.add_zero, Nat.sub_self]
      rw [f30, ← f2n, f20]
  have st2 : st (a + b) = s₂ := by
    simp only [st, Nat.lt_irrefl, if_false]
    rw [if_neg (by omega)]
    simpa using f30
  refine ⟨⟨st, val, ?_, ?_⟩, st1, st2, ?_, ?_⟩
  · by_cases h : 0 < a
    · simp only [st, if_pos h]; exact f0
    · have : a = 0 := by omega
      subst this
      rw [st1, ← fa, f0]
  · intro i hi
    by_cases h1 : i + 1 < a
    · simp only [st, if_pos h1, if_pos (show i < a by omega)]
      exact fst i (by omega)
    · by_cases h2 : i + 1 = a
      · rw [h2, st1]
        simp only [st, if_pos (show i < a by omega)]
        have := fst i (by omega)
        rw [h2, fa] at this
        exact this
      · have hia : ¬ i < a := by omega
        by_cases h3 : i + 1 < a + b
        · simp only [st, if_neg hia, if_neg h1, if_pos h3, if_pos (show i < a + b by omega)]
          rw [show i + 1 - a = (i - a) + 1 by omega]
          exact f2st _ (by omega)
        · by_cases h4 : i + 1 = a + b
          · rw [h4, st2]
            simp only [st, if_neg hia, if_pos (show i < a + b by omega)]
            have := f2st (i - a) (by omega)
            rw [show i - a + 1 = b by omega, f2n] at this
            exact this
          · simp only [st, if_neg hia, if_neg h1, if_neg h3, if_neg (show ¬ i < a + b by omega)]
            rw [show i + 1 - (a + b) = (i - (a + b)) + 1 by omega]
            exact f3st _ (by omega)
  · simp only [st]
    rw [if_neg (by omega), if_neg (by omega), show a + b + c - (a + b) = c by omega]
    exact f3n
  · intro i h1 h2
    simp only [st, if_neg (show ¬ i < a by omega)]
    split
    · exact f2P _ (by omega)
    · exact f3P _ (by omega)

theorem upd_upd {Id α : Type} [DecidableEq Id] (f : Id → α) (i : Id) (a b : α) :
    upd (upd f i a) i b = upd f i b := by
  funext j; simp only [upd]; split <;> rfl

theorem upd_self_eq {Id α : Type} [DecidableEq Id] (f : Id → α) (i : Id) (a : α) (h : f i = a) :
    upd f i a = f := by
  funext j; simp only [upd]; split
  · rename_i e; rw [e, h]
  · rfl

theorem Word.same_refl (M : Nat) (w : Word) : w.Same M w := ⟨rfl, rfl, rfl⟩

/-- A thread takes a free lock. -/
theorem run_acquire {s : State T C V} {t : T} {i k} (hp : P s.val) (ht : s.pc t = .spin (i + 1) k)
    (hl : s.m.locked = false) :
    Run cfg P s 2 { s with m := s.m.lock, pc := upd s.pc t k.next } := by
  have h1 : Step cfg s t _ := Step.spinLoad ht hl
  have h2 := Step.spinOk (cfg := cfg) (s := s.goto t (.spinCas i s.m k)) (t := t) (i := i) (w := s.m) (k := k)
    (by simp) (Word.same_refl _ _)
  simp only [State.goto, upd_upd] at h2
  exact .cons hp h1 (.cons hp h2 (.nil hp))

theorem run_lock {s : State T C V} {t : T} (hp : P s.val) (ht : s.pc t = .idle) (hl : s.m.locked = false) :
    Run cfg P s 3 { s with m := s.m.lock, pc := upd s.pc t .hold } := by
  have h1 : Step cfg s t _ := Step.enter ht
  have h2 := run_acquire (cfg := cfg) (P := P) (s := s.goto t (.spin 10 .plain)) (t := t) (i := 9) (k := .plain)
    hp (by simp) hl
  simp only [State.goto, upd_upd] at h2
  exact .cons hp h1 h2

theorem run_spin {s : State T C V} {t : T} {k} (hp : P s.val) (hl : s.m.locked = true) :
    ∀ i, s.pc t = .spin i k → Run cfg P s i { s with pc := upd s.pc t (.spin 0 k) } := by
  intro i
  induction i generalizing s with
  | zero => intro ht; rw [upd_self_eq _ _ _ ht]; exact .nil hp
  | succ i ih =>
    intro ht
    have h1 : Step cfg s t _ := Step.spinBusy ht hl
    have h2 := ih (s := s.goto t (.spin i k)) hp hl (by simp)
    simp only [State.goto, upd_upd] at h2
    exact .cons hp h1 h2

/-- A thread finds the lock taken, spins, marks it contended and is about to sleep. -/
theorem run_contend {s : State T C V} {t : T} (hp : P s.val) (ht : s.pc t = .idle) (hl : s.m.locked = true) :
    Run cfg P s 14 { s with m := s.m.contend, pc := upd s.pc t (.slowWait s.m.contend .plain) } := by
  have h1 : Step cfg s t _ := Step.enter ht
  have h2 := run_spin (cfg := cfg) (P := P) (s := s.goto t (.spin 10 .plain)) (t := t) (k := .plain) hp hl 10
    (by simp)
  simp only [State.goto, upd_upd] at h2
  have h3 := Step.spinEnd (cfg := cfg) (s := { s with pc := upd s.pc t (.spin 0 .plain) }) (t := t) (k := .plain)
    (by simp)
  simp only [State.goto, upd_upd] at h3
  have h4 := Step.slowLoad (cfg := cfg) (s := { s with pc := upd s.pc t (.slowLoad .plain) }) (t := t)
    (k := .plain) (by simp)
  simp only [State.goto, upd_upd] at h4
  have h5 := Step.slowContend (cfg := cfg) (s := { s with pc := upd s.pc t (.slow s.m .plain) }) (t := t)
    (w := s.m) (k := .plain) (by simp) hl (Word.same_refl _ _)
  simp only [State.goto, upd_upd] at h5
  exact .cons hp h1 (((h2.snoc h3 hp).snoc h4 hp).snoc h5 hp)

/-- The kernel puts the thread to sleep. -/
theorem run_sleep {s : State T C V} {t : T} {k} (hp : P s.val) (ht : s.pc t = .slowWait s.m k) :
    Run cfg P s 1 { s with pc := upd s.pc t (.asleepM (.lock k)) } :=
  .cons hp (Step.slowSleep ht (Word.same_refl _ _)) (.nil hp)

/-- Release without contention. -/
theorem run_release {s : State T C V} {t : T} {k} (hp : P s.val) (ht : s.pc t = .ulLoad k)
    (hc : s.m.contended = false) :
    Run cfg P s 2 { s with m := s.m.unlock, pc := upd s.pc t k.next } := by
  have h2 := Step.ulLoad (cfg := cfg) ht
  simp only [State.goto] at h2
  have h3 := Step.ulOk (cfg := cfg) (s := { s with pc := upd s.pc t (.ulCas s.m k) }) (t := t) (w := s.m)
    (k := k) (by simp) (Word.same_refl _ _)
  simp only [State.goto, upd_upd, hc, Bool.false_eq_true, if_false] at h3
  exact .cons hp h2 (.cons hp h3 (.nil hp))

theorem run_unlock {s : State T C V} {t : T} (hp : P s.val) (ht : s.pc t = .hold)
    (hc : s.m.contended = false) :
    Run cfg P s 3 { s with m := s.m.unlock, pc := upd s.pc t .idle } := by
  have h1 : Step cfg s t _ := Step.release ht
  have h2 := run_release (cfg := cfg) (P := P) (s := s.goto t (.ulLoad .plain)) (t := t) (k := .plain) hp
    (by simp) hc
  simp only [State.goto, upd_upd] at h2
  exact .cons hp h1 h2

/-- Release of a contended lock, up to the point where a sleeper is to be woken. -/
theorem run_unlock_contended {s : State T C V} {t : T} (hp : P s.val) (ht : s.pc t = .hold)
    (hc : s.m.contended = true) :
    Run cfg P s 3 { s with m := s.m.unlock, pc := upd s.pc t (.ulWake s.m.unlock .plain) } := by
  have h1 : Step cfg s t _ := Step.release ht
  have h2 := Step.ulLoad (cfg := cfg) (s := s.goto t (.ulLoad .plain)) (t := t) (k := .plain) (by simp)
  simp only [State.goto, upd_upd] at h2
  have h3 := Step.ulOk (cfg := cfg) (s := { s with pc := upd s.pc t (.ulCas s.m .plain) }) (t := t) (w := s.m)
    (k := .plain) (by simp) (Word.same_refl _ _)
  simp only [State.goto, upd_upd, hc, if_true] at h3
  exact .cons hp h1 (.cons hp h2 (.cons hp h3 (.nil hp)))

/-- The lock is taken and released `d` times by an uncontended thread. -/
theorem run_cycles {s : State T C V} {t : T} (hp : P s.val) (ht : s.pc t = .idle) (hl : s.m.locked = false)
    (hc : s.m.contended = false) (d : Nat) :
    ∃ n, Run cfg P s n { s with m := ⟨false, false, s.m.n + d⟩ } := by
  induction d with
  | zero =>
    refine ⟨0, ?_⟩
    have : s = { s with m := ⟨false, false, s.m.n + 0⟩ } := by
      rcases s with ⟨⟨_, _, _⟩, _, _, _, _⟩
      simp_all
    rw [← this]; exact .nil hp
  | succ d ih =>
    obtain ⟨n, h⟩ := ih
    have h1 := run_lock (cfg := cfg) (P := P) (s := { s with m := ⟨false, false, s.m.n + d⟩ }) (t := t) hp ht rfl
    have h2 := run_unlock (cfg := cfg) (P := P) (t := t)
      (s := { s with m := (⟨false, false, s.m.n + d⟩ : Word).lock, pc := upd s.pc t .hold }) hp (by simp) rfl
    simp only [upd_upd, upd_self_eq _ _ _ ht] at h1 h2
    exact ⟨_, (h.append h1).append h2⟩

/-- If the counters are small at the end, there was no wrap-around. -/
theorem fresh_of_end {n} (x : Exec T C V cfg n) (hm : (x.st n).m.n < cfg.mutexMod)
    (hc : ∀ c, (x.st n).cond c < cfg.condMod) : ∀ l ≤ n, Fresh cfg (x.st l) := by
  intro l hl
  have mono : ∀ d, l + d ≤ n → (x.st l).m.n ≤ (x.st (l + d)).m.n ∧ ∀ c, (x.st l).cond c ≤ (x.st (l + d)).cond c := by
    intro d
    induction d with
    | zero => intro _; exact ⟨Nat.le_refl _, fun _ => Nat.le_refl _⟩
    | succ d ih =>
      intro hd
      obtain ⟨h1, h2⟩ := ih (by omega)
      obtain ⟨t, h⟩ := x.step (l + d) (by omega)
      have := (n_mono h ((x.basic (i := l + d) (by omega)).rem t)).1
      exact ⟨Nat.le_trans h1 (by simpa [Nat.add_assoc] using this),
        fun c => Nat.le_trans (h2 c) (cond_mono h c).1⟩
  obtain ⟨d, rfl⟩ := Nat.exists_eq_add_of_le hl
  obtain ⟨h1, h2⟩ := mono d (Nat.le_refl _)
  refine ⟨fun t w k _ => by omega, fun t w _ => ?_⟩
  have := h2 w.c
  have := hc w.c
  omega

/-! ### Four threads -/

def pc4 (a b c d : PC C V) : Fin 4 → PC C V := fun i =>
  if i = 0 then a else if i = 1 then b else if i = 2 then c else d

@[simp] theorem pc4_0 (a b c d : PC C V) : pc4 a b c d 0 = a := rfl
@[simp] theorem pc4_1 (a b c d : PC C V) : pc4 a b c d 1 = b := rfl
@[simp] theorem pc4_2 (a b c d : PC C V) : pc4 a b c d 2 = c := rfl
@[simp] theorem pc4_3 (a b c d : PC C V) : pc4 a b c d 3 = d := rfl

theorem fin4 {Q : Fin 4 → Prop} (h0 : Q 0) (h1 : Q 1) (h2 : Q 2) (h3 : Q 3) : ∀ i, Q i := by
  intro i
  match i with
  | ⟨0, _⟩ => exact h0
  | ⟨1, _⟩ => exact h1
  | ⟨2, _⟩ => exact h2
  | ⟨3, _⟩ => exact h3

@[simp] theorem upd_pc4_0 (a b c d q : PC C V) : upd (pc4 a b c d) 0 q = pc4 q b c d := by
  funext i; revert i; exact fin4 rfl rfl rfl rfl
@[simp] theorem upd_pc4_1 (a b c d q : PC C V) : upd (pc4 a b c d) 1 q = pc4 a q c d := by
  funext i; revert i; exact fin4 rfl rfl rfl rfl
@[simp] theorem upd_pc4_2 (a b c d q : PC C V) : upd (pc4 a b c d) 2 q = pc4 a b q d := by
  funext i; revert i; exact fin4 rfl rfl rfl rfl
@[simp] theorem upd_pc4_3 (a b c d q : PC C V) : upd (pc4 a b c d) 3 q = pc4 a b c q := by
  funext i; revert i; exact fin4 rfl rfl rfl rfl

/-- State of four threads that only lock and unlock. -/
abbrev St4 (m : Word) (a b c d : PC Unit Unit) : State (Fin 4) Unit Unit :=
  ⟨m, fun _ => 0, fun _ => 0, fun _ => (), pc4 a b c d⟩

/-- C24 fails when the counter in the lock word makes a full turn: thread 0 is delayed between finding no sleeper
and clearing the contended bit; meanwhile the lock is released `mutexMod` (in the code 2^30) times.  The end:
the lock is free and uncontended, every other thread is outside, and thread 3 sleeps on the lock for ever. -/
theorem C24_wraparound_violated (cfg : Cfg) (hM : 2 ≤ cfg.mutexMod) :
    ∃ (n : Nat) (x : Exec (Fin 4) Unit Unit cfg n),
      BlockedOnLock ((x.st n).pc 3) ∧ (∀ t, t ≠ 3 → (x.st n).pc t = .idle) ∧
      (x.st n).m.locked = false ∧ (x.st n).m.contended = false := by
  obtain ⟨M, rfl⟩ : ∃ M, cfg.mutexMod = M := ⟨_, rfl⟩
  have p : ∀ v : Unit → Unit, (fun _ : Unit → Unit => True) v := fun _ => trivial
  have hstart : State.start (Fin 4) (fun _ : Unit => ()) = St4 ⟨false, false, 0⟩ .idle .idle .idle .idle := by
    simp only [State.start, St4]; congr 1; funext i; revert i; exact fin4 rfl rfl rfl rfl
  -- thread 0 locks, thread 1 contends, thread 0 releases and finds nobody asleep
  have r1 := run_lock (cfg := cfg) (P := fun _ => True) (t := (0 : Fin 4))
    (s := St4 ⟨false, false, 0⟩ .idle .idle .idle .idle) trivial (by simp) rfl
  have r2 := run_contend (cfg := cfg) (P := fun _ => True) (t := (1 : Fin 4))
    (s := St4 ⟨true, false, 0⟩ .hold .idle .idle .idle) trivial (by simp) rfl
  have r3 := run_unlock_contended (cfg := cfg) (P := fun _ => True) (t := (0 : Fin 4))
    (s := St4 ⟨true, true, 0⟩ .hold (.slowWait ⟨true, true, 0⟩ .plain) .idle .idle) trivial (by simp) rfl
  have s4 := Step.ulWakeNone (cfg := cfg) (t := (0 : Fin 4)) (w := ⟨false, true, 1⟩) (k := .plain)
    (s := St4 ⟨false, true, 1⟩ (.ulWake ⟨false, true, 1⟩ .plain) (.slowWait ⟨true, true, 0⟩ .plain) .idle .idle)
    (by simp) (fin4 (by simp) (by simp) (by simp) (by simp))
  -- thread 1 takes the lock and releases it, clearing the contended bit
  have s5 := Step.slowNoSleep (cfg := cfg) (t := (1 : Fin 4)) (w := ⟨true, true, 0⟩) (k := .plain)
    (s := St4 ⟨false, true, 1⟩ (.ulClear ⟨false, true, 1⟩ .plain) (.slowWait ⟨true, true, 0⟩ .plain) .idle .idle)
    (by simp)
  have s6 := Step.slowLoad (cfg := cfg) (t := (1 : Fin 4)) (k := .plain)
    (s := St4 ⟨false, true, 1⟩ (.ulClear ⟨false, true, 1⟩ .plain) (.slowLoad .plain) .idle .idle) (by simp)
  have s7 := Step.slowLock (cfg := cfg) (t := (1 : Fin 4)) (k := .plain) (w := ⟨false, true, 1⟩)
    (s := St4 ⟨false, true, 1⟩ (.ulClear ⟨false, true, 1⟩ .plain) (.slow ⟨false, true, 1⟩ .plain) .idle .idle)
    (by simp) rfl (Word.same_refl _ _)
  have r8 := run_unlock_contended (cfg := cfg) (P := fun _ => True) (t := (1 : Fin 4))
    (s := St4 ⟨true, true, 1⟩ (.ulClear ⟨false, true, 1⟩ .plain) .hold .idle .idle) trivial (by simp) rfl
  have s9 := Step.ulWakeNone (cfg := cfg) (t := (1 : Fin 4)) (w := ⟨false, true, 2⟩) (k := .plain)
    (s := St4 ⟨false, true, 2⟩ (.ulClear ⟨false, true, 1⟩ .plain) (.ulWake ⟨false, true, 2⟩ .plain) .idle .idle)
    (by simp) (fin4 (by simp) (by simp) (by simp) (by simp))
  have s10 := Step.ulClearOk (cfg := cfg) (t := (1 : Fin 4)) (w := ⟨false, true, 2⟩) (k := .plain)
    (s := St4 ⟨false, true, 2⟩ (.ulClear ⟨false, true, 1⟩ .plain) (.ulClear ⟨false, true, 2⟩ .plain) .idle .idle)
    (by simp) (Word.same_refl _ _)
  -- thread 1 uses the lock again and again
  obtain ⟨n, r11⟩ := run_cycles (cfg := cfg) (P := fun _ => True) (t := (1 : Fin 4))
    (s := St4 ⟨false, false, 2⟩ (.ulClear ⟨false, true, 1⟩ .plain) .idle .idle .idle) trivial (by simp) rfl rfl
    (cfg.mutexMod - 2)
  have e : 2 + (cfg.mutexMod - 2) = cfg.mutexMod := by omega
  simp only [e] at r11
  generalize hMM : cfg.mutexMod = M at *
  -- thread 1 takes the lock; threads 2 and 3 go to sleep
  have r12 := run_lock (cfg := cfg) (P := fun _ => True) (t := (1 : Fin 4))
    (s := St4 ⟨false, false, M⟩ (.ulClear ⟨false, true, 1⟩ .plain) .idle .idle .idle) trivial (by simp) rfl
  have r13 := run_contend (cfg := cfg) (P := fun _ => True) (t := (2 : Fin 4))
    (s := St4 ⟨true, false, M⟩ (.ulClear ⟨false, true, 1⟩ .plain) .hold .idle .idle) trivial (by simp) rfl
  have r14 := run_sleep (cfg := cfg) (P := fun _ => True) (t := (2 : Fin 4)) (k := .plain)
    (s := St4 ⟨true, true, M⟩ (.ulClear ⟨false, true, 1⟩ .plain) .hold (.slowWait ⟨true, true, M⟩ .plain) .idle)
    trivial (by simp)
  have r15 := run_contend (cfg := cfg) (P := fun _ => True) (t := (3 : Fin 4))
    (s := St4 ⟨true, true, M⟩ (.ulClear ⟨false, true, 1⟩ .plain) .hold (.asleepM (.lock .plain)) .idle)
    trivial (by simp) rfl
  have r16 := run_sleep (cfg := cfg) (P := fun _ => True) (t := (3 : Fin 4)) (k := .plain)
    (s := St4 ⟨true, true, M⟩ (.ulClear ⟨false, true, 1⟩ .plain) .hold (.asleepM (.lock .plain))
      (.slowWait ⟨true, true, M⟩ .plain)) trivial (by simp)
  -- thread 1 releases; before it wakes a sleeper thread 0 clears the bit by mistake
  have r17 := run_unlock_contended (cfg := cfg) (P := fun _ => True) (t := (1 : Fin 4))
    (s := St4 ⟨true, true, M⟩ (.ulClear ⟨false, true, 1⟩ .plain) .hold (.asleepM (.lock .plain))
      (.asleepM (.lock .plain))) trivial (by simp) rfl
  have s18 := Step.ulClearOk (cfg := cfg) (t := (0 : Fin 4)) (w := ⟨false, true, 1⟩) (k := .plain)
    (s := St4 ⟨false, true, M + 1⟩ (.ulClear ⟨false, true, 1⟩ .plain) (.ulWake ⟨false, true, M + 1⟩ .plain)
      (.asleepM (.lock .plain)) (.asleepM (.lock .plain))) (by simp)
    ⟨rfl, rfl, by rw [hMM]; simp⟩
  have s19 := Step.ulWakeOne (cfg := cfg) (t := (1 : Fin 4)) (u := 2) (w := ⟨false, true, M + 1⟩) (k := .plain)
    (x := .lock .plain)
    (s := St4 ⟨false, false, M + 1⟩ .idle (.ulWake ⟨false, true, M + 1⟩ .plain)
      (.asleepM (.lock .plain)) (.asleepM (.lock .plain))) (by simp) (by simp)
  have s20 := Step.slowLoad (cfg := cfg) (t := (2 : Fin 4)) (k := .plain)
    (s := St4 ⟨false, false, M + 1⟩ .idle .idle (.slowLoad .plain) (.asleepM (.lock .plain))) (by simp)
  have s21 := Step.slowLock (cfg := cfg) (t := (2 : Fin 4)) (k := .plain) (w := ⟨false, false, M + 1⟩)
    (s := St4 ⟨false, false, M + 1⟩ .idle .idle (.slow ⟨false, false, M + 1⟩ .plain) (.asleepM (.lock .plain)))
    (by simp) rfl (Word.same_refl _ _)
  have r22 := run_unlock (cfg := cfg) (P := fun _ => True) (t := (2 : Fin 4))
    (s := St4 ⟨true, false, M + 1⟩ .idle .idle .hold (.asleepM (.lock .plain))) trivial (by simp) rfl
  simp only [St4, State.goto, upd_pc4_0, upd_pc4_1, upd_pc4_2, upd_pc4_3, Word.lock, Word.contend, Word.unlock, Word.clear,
    UnlockFor.next, LockFor.next, Sleep.woken] at *
  have r := ((((((((((r1.append r2).append r3).snoc s4 trivial).snoc s5 trivial).snoc s6 trivial).snoc s7
    trivial).append r8).snoc s9 trivial).snoc s10 trivial).append r11)
  have r' := ((((((((((r.append r12).append r13).append r14).append r15).append r16).append r17).snoc s18
    trivial).snoc s19 trivial).snoc s20 trivial).snoc s21 trivial).append r22
  rw [← hstart] at r'
  obtain ⟨x, -, -, h3, -⟩ := exec_of_runs (P := fun _ => True) r' (.nil trivial) (.nil trivial)
  refine ⟨_, x, ?_⟩
  rw [h3]
  refine ⟨⟨_, rfl⟩, fin4 (fun _ => rfl) (fun _ => rfl) (fun _ => rfl) (fun h => absurd rfl h), rfl, rfl⟩


/-! ### Waiting and notifying -/

/-- State of four threads that wait on and notify one object. -/
abbrev StC (m : Word) (cond wc : Nat) (val : Bool) (a b c d : PC Unit Bool) : State (Fin 4) Unit Bool :=
  ⟨m, fun _ => cond, fun _ => wc, fun _ => val, pc4 a b c d⟩

@[simp] theorem upd_unit {α : Type} (f : Unit → α) (a : α) : upd f () a = fun _ => a := by
  funext i; simp [upd]

/-- The wait call of thread 0 in the examples. -/
abbrev wt : Wait Unit Bool := ⟨(), 0, false, .wait⟩

theorem start_eq (v : Bool) :
    State.start (Fin 4) (fun _ : Unit => v) = StC ⟨false, false, 0⟩ 0 0 v .idle .idle .idle .idle := by
  simp only [State.start]; congr 1; funext i; revert i; exact fin4 rfl rfl rfl rfl

/-- Once it has the lock, a waiter goes to sleep. -/
theorem run_wait {P : (Unit → Bool) → Prop} {n : Nat} {c : Nat} {v : Bool} (md : Mode)
    (hp : P fun _ => v) {b c' d} :
    Run cfg P (StC ⟨true, false, n⟩ c 0 v (.waitRead () false md) b c' d) 5
      (StC ⟨false, false, n + 1⟩ c 1 v (.asleepC ⟨(), c, false, md⟩) b c' d) := by
  have s1 := Step.waitRead (cfg := cfg) (t := (0 : Fin 4)) (c := ()) (old := false) (m := md)
    (s := StC ⟨true, false, n⟩ c 0 v (.waitRead () false md) b c' d) (by simp)
  have s2 := Step.waitInc (cfg := cfg) (t := (0 : Fin 4)) (w := ⟨(), c, false, md⟩)
    (s := StC ⟨true, false, n⟩ c 0 v (.waitInc ⟨(), c, false, md⟩) b c' d) (by simp)
  have r3 := run_release (cfg := cfg) (P := P) (t := (0 : Fin 4)) (k := .wait ⟨(), c, false, md⟩)
    (s := StC ⟨true, false, n⟩ c 1 v (.ulLoad (.wait ⟨(), c, false, md⟩)) b c' d) hp (by simp) rfl
  have s4 := Step.condSleep (cfg := cfg) (t := (0 : Fin 4)) (w := ⟨(), c, false, md⟩)
    (s := StC ⟨false, false, n + 1⟩ c 1 v (.condWait ⟨(), c, false, md⟩) b c' d) (by simp) rfl
  simp only [StC, State.goto, upd_pc4_0, upd_unit, Word.unlock, UnlockFor.next, Nat.zero_add] at *
  exact ((((Run.nil hp).snoc s1 hp).snoc s2 hp).append r3).snoc s4 hp

/-- C27 fails for the timed waits of wait_ops_generic.hpp:92–113, 127–150, which compare the object with
the expected value before they take the lock and not again before they block.  The premises are those of
`C27_store_notify_partial`: from time `i` on the object holds another value, thread 1 executes `notify_all` from
`i` to `j`, counters do not wrap.  At time `n` every other thread is outside, the lock is free, and thread 0 is
blocked waiting for the object to differ from a value that it does not hold. -/
theorem C27_generic_timed_wait_violated (cfg : Cfg) (hs : cfg.staleCheck = true) (hM : 3 ≤ cfg.mutexMod)
    (hC : 2 ≤ cfg.condMod) :
    ∃ (n i j : Nat) (x : Exec (Fin 4) Unit Bool cfg n) (w : Wait Unit Bool),
      (∀ l ≤ n, Fresh cfg (x.st l)) ∧ i < j ∧ j ≤ n ∧
      (x.st i).pc 1 = .ntInc true () ∧ (x.st j).pc 1 = .hold ∧
      (∀ l, i ≤ l → l ≤ n → (x.st l).val () ≠ w.old) ∧
      (x.st n).pc 0 = .asleepC w ∧ w.mode = .untilClock ∧
      (∀ t, t ≠ 0 → (x.st n).pc t = .idle) ∧ (x.st n).m.locked = false := by
  have s1 := Step.enterStale (cfg := cfg) (t := (0 : Fin 4)) () .untilClock hs
    (s := StC ⟨false, false, 0⟩ 0 0 false .idle .idle .idle .idle) (by simp)
  have s2 := Step.store (cfg := cfg) (t := (1 : Fin 4)) () true
    (s := StC ⟨false, false, 0⟩ 0 0 false (.spin 10 (.stale () false .untilClock)) .idle .idle .idle)
    (by simp)
  have r3 := run_lock (cfg := cfg) (P := fun _ => True) (t := (1 : Fin 4))
    (s := StC ⟨false, false, 0⟩ 0 0 true (.spin 10 (.stale () false .untilClock)) .idle .idle .idle)
    trivial (by simp) rfl
  have s4 := Step.ntBegin (cfg := cfg) (t := (1 : Fin 4)) true ()
    (s := StC ⟨true, false, 0⟩ 0 0 true (.spin 10 (.stale () false .untilClock)) .hold .idle .idle) (by simp)
  have s5 := Step.ntInc (cfg := cfg) (t := (1 : Fin 4)) (all := true) (c := ())
    (s := StC ⟨true, false, 0⟩ 0 0 true (.spin 10 (.stale () false .untilClock)) (.ntInc true ()) .idle .idle)
    (by simp)
  have s6 := Step.ntSkip (cfg := cfg) (t := (1 : Fin 4)) (all := true) (c := ())
    (s := StC ⟨true, false, 0⟩ 1 0 true (.spin 10 (.stale () false .untilClock)) (.ntTest true ()) .idle .idle)
    (by simp) rfl
  have r7 := run_unlock (cfg := cfg) (P := fun v => v () ≠ false) (t := (1 : Fin 4))
    (s := StC ⟨true, false, 0⟩ 1 0 true (.spin 10 (.stale () false .untilClock)) .hold .idle .idle)
    (by simp) (by simp) rfl
  have r8 := run_acquire (cfg := cfg) (P := fun v => v () ≠ false) (t := (0 : Fin 4))
    (s := StC ⟨false, false, 1⟩ 1 0 true (.spin 10 (.stale () false .untilClock)) .idle .idle .idle)
    (i := 9) (k := .stale () false .untilClock) (by simp) (by simp) rfl
  have r9 := run_wait (cfg := cfg) (P := fun v => v () ≠ false) (n := 1) (c := 1) (v := true) .untilClock
    (by simp) (b := .idle) (c' := .idle) (d := .idle)
  simp only [StC, State.goto, upd_pc4_0, upd_pc4_1, upd_unit, Word.unlock, Word.lock, UnlockFor.next,
    LockFor.next, Nat.zero_add, Nat.reduceAdd] at *
  have a := ((((Run.nil (P := fun _ => True) trivial).snoc s1 trivial).snoc s2 trivial).append r3).snoc s4 trivial
  have hp : (fun v : Unit → Bool => v () ≠ false) (fun _ => true) := by simp
  have b := ((Run.nil (P := fun v => v () ≠ false) hp).snoc s5 hp).snoc s6 hp
  have c := (r7.append r8).append r9
  simp only [Nat.reduceAdd] at a b
  have e := start_eq false
  simp only [StC] at e
  rw [← e] at a
  obtain ⟨x, h1, h2, h3, h4⟩ := exec_of_runs (P := fun v => v () ≠ false) a b c
  refine ⟨_, _, 6 + 2, x, ⟨(), 1, false, .untilClock⟩, fresh_of_end x ?_ ?_, ?_, ?_, ?_, ?_, h4, ?_, rfl, ?_, ?_⟩
  · rw [h3]; exact hM
  · intro c; rw [h3]; exact hC
  · omega
  · omega
  · rw [h1]; rfl
  · rw [h2]; rfl
  · rw [h3]; rfl
  · rw [h3]; exact fin4 (fun h => absurd rfl h) (fun _ => rfl) (fun _ => rfl) (fun _ => rfl)
  · rw [h3]

/-! ### The hypotheses of the theorems in `Futex/Props.lean` can be met -/

/-- `C23`, `C24_no_lost_wakeup_partial`, `C24_release_wakes_partial`: with the code's constants there is an execution
without wrap-around in which one thread owns the lock, another is blocked on it, and the owner's release is the last
step. -/
example : ∃ (n : Nat) (x : Exec (Fin 4) Unit Unit Cfg.code (n + 1)), (∀ l ≤ n + 1, Fresh Cfg.code (x.st l)) ∧
    Owns ((x.st n).pc 0) ∧ BlockedOnLock ((x.st n).pc 1) ∧ ¬ Owns ((x.st (n + 1)).pc 0) := by
  have r1 := run_lock (cfg := Cfg.code) (P := fun _ => True) (t := (0 : Fin 4))
    (s := St4 ⟨false, false, 0⟩ .idle .idle .idle .idle) trivial (by simp) rfl
  have r2 := run_contend (cfg := Cfg.code) (P := fun _ => True) (t := (1 : Fin 4))
    (s := St4 ⟨true, false, 0⟩ .hold .idle .idle .idle) trivial (by simp) rfl
  have r3 := run_sleep (cfg := Cfg.code) (P := fun _ => True) (t := (1 : Fin 4)) (k := .plain)
    (s := St4 ⟨true, true, 0⟩ .hold (.slowWait ⟨true, true, 0⟩ .plain) .idle .idle) trivial (by simp)
  have s4 := Step.release (cfg := Cfg.code) (t := (0 : Fin 4))
    (s := St4 ⟨true, true, 0⟩ .hold (.asleepM (.lock .plain)) .idle .idle) (by simp)
  have s5 := Step.ulLoad (cfg := Cfg.code) (t := (0 : Fin 4)) (k := .plain)
    (s := St4 ⟨true, true, 0⟩ (.ulLoad .plain) (.asleepM (.lock .plain)) .idle .idle) (by simp)
  have s6 := Step.ulOk (cfg := Cfg.code) (t := (0 : Fin 4)) (k := .plain) (w := ⟨true, true, 0⟩)
    (s := St4 ⟨true, true, 0⟩ (.ulCas ⟨true, true, 0⟩ .plain) (.asleepM (.lock .plain)) .idle .idle) (by simp)
    (Word.same_refl _ _)
  simp only [St4, State.goto, upd_pc4_0, upd_pc4_1, Word.unlock, Word.lock, Word.contend,
    Nat.zero_add, if_true] at *
  have a := ((((r1.append r2).append r3).snoc s4 trivial).snoc s5 trivial)
  have e : State.start (Fin 4) (fun _ : Unit => ()) = St4 ⟨false, false, 0⟩ .idle .idle .idle .idle := by
    simp only [State.start]; congr 1; funext i; revert i; exact fin4 rfl rfl rfl rfl
  simp only [St4] at e
  rw [← e] at a
  obtain ⟨x, h1, h2, h3, -⟩ := exec_of_runs (P := fun _ => True) a ((Run.nil (P := fun _ => True) trivial).snoc s6
    trivial) (.nil trivial)
  refine ⟨_, x, fresh_of_end x ?_ ?_, ?_⟩
  · rw [h3]; decide
  · intro c; rw [h3]; simp [Cfg.code]
  · rw [h1, h2]
    exact ⟨trivial, ⟨_, rfl⟩, id⟩

/-- `C25_notify_all_partial`, `C25_notify_one_partial`, `C27_store_notify_partial`: with the code's constants there
is an execution without wrap-around in which thread 0 is blocked waiting for the object to differ from `false`
until after time `i`, the object is changed before time `i`, and thread 1 notifies between `i` and `j`; thread 0 is the
only waiter and stays in its waiting function throughout. -/
example (all : Bool) : ∃ (n i j : Nat) (x : Exec (Fin 4) Unit Bool Cfg.code n),
    (∀ l ≤ n, Fresh Cfg.code (x.st l)) ∧ i < j ∧ j ≤ n ∧
    (x.st i).pc 1 = .ntInc all () ∧ (x.st j).pc 1 = .hold ∧
    (x.st i).pc 0 = .asleepC wt ∧ (x.st n).pc 0 = .asleepM (.cond wt) ∧
    (∀ l, i ≤ l → l ≤ n → (x.st l).val () ≠ false) := by
  have r1 := run_lock (cfg := Cfg.code) (P := fun _ => True) (t := (0 : Fin 4))
    (s := StC ⟨false, false, 0⟩ 0 0 false .idle .idle .idle .idle) trivial (by simp) rfl
  have s2 := Step.waitBegin (cfg := Cfg.code) (t := (0 : Fin 4)) () .wait
    (s := StC ⟨true, false, 0⟩ 0 0 false .hold .idle .idle .idle) (by simp)
  have r3 := run_wait (cfg := Cfg.code) (P := fun _ => True) (n := 0) (c := 0) (v := false) .wait
    trivial (b := .idle) (c' := .idle) (d := .idle)
  have s4 := Step.store (cfg := Cfg.code) (t := (1 : Fin 4)) () true
    (s := StC ⟨false, false, 1⟩ 0 1 false (.asleepC wt) .idle .idle .idle) (by simp)
  have r5 := run_lock (cfg := Cfg.code) (P := fun _ => True) (t := (1 : Fin 4))
    (s := StC ⟨false, false, 1⟩ 0 1 true (.asleepC wt) .idle .idle .idle) trivial (by simp) rfl
  have s6 := Step.ntBegin (cfg := Cfg.code) (t := (1 : Fin 4)) all ()
    (s := StC ⟨true, false, 1⟩ 0 1 true (.asleepC wt) .hold .idle .idle) (by simp)
  have s7 := Step.ntInc (cfg := Cfg.code) (t := (1 : Fin 4)) (all := all) (c := ())
    (s := StC ⟨true, false, 1⟩ 0 1 true (.asleepC wt) (.ntInc all ()) .idle .idle) (by simp)
  have s8 := Step.ntTest (cfg := Cfg.code) (t := (1 : Fin 4)) (all := all) (c := ())
    (s := StC ⟨true, false, 1⟩ 1 1 true (.asleepC wt) (.ntTest all ()) .idle .idle) (by simp) (by simp)
  have s9 : Step Cfg.code (StC ⟨true, false, 1⟩ 1 1 true (.asleepC wt) (.ntRequeue all ()) .idle .idle) 1
      (StC ⟨true, false, 1⟩ 1 1 true (.asleepM (.cond wt)) (.ntOr all ()) .idle .idle) := by
    have rq : ∀ b, upd (requeue (fun u : Fin 4 => u = 0) (pc4 (.asleepC wt) (.ntRequeue b ()) .idle .idle))
        1 (.ntOr b ()) = pc4 (.asleepM (.cond wt)) (.ntOr b ()) .idle .idle := by
      intro b; funext i; revert i; exact fin4 rfl rfl rfl rfl
    cases all with
    | true =>
      have h := Step.ntAll (cfg := Cfg.code) (t := (1 : Fin 4)) (c := ()) (fun u : Fin 4 => u = 0)
        (s := StC ⟨true, false, 1⟩ 1 1 true (.asleepC wt) (.ntRequeue true ()) .idle .idle) (by simp)
        (fin4 (by simp [SleepsOn]) (by simp [SleepsOn]) (by simp [SleepsOn]) (by simp [SleepsOn]))
      simp only [StC, State.goto, rq] at h
      exact h
    | false =>
      have h := Step.ntOne (cfg := Cfg.code) (t := (1 : Fin 4)) (c := ()) (u := 0)
        (s := StC ⟨true, false, 1⟩ 1 1 true (.asleepC wt) (.ntRequeue false ()) .idle .idle) (by simp)
        ⟨wt, rfl, rfl⟩
      simp only [StC, State.goto, rq] at h
      exact h
  have s10 := Step.ntOr (cfg := Cfg.code) (t := (1 : Fin 4)) (all := all) (c := ())
    (s := StC ⟨true, false, 1⟩ 1 1 true (.asleepM (.cond wt)) (.ntOr all ()) .idle .idle) (by simp)
  simp only [StC, State.goto, upd_pc4_0, upd_pc4_1, upd_unit, Word.unlock, Word.lock, Word.contend, UnlockFor.next,
    LockFor.next, Nat.zero_add, Nat.reduceAdd] at *
  have a := ((((r1.snoc s2 trivial).append r3).snoc s4 trivial).append r5).snoc s6 trivial
  have hp : (fun v : Unit → Bool => v () ≠ false) (fun _ => true) := by simp
  have b := ((((Run.nil (P := fun v => v () ≠ false) hp).snoc s7 hp).snoc s8 hp).snoc s9 hp).snoc s10 hp
  simp only [Nat.reduceAdd] at a b
  have e := start_eq false
  simp only [StC] at e
  rw [← e] at a
  obtain ⟨x, h1, h2, h3, h4⟩ := exec_of_runs (P := fun v => v () ≠ false) a b (.nil hp)
  refine ⟨_, _, 14 + 4, x, fresh_of_end x ?_ ?_, ?_, ?_, ?_, ?_, ?_, ?_, h4⟩
  · rw [h3]; decide
  · intro c; rw [h3]; simp [Cfg.code]
  · omega
  · omega
  · rw [h1]; rfl
  · rw [h2]; rfl
  · rw [h1]; rfl
  · rw [h3]; rfl

end Verif.Futex
