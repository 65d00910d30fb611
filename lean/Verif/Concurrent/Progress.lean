import Verif.Concurrent.Props

/-
C35  lock-free back ends: a retry is always somebody else's progress, and a call running alone finishes
C36  lock-based back end: no deadlock; every pending call can always be completed
-/

namespace Verif.Concurrent

variable {W Op Ret : Type}

/-! ### C35, CAS loops -/

/-- Executions of the CAS-loop machine in which no compare-exchange fails spuriously, with two counters:
`commits`, the number of steps so far that changed the object, and `fails i`, the number of times call `i`
had its compare-exchange fail. -/
inductive CasCount {Id : Type} [DecidableEq Id] (code : Op → Code W Ret) (w₀ : W) :
    Sys Id (casMachine code) → Nat → (Id → Nat) → Prop where
  | init : CasCount code w₀ ⟨w₀, fun _ => .idle⟩ 0 (fun _ => 0)
  | invoke {sys c f} (i : Id) (op : Op) : CasCount code w₀ sys c f → sys.calls i = .idle →
      CasCount code w₀ ⟨sys.sh, upd sys.calls i (.run op .begin)⟩ c f
  | quiet {sys c f} (i : Id) (op : Op) (l l' : CasLoc W Ret) : CasCount code w₀ sys c f →
      sys.calls i = .run op l → CasStep code op sys.sh l sys.sh l' → (∀ o, l ≠ .loop o ∨ ∀ o', l' ≠ .loop o') →
      CasCount code w₀ ⟨sys.sh, upd sys.calls i (.run op l')⟩ c f
  | commit {sys c f} (i : Id) (op : Op) (l l' : CasLoc W Ret) (w' : W) : CasCount code w₀ sys c f →
      sys.calls i = .run op l → CasStep code op sys.sh l w' l' → w' ≠ sys.sh →
      CasCount code w₀ ⟨w', upd sys.calls i (.run op l')⟩ (c + 1) f
  | fail {sys c f} (i : Id) (op : Op) (old x : W) (l' : CasLoc W Ret) : CasCount code w₀ sys c f →
      sys.calls i = .run op (.loop old) → CasStep code op sys.sh (.loop old) sys.sh l' →
      l' = .loop x → sys.sh ≠ old →
      CasCount code w₀ ⟨sys.sh, upd sys.calls i (.run op l')⟩ c (upd f i (f i + 1))
  | ret {sys c f} (i : Id) (op : Op) (l : CasLoc W Ret) (r : Ret) : CasCount code w₀ sys c f →
      sys.calls i = .run op l → (casMachine code).result l = some r →
      CasCount code w₀ ⟨sys.sh, upd sys.calls i (.done op r)⟩ c f

/-- The counting executions are executions. -/
theorem CasCount.exec {Id : Type} [DecidableEq Id] {code : Op → Code W Ret} {w₀ : W}
    {sys : Sys Id (casMachine code)} {c f} (h : CasCount code w₀ sys c f) :
    ∃ H, Exec (casMachine code) w₀ sys H := by
  induction h with
  | init => exact ⟨_, .init⟩
  | invoke i op _ hi ih => obtain ⟨H, hH⟩ := ih; exact ⟨_, hH.invoke i op hi⟩
  | quiet i op l l' _ hi hs _ ih => obtain ⟨H, hH⟩ := ih; exact ⟨_, Exec.step (M := casMachine code) i op l _ l' hH hi hs⟩
  | commit i op l l' w' _ hi hs _ ih => obtain ⟨H, hH⟩ := ih; exact ⟨_, Exec.step (M := casMachine code) i op l _ l' hH hi hs⟩
  | fail i op old x l' _ hi hs _ _ ih => obtain ⟨H, hH⟩ := ih; exact ⟨_, Exec.step (M := casMachine code) i op _ _ l' hH hi hs⟩
  | ret i op l r _ hi hr ih => obtain ⟨H, hH⟩ := ih; exact ⟨_, hH.ret i op l r hi hr⟩

/-- A step that changes the object completes the operation that made it: commits are progress. -/
theorem CasStep.commit_finishes {code : Op → Code W Ret} {op w l w' l'}
    (h : CasStep code op w l w' l') (hne : w' ≠ w) : ∃ r, l' = .fin r := by
  cases h <;> first | exact ⟨_, rfl⟩ | exact absurd rfl hne

theorem CasStep.after {code : Op → Code W Ret} {op w l w' l'} (h : CasStep code op w l w' l') :
    l' ≠ .begin ∧ ∀ x, l' = .loop x → l = .begin ∨ ∃ old, l = .loop old := by
  cases h <;> refine ⟨by simp, fun x hx => ?_⟩ <;>
    first | (cases hx; done) | exact .inl rfl | exact .inr ⟨_, rfl⟩

/-- A call that goes on with its loop does so with the value the object has. -/
theorem CasStep.retry {code : Op → Code W Ret} {op w old w' l' x} (h : CasStep code op w (.loop old) w' l')
    (hx : l' = .loop x) : x = w := by
  cases h <;> cases hx <;> rfl

theorem casCount_bound {Id : Type} [DecidableEq Id] {code : Op → Code W Ret} {w₀ : W}
    {sys : Sys Id (casMachine code)} {c f} (h : CasCount code w₀ sys c f) :
    ∀ i, f i ≤ c + 1 ∧ (sys.calls i = .idle → f i = 0) ∧ (∀ op, sys.calls i = .run op .begin → f i = 0) ∧
      (∀ op old, sys.calls i = .run op (.loop old) → f i ≤ c ∨ sys.sh = old) := by
  induction h with
  | init => intro i; simp
  | @invoke sys c f i op _ hi ih =>
    intro j
    by_cases hj : j = i
    · subst hj
      have := (ih j).2.1 hi
      simp only [upd_same]
      refine ⟨by omega, by simp, fun _ _ => this, ?_⟩
      intro o old h; cases h
    · simp only [upd_other _ _ hj]; exact ih j
  | @quiet sys c f i op l l' _ hi hs hq ih =>
    intro j
    by_cases hj : j = i
    · subst hj
      have h0 := ih j
      simp only [upd_same]
      refine ⟨h0.1, by simp, ?_, ?_⟩
      · intro o h; injection h with _ h; exact absurd h hs.after.1
      · intro o old h; injection h with _ h
        left
        rcases hs.after.2 old h with rfl | ⟨old', rfl⟩
        · exact Nat.le_trans (Nat.le_of_eq (h0.2.2.1 _ hi)) (Nat.zero_le _)
        · rcases hq old' with h' | h'
          · exact absurd rfl h'
          · exact absurd h (h' _)
    · simp only [upd_other _ _ hj]; exact ih j
  | @commit sys c f i op l l' w' _ hi hs hne ih =>
    intro j
    by_cases hj : j = i
    · subst hj
      have h0 := ih j
      simp only [upd_same]
      obtain ⟨r, rfl⟩ := hs.commit_finishes hne
      refine ⟨by omega, by simp, ?_, ?_⟩
      · intro o h; injection h with _ h; cases h
      · intro o old h; injection h with _ h; cases h
    · simp only [upd_other _ _ hj]
      have h0 := ih j
      refine ⟨by omega, h0.2.1, h0.2.2.1, ?_⟩
      intro o old h
      left; exact h0.1
  | @fail sys c f i op old x l' _ hi hs hl hne ih =>
    have hl : l' = .loop sys.sh := by rw [hl, hs.retry hl]
    intro j
    by_cases hj : j = i
    · subst hj
      have h0 := ih j
      simp only [upd_same]
      have : f j ≤ c := by
        rcases h0.2.2.2 _ _ hi with h | h
        · exact h
        · exact absurd h hne
      refine ⟨by omega, by simp, ?_, ?_⟩
      · intro o h; injection h with _ h; rw [hl] at h; cases h
      · intro o old' h; injection h with _ h; rw [hl] at h; injection h with h; right; exact h
    · simp only [upd_other _ _ hj]; exact ih j
  | @ret sys c f i op l r _ hi hr ih =>
    intro j
    by_cases hj : j = i
    · subst hj
      simp only [upd_same]
      exact ⟨(ih j).1, by simp, by simp, by simp⟩
    · simp only [upd_other _ _ hj]; exact ih j

/-- C35 (lock-freedom of CAS loops): as long as no compare-exchange fails spuriously, the number of times
any call has had to retry is at most one (for the torn first snapshot) plus the number of operations
that have changed the object; and every step that changes the object finishes an operation.  So if calls
keep retrying, operations keep completing. -/
theorem C35_cas_retries_bounded_by_progress {Id : Type} [DecidableEq Id] (code : Op → Code W Ret) (w₀ : W)
    (sys : Sys Id (casMachine code)) (commits : Nat) (fails : Id → Nat)
    (h : CasCount code w₀ sys commits fails) (i : Id) : fails i ≤ commits + 1 :=
  (casCount_bound h i).1

/-- Non-vacuity: one call fails twice — once because of a torn snapshot, once because another call
committed. -/
example : ∃ sys : Sys Nat (casMachine (Integral.native .casOnly false 8)),
    ∃ f : Nat → Nat, CasCount (Integral.native .casOnly false 8) (0 : BitVec 8) sys 1 f ∧ f 0 = 2 := by
  have h0 := CasCount.init (Id := Nat) (code := Integral.native .casOnly false 8) (w₀ := (0 : BitVec 8))
  have h1 := h0.invoke 0 (.fetchAdd 1) rfl
  have h2 := h1.quiet 0 (.fetchAdd 1) _ _ rfl (CasStep.snapshot (7 : BitVec 8) rfl) (fun o => .inl (by simp))
  have h3 := h2.fail 0 (.fetchAdd 1) 7 _ _ rfl (CasStep.loopFail rfl) rfl (by decide)
  have h4 := h3.invoke 1 (.store 5) rfl
  have h5 := h4.commit 1 (.store 5) _ _ (5 : BitVec 8) rfl (CasStep.store rfl) (by decide)
  have h6 := h5.fail 0 (.fetchAdd 1) 0 _ _ rfl (CasStep.loopFail rfl) rfl (by decide)
  exact ⟨_, _, h6, rfl⟩

/-- Steps of one call in isolation, without spurious failures. -/
inductive CasSolo (code : Op → Code W Ret) (op : Op) : Nat → W → CasLoc W Ret → W → CasLoc W Ret → Prop where
  | refl {w l} : CasSolo code op 0 w l w l
  | step {n w l w₁ l₁ w₂ l₂} : CasStep code op w l w₁ l₁ →
      (∀ old x, l = .loop old → l₁ = .loop x → w ≠ old) →
      CasSolo code op n w₁ l₁ w₂ l₂ → CasSolo code op (n + 1) w l w₂ l₂

/-- C35 (a call running alone finishes): from any state of the object and of the call, after at most
three steps of its own it can make no further step without having finished; indeed a call that is not
finished always has a step, and no run of it alone is longer than three steps. -/
theorem C35_cas_solo_terminates (code : Op → Code W Ret) (op : Op) {n : Nat} {w w' : W}
    {l l' : CasLoc W Ret} (h : CasSolo code op n w l w' l') :
    n ≤ 3 ∧ (n = 3 → ∃ r, l' = .fin r) := by
  have fin0 : ∀ {n w r w' l'}, CasSolo code op n w (.fin r) w' l' → n = 0 ∧ l' = .fin r := by
    intro n w r w' l' h
    cases h with
    | refl => exact ⟨rfl, rfl⟩
    | step hs _ _ => cases hs
  have loop1 : ∀ {n w w' l'}, CasSolo code op n w (.loop w) w' l' → n ≤ 1 ∧ (n = 1 → ∃ r, l' = .fin r) := by
    intro n w w' l' h
    cases h with
    | refl => exact ⟨by omega, by omega⟩
    | step hs hq hr =>
      cases hs with
      | loopOk _ => obtain ⟨rfl, rfl⟩ := fin0 hr; exact ⟨by omega, fun _ => ⟨_, rfl⟩⟩
      | loopFail _ => exact absurd rfl (hq _ _ rfl rfl)
  have loop2 : ∀ {n w old w' l'}, CasSolo code op n w (.loop old) w' l' →
      n ≤ 2 ∧ (n = 2 → ∃ r, l' = .fin r) := by
    intro n w old w' l' h
    cases h with
    | refl => exact ⟨by omega, by omega⟩
    | step hs hq hr =>
      cases hs with
      | loopOk _ => obtain ⟨rfl, rfl⟩ := fin0 hr; exact ⟨by omega, fun _ => ⟨_, rfl⟩⟩
      | loopFail _ =>
        have := loop1 hr
        exact ⟨by omega, fun h => this.2 (by omega)⟩
  cases h with
  | refl => exact ⟨by omega, by omega⟩
  | step hs hq hr =>
    cases hs with
    | snapshot _ _ =>
      have := loop2 hr
      exact ⟨by omega, fun h => this.2 (by omega)⟩
    | loopFail _ =>
      have := loop1 hr
      exact ⟨by omega, fun h => by omega⟩
    | _ => obtain ⟨rfl, rfl⟩ := fin0 hr; exact ⟨by omega, fun _ => ⟨_, rfl⟩⟩

/-- … and a call that has not finished is never stuck. -/
theorem C35_cas_never_stuck (code : Op → Code W Ret) (op : Op) (w : W) (l : CasLoc W Ret)
    (hl : ∀ r, l ≠ .fin r) (hrmw : ∀ old, l = .loop old → ∃ f k, code op = .rmw f k) :
    ∃ w' l', CasStep code op w l w' l' ∧ (∀ old x, l = .loop old → l' = .loop x → w ≠ old) := by
  classical
  cases l with
  | fin r => exact absurd rfl (hl r)
  | loop old =>
    obtain ⟨f, k, h⟩ := hrmw old rfl
    by_cases e : w = old
    · subst e; exact ⟨_, _, .loopOk h, by intro _ _ _ h; cases h⟩
    · exact ⟨_, _, .loopFail h, by intro o x h _; cases h; exact e⟩
  | begin =>
    have hb : ∀ {l' : CasLoc W Ret}, ∀ old x, CasLoc.begin (W := W) (Ret := Ret) = .loop old → l' = .loop x → w ≠ old :=
      fun _ _ h => by cases h
    cases h : code op with
    | load k => exact ⟨_, _, .load h, hb⟩
    | store v r => exact ⟨_, _, .store h, hb⟩
    | casWeak e d k => exact ⟨_, _, .weakFail h, hb⟩
    | casStrong e d k =>
      by_cases he : w = e
      · subst he; exact ⟨_, _, .strongOk h, hb⟩
      · exact ⟨_, _, .strongFail h he, hb⟩
    | rmw f k => exact ⟨_, _, .snapshot w h, hb⟩

example : CasSolo (Integral.native .casOnly false 8) (.fetchAdd 1) 3 (5 : BitVec 8) .begin 6
    (.fin (.val 5)) := by
  refine .step (.snapshot (9 : BitVec 8) rfl) (by intro _ _ h; cases h) ?_
  refine .step (.loopFail rfl) (by intro o x h _; cases h; decide) ?_
  exact .step (.loopOk rfl) (by intro _ _ _ h; cases h) .refl

/-! ### C35, LL/SC loops -/

/-- Executions of the LL/SC machine in which a store-conditional fails only if the reservation was lost to
a store, with counters: `stores`, the number of stores made to the object, and `fails i`. -/
inductive LlCount {Id : Type} [DecidableEq Id] (code : Op → Code W Ret) (m₀ : LlMem W) :
    Sys Id (llMachine code) → Nat → (Id → Nat) → Prop where
  | init : LlCount code m₀ ⟨m₀, fun _ => .idle⟩ 0 (fun _ => 0)
  | invoke {sys c f} (i : Id) (op : Op) : LlCount code m₀ sys c f → sys.calls i = .idle →
      LlCount code m₀ ⟨sys.sh, upd sys.calls i (.run op .begin)⟩ c f
  | quiet {sys c f} (i : Id) (op : Op) (l l' : LlLoc W Ret) : LlCount code m₀ sys c f →
      sys.calls i = .run op l → LlStep code op sys.sh l sys.sh l' → l' ≠ .begin →
      LlCount code m₀ ⟨sys.sh, upd sys.calls i (.run op l')⟩ c f
  | commit {sys c f} (i : Id) (op : Op) (l l' : LlLoc W Ret) (m' : LlMem W) : LlCount code m₀ sys c f →
      sys.calls i = .run op l → LlStep code op sys.sh l m' l' → m'.ver ≠ sys.sh.ver →
      LlCount code m₀ ⟨m', upd sys.calls i (.run op l')⟩ (c + 1) f
  | fail {sys c f} (i : Id) (op : Op) (x : W) (v : Nat) : LlCount code m₀ sys c f →
      sys.calls i = .run op (.linked x v) → LlStep code op sys.sh (.linked x v) sys.sh .begin →
      v ≠ sys.sh.ver →
      LlCount code m₀ ⟨sys.sh, upd sys.calls i (.run op .begin)⟩ c (upd f i (f i + 1))
  | ret {sys c f} (i : Id) (op : Op) (l : LlLoc W Ret) (r : Ret) : LlCount code m₀ sys c f →
      sys.calls i = .run op l → (llMachine code).result l = some r →
      LlCount code m₀ ⟨sys.sh, upd sys.calls i (.done op r)⟩ c f

/-- A step that stores finishes the operation that made it. -/
theorem LlStep.commit_finishes {code : Op → Code W Ret} {op m l m' l'}
    (h : LlStep code op m l m' l') (hne : m'.ver ≠ m.ver) : m'.ver = m.ver + 1 ∧ ∃ r, l' = .fin r := by
  cases h <;> first | exact ⟨rfl, _, rfl⟩ | exact absurd rfl hne

theorem LlStep.linked_ver {code : Op → Code W Ret} {op m l m' x v}
    (h : LlStep code op m l m' (.linked x v)) : v = m.ver := by
  cases h <;> rfl

theorem llCount_bound {Id : Type} [DecidableEq Id] {code : Op → Code W Ret} {m₀ : LlMem W}
    {sys : Sys Id (llMachine code)} {c f} (h : LlCount code m₀ sys c f) :
    sys.sh.ver = m₀.ver + c ∧
    ∀ i, f i ≤ c ∧ (sys.calls i = .idle → f i = 0) ∧
      (∀ op x v, sys.calls i = .run op (.linked x v) → m₀.ver + f i ≤ v ∧ v ≤ sys.sh.ver) := by
  induction h with
  | init => exact ⟨rfl, by intro i; simp⟩
  | @invoke sys c f i op _ hi ih =>
    refine ⟨ih.1, fun j => ?_⟩
    by_cases hj : j = i
    · subst hj
      have := (ih.2 j).2.1 hi
      simp only [upd_same]
      refine ⟨by omega, by simp, ?_⟩
      intro o x v h; cases h
    · simp only [upd_other _ _ hj]; exact ih.2 j
  | @quiet sys c f i op l l' _ hi hs hq ih =>
    refine ⟨ih.1, fun j => ?_⟩
    by_cases hj : j = i
    · subst hj
      have h0 := ih.2 j
      simp only [upd_same]
      refine ⟨h0.1, by simp, ?_⟩
      intro o x v h; injection h with _ h; subst h
      have : v = sys.sh.ver := hs.linked_ver
      have h1 := ih.1
      omega
    · simp only [upd_other _ _ hj]; exact ih.2 j
  | @commit sys c f i op l l' m' _ hi hs hne ih =>
    obtain ⟨hv, r, rfl⟩ := hs.commit_finishes hne
    refine ⟨by have := ih.1; simp only; omega, fun j => ?_⟩
    by_cases hj : j = i
    · subst hj
      have h0 := ih.2 j
      simp only [upd_same]
      refine ⟨by omega, by simp, ?_⟩
      intro o x v h; injection h with _ h; cases h
    · simp only [upd_other _ _ hj]
      have h0 := ih.2 j
      refine ⟨by omega, h0.2.1, fun o x v h => ?_⟩
      have := h0.2.2 o x v h
      omega
  | @fail sys c f i op x v _ hi hs hne ih =>
    refine ⟨ih.1, fun j => ?_⟩
    by_cases hj : j = i
    · subst hj
      have h0 := (ih.2 j).2.2 _ _ _ hi
      have h1 := ih.1
      simp only [upd_same]
      refine ⟨by omega, by simp, ?_⟩
      intro o x v h; injection h with _ h; cases h
    · simp only [upd_other _ _ hj]; exact ih.2 j
  | @ret sys c f i op l r _ hi hr ih =>
    refine ⟨ih.1, fun j => ?_⟩
    by_cases hj : j = i
    · subst hj
      simp only [upd_same]
      exact ⟨(ih.2 j).1, by simp, by simp⟩
    · simp only [upd_other _ _ hj]; exact ih.2 j

/-- C35 (lock-freedom of LL/SC loops): as long as store-conditionals fail only because the reservation was
lost to a store, the number of times a call had to start over is at most the number of stores made to the
object, each of which finished an operation. -/
theorem C35_llsc_retries_bounded_by_progress {Id : Type} [DecidableEq Id] (code : Op → Code W Ret)
    (m₀ : LlMem W) (sys : Sys Id (llMachine code)) (stores : Nat) (fails : Id → Nat)
    (h : LlCount code m₀ sys stores fails) (i : Id) : fails i ≤ stores :=
  ((llCount_bound h).2 i).1

example : ∃ sys : Sys Nat (llMachine (Integral.native (.llsc 32 0) false 8)),
    ∃ f : Nat → Nat, LlCount (Integral.native (.llsc 32 0) false 8) ⟨(0 : BitVec 8), 0⟩ sys 1 f ∧ f 0 = 1 := by
  have h0 := LlCount.init (Id := Nat) (code := Integral.native (.llsc 32 0) false 8) (m₀ := ⟨(0 : BitVec 8), 0⟩)
  have h1 := h0.invoke 0 (.fetchAdd 1) rfl
  have h2 := h1.quiet 0 (.fetchAdd 1) _ _ rfl (LlStep.rmwLink rfl) (by simp)
  have h3 := h2.invoke 1 (.store 5) rfl
  have h4 := h3.commit 1 (.store 5) _ _ ⟨(5 : BitVec 8), 1⟩ rfl (LlStep.store rfl) (by decide)
  have h5 := h4.fail 0 (.fetchAdd 1) _ _ rfl (LlStep.rmwScFail rfl) (by decide)
  exact ⟨_, _, h5, rfl⟩

/-! ### C36 -/

/-- Every body can run to completion from every word. -/
theorem run_exists (c : Code W Ret) (w : W) : ∃ w' r, c.Run w w' r := by
  classical
  cases c with
  | load k => exact ⟨_, _, .load⟩
  | store v r => exact ⟨_, _, .store⟩
  | casWeak e d k => exact ⟨_, _, .weakFail⟩
  | casStrong e d k =>
    by_cases h : w = e
    · subst h; exact ⟨_, _, .strongOk⟩
    · exact ⟨_, _, .strongFail h⟩
  | rmw f k => exact ⟨_, _, .rmw⟩

section lock
variable {Addr : Type} [DecidableEq Addr] {idx : Addr → Nat} {code : Op → Code W Ret}

/-- A continuation of an execution in which the calls in `who` only take steps and return. -/
inductive Runs {Id : Type} [DecidableEq Id] (idx : Addr → Nat) (code : Op → Code W Ret) (who : Id → Prop) :
    Sys Id (lkMachine idx code) → Sys Id (lkMachine idx code) → Prop where
  | refl (s) : Runs idx code who s s
  | step {s s'} (i : Id) (op : Addr × Op) (l l' : LkLoc W Ret) (m') : who i → s.calls i = .run op l →
      LkStep idx code op s.sh l m' l' → Runs idx code who ⟨m', upd s.calls i (.run op l')⟩ s' →
      Runs idx code who s s'
  | ret {s s'} (i : Id) (op : Addr × Op) (r : Ret) : who i → s.calls i = .run op (.fin r) →
      Runs idx code who ⟨s.sh, upd s.calls i (.done op r)⟩ s' → Runs idx code who s s'

theorem Runs.trans {Id : Type} [DecidableEq Id] {who : Id → Prop} {s s' s'' : Sys Id (lkMachine idx code)}
    (h : Runs idx code who s s') (h' : Runs idx code who s' s'') : Runs idx code who s s'' := by
  induction h with
  | refl => exact h'
  | step i op l l' m' hw hi hs _ ih => exact .step i op l l' m' hw hi hs (ih h')
  | ret i op r hw hi _ ih => exact .ret i op r hw hi (ih h')

theorem Runs.mono {Id : Type} [DecidableEq Id] {who who' : Id → Prop} (hsub : ∀ i, who i → who' i)
    {s s' : Sys Id (lkMachine idx code)} (h : Runs idx code who s s') : Runs idx code who' s s' := by
  induction h with
  | refl => exact .refl _
  | step i op l l' m' hw hi hs _ ih => exact .step i op l l' m' (hsub i hw) hi hs ih
  | ret i op r hw hi _ ih => exact .ret i op r (hsub i hw) hi ih

/-- The lock of a set flag is held by a call inside its critical section. -/
theorem lk_owner {m₀ : LkMem Addr W} (hfree : ∀ n, m₀.locked n = false) {Id : Type} [DecidableEq Id]
    (hrace : ∀ (sys : Sys Id (lkMachine idx code)) H, Exec (lkMachine idx code) m₀ sys H →
      ∀ i op, sys.calls i ≠ .run op .race)
    {sys : Sys Id (lkMachine idx code)} {H} (h : Exec (lkMachine idx code) m₀ sys H) :
    ∀ n, sys.sh.locked n = true → ∃ i op l, sys.calls i = .run op l ∧ l.crit ∧ idx op.1 = n := by
  induction h with
  | init => intro n hn; rw [hfree n] at hn; cases hn
  | @invoke sys H i op _ hi ih =>
    intro n hn
    obtain ⟨j, o, l, hj, hc, hx⟩ := ih n hn
    refine ⟨j, o, l, ?_, hc, hx⟩
    have hji : j ≠ i := by rintro rfl; rw [hi] at hj; cases hj
    simp only [upd_other _ _ hji]; exact hj
  | @step sys H i op l sh' l' hex hi hst ih =>
    intro n hn
    have hr : l' ≠ .race := by
      rintro rfl
      exact hrace _ _ (Exec.step (M := lkMachine idx code) i op l sh' _ hex hi hst) i op (by simp)
    have keep : ∀ {m' : LkMem Addr W} {l' : LkLoc W Ret}, m'.locked n = sys.sh.locked n →
        m'.locked n = true → (l.crit → l'.crit) →
        ∃ j o k, upd sys.calls i (.run op l') j = .run o k ∧ k.crit ∧ idx o.1 = n := by
      intro m' l' he hn hcr
      rw [he] at hn
      obtain ⟨j, o, k, hj, hc, hx⟩ := ih n hn
      by_cases hji : j = i
      · subst hji
        rw [hi] at hj; cases hj
        exact ⟨j, op, l', by simp, hcr hc, hx⟩
      · exact ⟨j, o, k, by rw [upd_other _ _ hji]; exact hj, hc, hx⟩
    cases hst with
    | @acquire a o _ hl =>
      by_cases e : n = idx a
      · subst e
        exact ⟨i, (a, o), .locked, by simp, trivial, rfl⟩
      · exact keep (m' := ⟨sys.sh.cell, upd sys.sh.locked (idx a) true⟩) (upd_other _ _ e) hn
          (fun h => h.elim)
    | body _ _ => exact keep (m' := sys.sh) rfl hn (fun _ => trivial)
    | bodyNoWrite _ _ => exact keep (m' := sys.sh) rfl hn (fun _ => trivial)
    | bodyRace _ => exact absurd rfl hr
    | writeBegin _ => exact keep (m' := ⟨_, sys.sh.locked⟩) rfl hn (fun _ => trivial)
    | writeRace _ => exact absurd rfl hr
    | writeEnd => exact keep (m' := ⟨_, sys.sh.locked⟩) rfl hn (fun _ => trivial)
    | @release a o _ r =>
      by_cases e : n = idx a
      · subst e; simp at hn
      · have he : (upd sys.sh.locked (idx a) false) n = sys.sh.locked n := upd_other _ _ e
        simp only [he] at hn
        obtain ⟨j, o', k, hj, hc, hx⟩ := ih n hn
        by_cases hji : j = i
        · subst hji
          rw [hi] at hj; cases hj
          exact absurd hx.symm e
        · exact ⟨j, o', k, by simp only [upd_other _ _ hji]; exact hj, hc, hx⟩
  | @ret sys H i op l r _ hi hr ih =>
    intro n hn
    obtain ⟨j, o, k, hj, hc, hx⟩ := ih n hn
    have hji : j ≠ i := by
      rintro rfl; rw [hi] at hj; cases hj
      cases l <;> cases hr
      exact hc
    exact ⟨j, o, k, by simp only [upd_other _ _ hji]; exact hj, hc, hx⟩

/-- A call inside its critical section can finish it alone, and then its lock is free. -/
theorem finish_critical {Id : Type} [DecidableEq Id] (s : Sys Id (lkMachine idx code)) (j : Id)
    (op : Addr × Op) (l : LkLoc W Ret) (hj : s.calls j = .run op l) (hc : l.crit)
    (hcell : l = .locked → ∃ w, s.sh.cell op.1 = .whole w)
    (hcell' : ∀ w' r, l = .toWrite w' r → ∃ w, s.sh.cell op.1 = .whole w) :
    ∃ s', Runs idx code (· = j) s s' ∧ (∃ r, s'.calls j = .done op r) ∧
      s'.sh.locked = upd s.sh.locked (idx op.1) false ∧ (∀ i, i ≠ j → s'.calls i = s.calls i) ∧
      (∀ a, a ≠ op.1 → s'.sh.cell a = s.sh.cell a) ∧
      ((∃ w, s.sh.cell op.1 = .whole w) ∨ (∃ w r, l = .midWrite w r) → ∃ w, s'.sh.cell op.1 = .whole w) := by
  obtain ⟨a, op⟩ := op
  have hwo : ∀ {α} (f : Id → α) x y, upd (upd f j x) j y = upd f j y := by
    intro α f x y; funext k; by_cases hk : k = j
    · subst hk; simp
    · simp [upd_other _ _ hk]
  -- from `unlocking`
  have unl : ∀ (s : Sys Id (lkMachine idx code)) (r : Ret), s.calls j = .run (a, op) (.unlocking r) →
      Runs idx code (· = j) s
        ⟨⟨s.sh.cell, upd s.sh.locked (idx a) false⟩, upd s.calls j (.done (a, op) r)⟩ := by
    intro s r h
    refine .step j (a, op) _ (.fin r) _ rfl h .release ?_
    refine .ret j (a, op) r rfl (by simp) ?_
    simp only [hwo]
    exact .refl _
  -- from `midWrite`
  have mid : ∀ (s : Sys Id (lkMachine idx code)) (w' : W) (r : Ret),
      s.calls j = .run (a, op) (.midWrite w' r) →
      Runs idx code (· = j) s
        ⟨⟨upd s.sh.cell a (.whole w'), upd s.sh.locked (idx a) false⟩, upd s.calls j (.done (a, op) r)⟩ := by
    intro s w' r h
    refine .step j (a, op) _ (.unlocking r) _ rfl h .writeEnd ?_
    have := unl ⟨⟨upd s.sh.cell a (.whole w'), s.sh.locked⟩, upd s.calls j (.run (a, op) (.unlocking r))⟩ r
      (by simp)
    simpa only [hwo] using this
  have hwc : ∀ (f : Addr → Cell W) x y, upd (upd f a x) a y = upd f a y := by
    intro f x y; funext k; by_cases hk : k = a
    · subst hk; simp
    · simp [upd_other _ _ hk]
  -- from `toWrite`
  have tow : ∀ (s : Sys Id (lkMachine idx code)) (w w' : W) (r : Ret), s.sh.cell a = .whole w →
      s.calls j = .run (a, op) (.toWrite w' r) →
      Runs idx code (· = j) s
        ⟨⟨upd s.sh.cell a (.whole w'), upd s.sh.locked (idx a) false⟩, upd s.calls j (.done (a, op) r)⟩ := by
    intro s w w' r hw h
    refine .step j (a, op) _ (.midWrite w' r) _ rfl h (.writeBegin hw) ?_
    have := mid ⟨⟨upd s.sh.cell a (.writing w), s.sh.locked⟩, upd s.calls j (.run (a, op) (.midWrite w' r))⟩ w' r
      (by simp)
    simpa only [hwo, hwc] using this
  cases l with
  | begin => exact hc.elim
  | fin r => exact hc.elim
  | race => exact hc.elim
  | unlocking r =>
    refine ⟨_, unl s r hj, ⟨r, by simp⟩, rfl, fun i hi => by simp [upd_other _ _ hi], fun _ _ => rfl, ?_⟩
    rintro (h | ⟨w, r, h⟩)
    · exact h
    · cases h
  | midWrite w' r =>
    exact ⟨_, mid s w' r hj, ⟨r, by simp⟩, rfl, fun i hi => by simp [upd_other _ _ hi],
      fun b hb => by simp only at hb; simp [upd_other _ _ hb], fun _ => ⟨w', by simp⟩⟩
  | toWrite w' r =>
    obtain ⟨w, hw⟩ := hcell' w' r rfl
    exact ⟨_, tow s w w' r hw hj, ⟨r, by simp⟩, rfl, fun i hi => by simp [upd_other _ _ hi],
      fun b hb => by simp only at hb; simp [upd_other _ _ hb], fun _ => ⟨w', by simp⟩⟩
  | locked =>
    obtain ⟨w, hw⟩ := hcell rfl
    obtain ⟨w', r, hr⟩ := run_exists (code op) w
    have := tow ⟨s.sh, upd s.calls j (.run (a, op) (.toWrite w' r))⟩ w w' r hw (by simp)
    refine ⟨_, .step j (a, op) _ (.toWrite w' r) _ rfl hj (.body hw hr) this, ⟨r, by simp⟩, rfl,
      fun i hi => by simp [upd_other _ _ hi], fun b hb => by simp only at hb; simp [upd_other _ _ hb],
      fun _ => ⟨w', by simp⟩⟩

/-- C36: the lock-based back end cannot deadlock.  From every reachable state, for every call that has
been invoked and has not returned, there is a way to continue in which that call returns; at most one
other call — the one currently holding the lock it needs — has to take steps for that. -/
theorem C36_no_deadlock {σ : Type} {I : W → Prop} {abs : W → σ} {spec : SeqSpec σ Op Ret}
    (hcorrect : Correct code I abs spec) {m₀ : LkMem Addr W} (hfree : ∀ n, m₀.locked n = false)
    (h₀ : ∀ a, ∃ w, m₀.cell a = .whole w ∧ I w) {Id : Type} [DecidableEq Id]
    (sys : Sys Id (lkMachine idx code)) (H) (h : Exec (lkMachine idx code) m₀ sys H)
    (i : Id) (op : Addr × Op) (l : LkLoc W Ret) (hi : sys.calls i = .run op l) :
    ∃ j sys', Runs idx code (fun k => k = i ∨ k = j) sys sys' ∧ ∃ r, sys'.calls i = .done op r := by
  have hinv := fun {Id} [DecidableEq Id] {sys : Sys Id (lkMachine idx code)} {H}
    (h : Exec (lkMachine idx code) m₀ sys H) => lk_inv hcorrect h₀ h
  have hrace : ∀ (sys : Sys Id (lkMachine idx code)) H, Exec (lkMachine idx code) m₀ sys H →
      ∀ i op, sys.calls i ≠ .run op .race := fun sys H h i op hi => (hinv h).2.1 i op _ hi
  have owner := lk_owner (idx := idx) (code := code) hfree hrace h
  obtain ⟨hG, hP, hQ⟩ := hinv h
  have cellof : ∀ j (o : Addr × Op) k, sys.calls j = .run o k → k.crit →
      (k = .locked → ∃ w, sys.sh.cell o.1 = .whole w) ∧
      (∀ w' r, k = .toWrite w' r → ∃ w, sys.sh.cell o.1 = .whole w) := by
    intro j o k hj _
    have := hP j o k hj
    refine ⟨?_, ?_⟩
    · rintro rfl; exact this.2 _ rfl
    · rintro w' r rfl; exact this.2.1 _ rfl
  by_cases hc : l.crit
  · obtain ⟨s', hr, hd, _⟩ := finish_critical sys i op l hi hc (cellof i op l hi hc).1 (cellof i op l hi hc).2
    exact ⟨i, s', hr.mono (fun _ h => .inl h), hd⟩
  cases l with
  | locked => exact absurd trivial hc
  | toWrite => exact absurd trivial hc
  | midWrite => exact absurd trivial hc
  | unlocking => exact absurd trivial hc
  | race => exact absurd hi (hrace sys H h i op)
  | fin r =>
    exact ⟨i, _, .ret i op r (.inl rfl) hi (.refl _), r, by simp⟩
  | begin =>
    -- once the lock is free, `i` acquires it and finishes
    have go : ∀ (s : Sys Id (lkMachine idx code)), s.calls i = .run op .begin →
        s.sh.locked (idx op.1) = false → (∃ w, s.sh.cell op.1 = .whole w) →
        ∃ s', Runs idx code (· = i) s s' ∧ ∃ r, s'.calls i = .done op r := by
      intro s hs hl hw
      obtain ⟨a, o⟩ := op
      have hst : LkStep idx code (a, o) s.sh .begin ⟨s.sh.cell, upd s.sh.locked (idx a) true⟩ .locked :=
        .acquire hl
      obtain ⟨s', hr, hd, _⟩ := finish_critical (idx := idx) (code := code)
        ⟨⟨s.sh.cell, upd s.sh.locked (idx a) true⟩, upd s.calls i (.run (a, o) .locked)⟩ i (a, o) .locked
        (by simp) trivial (fun _ => hw) (fun _ _ h => by cases h)
      exact ⟨s', .step i (a, o) _ _ _ rfl hs hst hr, hd⟩
    cases hl : sys.sh.locked (idx op.1) with
    | false =>
      obtain ⟨s', hr, hd⟩ := go sys hi hl (hG.2 _ hl)
      exact ⟨i, s', hr.mono (fun _ h => .inl h), hd⟩
    | true =>
      obtain ⟨j, o, k, hj, hkc, hx⟩ := owner _ hl
      have hji : i ≠ j := by rintro rfl; rw [hi] at hj; cases hj; exact hkc
      obtain ⟨s', hr, hd, hlk, hcalls, hcells, hcell⟩ :=
        finish_critical sys j o k hj hkc (cellof j o k hj hkc).1 (cellof j o k hj hkc).2
      have hPk := hP j o k hj
      have hw : ∃ w, s'.sh.cell op.1 = .whole w := by
        by_cases e : op.1 = o.1
        · rw [e]
          apply hcell
          cases k with
          | begin => exact hkc.elim
          | fin r => exact hkc.elim
          | race => exact hkc.elim
          | locked => exact .inl (hPk.2 _ rfl)
          | unlocking r => exact .inl (hPk.2 _ rfl)
          | toWrite w' r => exact .inl (hPk.2.1 _ rfl)
          | midWrite w' r => exact .inr ⟨_, _, rfl⟩
        · rw [hcells _ e]
          cases k with
          | begin => exact hkc.elim
          | fin r => exact hkc.elim
          | race => exact hkc.elim
          | locked => exact hPk.2 _ hx.symm
          | unlocking r => exact hPk.2 _ hx.symm
          | toWrite w' r => exact hPk.2.1 _ hx.symm
          | midWrite w' r => exact hPk.2.1 _ hx.symm e
      obtain ⟨s'', hr2, hd2⟩ := go s' ((hcalls i hji).trans hi) (by rw [hlk, hx]; simp) hw
      exact ⟨j, s'', (hr.mono (fun _ h => .inr h)).trans (hr2.mono (fun _ h => .inl h)), hd2⟩

/-- Non-vacuity: call 1 waits for a lock that call 0 holds. -/
example : ∃ sys : Sys Nat (lkMachine (fun _ : Bool => 0) (Integral.native .locked false 16)), ∃ H,
    Exec (lkMachine (fun _ : Bool => 0) (Integral.native .locked false 16)) (freshMem false 16 fun _ => 1) sys H ∧
    sys.sh.locked 0 = true ∧ sys.calls 1 = .run (false, .load) .begin := by
  have h0 := Exec.init (Id := Nat) (M := lkMachine (fun _ : Bool => 0) (Integral.native .locked false 16))
    (sh₀ := freshMem false 16 fun _ => 1)
  have h1 := h0.invoke 0 (true, .fetchAdd 4) rfl
  have h2 := h1.step 0 (true, .fetchAdd 4) _ _ _ rfl (LkStep.acquire rfl)
  have h3 := h2.invoke 1 (false, .load) rfl
  exact ⟨_, _, h3, rfl, rfl⟩

end lock

end Verif.Concurrent
