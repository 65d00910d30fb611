import Verif.Signal.Handler

/-
C35 for back ends that mix instructions, compare-exchange loops and loops with reservations on one object, and for the
one with the kernel's compare-exchange function.
-/

namespace Verif.Concurrent

open Verif.Signal (mixSpurious khSpurious)

variable {W Op Ret : Type}

/-! ### Mixtures -/

/-- The call starts its loop over. -/
def mixRetry : MixLoc W Ret → MixLoc W Ret → Prop
  | .loop _, .loop _ => True
  | .loopLinked _ _, .loop _ => True
  | .linked _ _, .begin => True
  | _, _ => False

/-- Executions without spurious failures, with the number of times each call has started over. -/
inductive MixCount {Id : Type} [DecidableEq Id] (code : Op → Code W Ret) (m₀ : LlMem W) :
    Sys Id (mixMachine code) → (Id → Nat) → Prop where
  | init : MixCount code m₀ ⟨m₀, fun _ => .idle⟩ (fun _ => 0)
  | invoke {sys f} (i : Id) (op : Op) : MixCount code m₀ sys f → sys.calls i = .idle →
      MixCount code m₀ ⟨sys.sh, upd sys.calls i (.run op .begin)⟩ f
  | step {sys f} (i : Id) (op : Op) (l l' : MixLoc W Ret) (m' : LlMem W) : MixCount code m₀ sys f →
      sys.calls i = .run op l → MixStep code op sys.sh l m' l' → ¬ mixRetry l l' →
      MixCount code m₀ ⟨m', upd sys.calls i (.run op l')⟩ f
  | retry {sys f} (i : Id) (op : Op) (l l' : MixLoc W Ret) (m' : LlMem W) : MixCount code m₀ sys f →
      sys.calls i = .run op l → MixStep code op sys.sh l m' l' → mixRetry l l' → ¬ mixSpurious code op sys.sh l l' →
      MixCount code m₀ ⟨m', upd sys.calls i (.run op l')⟩ (upd f i (f i + 1))
  | ret {sys f} (i : Id) (op : Op) (l : MixLoc W Ret) (r : Ret) : MixCount code m₀ sys f →
      sys.calls i = .run op l → (mixMachine code).result l = some r →
      MixCount code m₀ ⟨sys.sh, upd sys.calls i (.done op r)⟩ f

theorem MixCount.exec {Id : Type} [DecidableEq Id] {code : Op → Code W Ret} {m₀ : LlMem W}
    {sys : Sys Id (mixMachine code)} {f} (h : MixCount code m₀ sys f) : ∃ H, Exec (mixMachine code) m₀ sys H := by
  induction h with
  | init => exact ⟨_, .init⟩
  | invoke i op _ hi ih => obtain ⟨H, hH⟩ := ih; exact ⟨_, hH.invoke i op hi⟩
  | step i op l l' m' _ hi hs _ ih => obtain ⟨H, hH⟩ := ih; exact ⟨_, Exec.step (M := mixMachine code) i op l m' l' hH hi hs⟩
  | retry i op l l' m' _ hi hs _ _ ih =>
    obtain ⟨H, hH⟩ := ih; exact ⟨_, Exec.step (M := mixMachine code) i op l m' l' hH hi hs⟩
  | ret i op l r _ hi hr ih => obtain ⟨H, hH⟩ := ih; exact ⟨_, hH.ret i op l r hi hr⟩

/-- A step that stores finishes the operation that made it; no other step changes the object. -/
theorem C35_mix_store_finishes {code : Op → Code W Ret} {op m l m' l'} (h : MixStep code op m l m' l') :
    m' = m ∨ (m'.ver = m.ver + 1 ∧ ∃ r, l' = .fin r) := by
  cases h <;> first | exact .inl rfl | exact .inr ⟨rfl, _, rfl⟩

/-- How often a call may have started over, given the number of stores and where it is. -/
def mixBound (m₀ m : LlMem W) (f : Nat) : MixLoc W Ret → Prop
  | .begin => m₀.ver * 2 + f ≤ m.ver * 2
  | .loop old => m₀.ver * 2 + f ≤ m.ver * 2 ∨ (m₀.ver * 2 + f ≤ m.ver * 2 + 1 ∧ old = m.word)
  | .loopLinked _ v => m₀.ver * 2 + f ≤ v * 2 + 1 ∧ v ≤ m.ver
  | .linked _ v => m₀.ver * 2 + f ≤ v * 2 ∧ v ≤ m.ver
  | .fin _ => m₀.ver * 2 + f ≤ m.ver * 2 + 1

theorem mixBound_le {m₀ m : LlMem W} {f : Nat} {l : MixLoc W Ret} (h : mixBound m₀ m f l) :
    m₀.ver * 2 + f ≤ m.ver * 2 + 1 := by
  cases l <;> simp only [mixBound] at h <;> omega

/-- Stores of others make the bound larger. -/
theorem mixBound_store {m₀ m m' : LlMem W} {f : Nat} {l : MixLoc W Ret} (h : mixBound m₀ m f l)
    (hv : m'.ver = m.ver + 1) : mixBound m₀ m' f l := by
  cases l <;> simp only [mixBound] at h ⊢ <;> omega

theorem mixBound_step {code : Op → Code W Ret} {op} {m₀ m m' : LlMem W} {f : Nat} {l l' : MixLoc W Ret}
    (h : mixBound m₀ m f l) (hs : MixStep code op m l m' l') (hr : ¬ mixRetry l l') : mixBound m₀ m' f l' := by
  cases hs <;> first | exact absurd trivial hr | (simp only [mixBound] at h ⊢; omega)

theorem mixBound_retry {code : Op → Code W Ret} {op} {m₀ m m' : LlMem W} {f : Nat} {l l' : MixLoc W Ret}
    (h : mixBound m₀ m f l) (hs : MixStep code op m l m' l') (hr : mixRetry l l')
    (hn : ¬ mixSpurious code op m l l') : mixBound m₀ m' (f + 1) l' := by
  cases hs with
  | loopFail _ =>
    have hne : ¬ m.word = _ := hn
    rcases h with h | ⟨_, rfl⟩
    · right; exact ⟨by omega, rfl⟩
    · exact absurd rfl hne
  | loopScFail _ =>
    have hne : ¬ m.ver = _ := hn
    obtain ⟨h1, h2⟩ := h
    left; omega
  | rmwScFail _ =>
    have hne : ¬ m.ver = _ := hn
    obtain ⟨h1, h2⟩ := h
    simp only [mixBound]; omega
  | strongScFail _ =>
    have hne : ¬ m.ver = _ := hn
    obtain ⟨h1, h2⟩ := h
    simp only [mixBound]; omega
  | _ => exact hr.elim

theorem mixCount_bound {Id : Type} [DecidableEq Id] {code : Op → Code W Ret} {m₀ : LlMem W}
    {sys : Sys Id (mixMachine code)} {f} (h : MixCount code m₀ sys f) :
    ∀ i, m₀.ver * 2 + f i ≤ sys.sh.ver * 2 + 1 ∧ (sys.calls i = .idle → f i = 0) ∧
      (∀ op l, sys.calls i = .run op l → mixBound m₀ sys.sh (f i) l) ∧ m₀.ver ≤ sys.sh.ver := by
  induction h with
  | init => intro i; simp
  | @invoke sys f i op _ hi ih =>
    intro j
    by_cases hj : j = i
    · subst hj
      obtain ⟨h1, h2, h3, h4⟩ := ih j
      have h0 := h2 hi
      simp only [upd_same]
      refine ⟨h1, by simp, ?_, h4⟩
      intro o l h; injection h with _ h; subst h; simp only [mixBound]; omega
    · simp only [upd_other _ _ hj]; exact ih j
  | @step sys f i op l l' m' _ hi hs hr ih =>
    intro j
    obtain ⟨h1, h2, h3, h4⟩ := ih j
    by_cases hj : j = i
    · subst hj
      have hb := mixBound_step (h3 _ _ hi) hs hr
      simp only [upd_same]
      refine ⟨mixBound_le hb, by simp, ?_, ?_⟩
      · intro o l h; injection h with _ h; subst h; exact hb
      · rcases C35_mix_store_finishes hs with rfl | ⟨e, _⟩
        · exact h4
        · omega
    · simp only [upd_other _ _ hj]
      rcases C35_mix_store_finishes hs with rfl | ⟨e, _⟩
      · exact ⟨h1, h2, h3, h4⟩
      · exact ⟨by omega, h2, fun o l h => mixBound_store (h3 o l h) e, by omega⟩
  | @retry sys f i op l l' m' _ hi hs hr hn ih =>
    intro j
    obtain ⟨h1, h2, h3, h4⟩ := ih j
    by_cases hj : j = i
    · subst hj
      have hb := mixBound_retry (h3 _ _ hi) hs hr hn
      simp only [upd_same]
      refine ⟨mixBound_le hb, by simp, ?_, ?_⟩
      · intro o l h; injection h with _ h; subst h; exact hb
      · rcases C35_mix_store_finishes hs with rfl | ⟨e, _⟩
        · exact h4
        · omega
    · simp only [upd_other _ _ hj]
      rcases C35_mix_store_finishes hs with rfl | ⟨e, _⟩
      · exact ⟨h1, h2, h3, h4⟩
      · exact ⟨by omega, h2, fun o l h => mixBound_store (h3 o l h) e, by omega⟩
  | @ret sys f i op l r _ hi hr ih =>
    intro j
    by_cases hj : j = i
    · subst hj
      obtain ⟨h1, h2, h3, h4⟩ := ih j
      simp only [upd_same]
      exact ⟨h1, by simp, by simp, h4⟩
    · simp only [upd_other _ _ hj]; exact ih j

/-- C35, for any mixture: without spurious failures a call has started over at most twice for every store made to the
object, each of which finished an operation (`C35_mix_store_finishes`), and once for its first snapshot. -/
theorem C35_mix_retries_bounded_by_progress {Id : Type} [DecidableEq Id] (code : Op → Code W Ret) (m₀ : LlMem W)
    (sys : Sys Id (mixMachine code)) (fails : Id → Nat) (h : MixCount code m₀ sys fails) (i : Id) :
    fails i ≤ 2 * (sys.sh.ver - m₀.ver) + 1 := by
  have := mixCount_bound h i
  omega

/-- Three times for one store: a torn snapshot, a lost reservation, and the value reported with it. -/
example : ∃ sys : Sys Nat (mixMachine (Integral.native .casOnly false 8)), ∃ f : Nat → Nat,
    MixCount (Integral.native .casOnly false 8) ⟨(0 : BitVec 8), 0⟩ sys f ∧ sys.sh.ver = 1 ∧ f 0 = 3 := by
  have h0 := MixCount.init (Id := Nat) (code := Integral.native .casOnly false 8) (m₀ := ⟨(0 : BitVec 8), 0⟩)
  have h1 := h0.invoke 0 (.fetchAdd 1) rfl
  have h2 := h1.step 0 (.fetchAdd 1) _ _ _ rfl (MixStep.snapshot (7 : BitVec 8) rfl) (by simp [mixRetry])
  have h3 := h2.retry 0 (.fetchAdd 1) _ _ _ rfl (MixStep.loopFail rfl) trivial (by simp [mixSpurious])
  have h4 := h3.step 0 (.fetchAdd 1) _ _ _ rfl (MixStep.loopLink (m := ⟨0, 0⟩) rfl) (by simp [mixRetry])
  have h5 := h4.invoke 1 (.store 5) rfl
  have hst : ((Integral.native .casOnly false 8) (.store (5 : BitVec 8))).Run (0 : BitVec 8) 5 .unit := Code.Run.store
  have h6 := h5.step 1 (.store 5) _ _ _ rfl (MixStep.one (code := Integral.native .casOnly false 8) (m := ⟨0, 0⟩) hst)
    (by simp [mixRetry])
  have h7 := h6.retry 0 (.fetchAdd 1) _ _ _ rfl (MixStep.loopScFail rfl) trivial (by simp [mixSpurious])
  have h8 := h7.retry 0 (.fetchAdd 1) _ _ _ rfl (MixStep.loopFail rfl) trivial (by simp [mixSpurious])
  exact ⟨_, _, h8, rfl, rfl⟩

/-! ### The kernel's function -/

/-- Executions without spurious failures, with the number of steps that changed the object and the number of times the
kernel's function has failed for each call. -/
inductive KhCount {Id : Type} [DecidableEq Id] (code : Op → Code W Ret) (w₀ : W) :
    Sys Id (khMachine code) → Nat → (Id → Nat) → Prop where
  | init : KhCount code w₀ ⟨w₀, fun _ => .idle⟩ 0 (fun _ => 0)
  | invoke {sys c f} (i : Id) (op : Op) : KhCount code w₀ sys c f → sys.calls i = .idle →
      KhCount code w₀ ⟨sys.sh, upd sys.calls i (.run op .begin)⟩ c f
  | quiet {sys c f} (i : Id) (op : Op) (l l' : KhLoc W Ret) : KhCount code w₀ sys c f →
      sys.calls i = .run op l → KhStep code op sys.sh l sys.sh l' → l' ≠ .reread →
      KhCount code w₀ ⟨sys.sh, upd sys.calls i (.run op l')⟩ c f
  | commit {sys c f} (i : Id) (op : Op) (l l' : KhLoc W Ret) (w' : W) : KhCount code w₀ sys c f →
      sys.calls i = .run op l → KhStep code op sys.sh l w' l' → w' ≠ sys.sh →
      KhCount code w₀ ⟨w', upd sys.calls i (.run op l')⟩ (c + 1) f
  | fail {sys c f} (i : Id) (op : Op) (l : KhLoc W Ret) : KhCount code w₀ sys c f →
      sys.calls i = .run op l → KhStep code op sys.sh l sys.sh .reread → ¬ khSpurious code op sys.sh l .reread →
      KhCount code w₀ ⟨sys.sh, upd sys.calls i (.run op .reread)⟩ c (upd f i (f i + 1))
  | ret {sys c f} (i : Id) (op : Op) (l : KhLoc W Ret) (r : Ret) : KhCount code w₀ sys c f →
      sys.calls i = .run op l → (khMachine code).result l = some r →
      KhCount code w₀ ⟨sys.sh, upd sys.calls i (.done op r)⟩ c f

/-- A step that changes the object finishes the operation that made it. -/
theorem C35_kernel_commit_finishes {code : Op → Code W Ret} {op w l w' l'} (h : KhStep code op w l w' l')
    (hne : w' ≠ w) : ∃ r, l' = .fin r := by
  cases h <;> first | exact ⟨_, rfl⟩ | exact absurd rfl hne

/-- How often the function may have failed, given the number of changes and where the call is. -/
def khBound (code : Op → Code W Ret) (op : Op) (w : W) (c f : Nat) : KhLoc W Ret → Prop
  | .begin => f ≤ c
  | .loop old => f ≤ c ∨ (f ≤ c + 1 ∧ old = w)
  | .reread => f ≤ c ∨ (f ≤ c + 1 ∧ ∀ e d k, code op = .casStrong e d k → w ≠ e)
  | .fin _ => f ≤ c + 1

theorem khBound_le {code : Op → Code W Ret} {op} {w : W} {c f : Nat} {l : KhLoc W Ret} (h : khBound code op w c f l) :
    f ≤ c + 1 := by
  cases l <;> simp only [khBound] at h <;> omega

theorem khBound_commit {code : Op → Code W Ret} {op} {w w' : W} {c f : Nat} {l : KhLoc W Ret}
    (h : khBound code op w c f l) : khBound code op w' (c + 1) f l := by
  have := khBound_le h
  cases l <;> simp only [khBound] at h ⊢ <;> omega

theorem khBound_step {code : Op → Code W Ret} {op} {w w' : W} {c f : Nat} {l l' : KhLoc W Ret}
    (h : khBound code op w c f l) (hs : KhStep code op w l w' l') (hl : l' ≠ .reread) (hw : w' = w) :
    khBound code op w c f l' := by
  cases hs with
  | strongRetry he =>
    rcases h with h | ⟨_, h⟩
    · exact h
    · exact absurd rfl (h _ _ _ he)
  | loopReread _ => exact h.imp id fun h => ⟨h.1, rfl⟩
  | snapshot _ _ => exact .inl h
  | weakHelperFail _ => exact absurd rfl hl
  | strongHelperFail _ => exact absurd rfl hl
  | loopHelperFail _ => exact absurd rfl hl
  | _ => have := khBound_le h; simp only [khBound]; omega

theorem khBound_fail {code : Op → Code W Ret} {op} {w w' : W} {c f : Nat} {l : KhLoc W Ret}
    (h : khBound code op w c f l) (hs : KhStep code op w l w' .reread) (hn : ¬ khSpurious code op w l .reread) :
    khBound code op w c (f + 1) .reread := by
  cases hs with
  | weakHelperFail hc =>
    simp only [khBound] at h
    exact .inr ⟨by omega, fun e d k h' => by rw [hc] at h'; cases h'⟩
  | strongHelperFail hc =>
    simp only [khBound] at h
    refine .inr ⟨by omega, fun e d k h' e' => hn ?_⟩
    subst e'; exact ⟨_, _, .inr h'⟩
  | loopHelperFail hc =>
    have hne : ¬ w = _ := hn
    rcases h with h | ⟨_, rfl⟩
    · exact .inr ⟨by omega, fun e d k h' => by rw [hc] at h'; cases h'⟩
    · exact absurd rfl hne

theorem khCount_bound {Id : Type} [DecidableEq Id] {code : Op → Code W Ret} {w₀ : W}
    {sys : Sys Id (khMachine code)} {c f} (h : KhCount code w₀ sys c f) :
    ∀ i, f i ≤ c + 1 ∧ (sys.calls i = .idle → f i = 0) ∧
      (∀ op l, sys.calls i = .run op l → khBound code op sys.sh c (f i) l) := by
  induction h with
  | init => intro i; simp
  | @invoke sys c f i op _ hi ih =>
    intro j
    by_cases hj : j = i
    · subst hj
      obtain ⟨h1, h2, h3⟩ := ih j
      have h0 := h2 hi
      simp only [upd_same]
      refine ⟨h1, by simp, ?_⟩
      intro o l h; injection h with _ h; subst h; simp only [khBound]; omega
    · simp only [upd_other _ _ hj]; exact ih j
  | @quiet sys c f i op l l' _ hi hs hl ih =>
    intro j
    obtain ⟨h1, h2, h3⟩ := ih j
    by_cases hj : j = i
    · subst hj
      simp only [upd_same]
      refine ⟨h1, by simp, ?_⟩
      intro o l h; injection h with ho h; subst h; subst ho; exact khBound_step (h3 _ _ hi) hs hl rfl
    · simp only [upd_other _ _ hj]; exact ⟨h1, h2, h3⟩
  | @commit sys c f i op l l' w' _ hi hs hne ih =>
    intro j
    obtain ⟨h1, h2, h3⟩ := ih j
    by_cases hj : j = i
    · subst hj
      simp only [upd_same]
      obtain ⟨r, rfl⟩ := C35_kernel_commit_finishes hs hne
      refine ⟨by omega, by simp, ?_⟩
      intro o l h; injection h with _ h; subst h; simp only [khBound]; omega
    · simp only [upd_other _ _ hj]
      exact ⟨by omega, h2, fun o l h => khBound_commit (h3 o l h)⟩
  | @fail sys c f i op l _ hi hs hn ih =>
    intro j
    obtain ⟨h1, h2, h3⟩ := ih j
    by_cases hj : j = i
    · subst hj
      simp only [upd_same]
      have hb := khBound_fail (h3 _ _ hi) hs hn
      refine ⟨khBound_le hb, by simp, ?_⟩
      intro o l h; injection h with ho h; subst h; subst ho; exact hb
    · simp only [upd_other _ _ hj]; exact ⟨h1, h2, h3⟩
  | @ret sys c f i op l r _ hi hr ih =>
    intro j
    by_cases hj : j = i
    · subst hj
      obtain ⟨h1, h2, h3⟩ := ih j
      simp only [upd_same]
      exact ⟨h1, by simp, by simp⟩
    · simp only [upd_other _ _ hj]; exact ih j

/-- C35, for the kernel's function: it fails for a call at most once for every change of the object, each of which
finished an operation (`C35_kernel_commit_finishes`), and once more. -/
theorem C35_kernel_retries_bounded_by_progress {Id : Type} [DecidableEq Id] (code : Op → Code W Ret) (w₀ : W)
    (sys : Sys Id (khMachine code)) (commits : Nat) (fails : Id → Nat) (h : KhCount code w₀ sys commits fails) (i : Id) :
    fails i ≤ commits + 1 :=
  (khCount_bound h i).1

/-- A strong compare-exchange that expects 3: the function fails, the value becomes 3 before it is read, another store
makes the function fail again. -/
example : ∃ sys : Sys Nat (khMachine (Integral.native .casOnly false 8)), ∃ f : Nat → Nat,
    KhCount (Integral.native .casOnly false 8) (0 : BitVec 8) sys 2 f ∧ f 0 = 2 := by
  have h0 := KhCount.init (Id := Nat) (code := Integral.native .casOnly false 8) (w₀ := (0 : BitVec 8))
  have h1 := h0.invoke 0 (.casStrong 3 4) rfl
  have h2 := h1.fail 0 (.casStrong 3 4) _ rfl (KhStep.strongHelperFail rfl) (by rintro ⟨d, k, h | h⟩ <;> cases h)
  have h3 := h2.invoke 1 (.store 3) rfl
  have h4 := h3.commit 1 (.store 3) _ _ (3 : BitVec 8) rfl (KhStep.store rfl) (by decide)
  have h5 := h4.quiet 0 (.casStrong 3 4) _ _ rfl (KhStep.strongRetry rfl) (by simp)
  have h6 := h5.invoke 2 (.store 5) rfl
  have h7 := h6.commit 2 (.store 5) _ _ (5 : BitVec 8) rfl (KhStep.store rfl) (by decide)
  have h8 := h7.fail 0 (.casStrong 3 4) _ rfl (KhStep.strongHelperFail rfl) (by rintro ⟨d, k, h | h⟩ <;> cases h)
  exact ⟨_, _, h8, rfl⟩

end Verif.Concurrent
