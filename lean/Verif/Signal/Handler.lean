import Verif.Concurrent.Progress

/-
C72: operations that do not use locks can be called in signal handlers; operations that use locks cannot.
-/

namespace Verif.Signal

open Verif Verif.Concurrent

variable {W Op Ret : Type}

/-! ### Specification -/

/-- `n` steps of one call, while all others are stopped, none of which is in `spurious`. -/
inductive Alone {Sh : Type} (M : Machine Sh Op Ret) (spurious : Op → Sh → M.Loc → M.Loc → Prop) (op : Op) (m : Sh)
    (l : M.Loc) : Nat → Sh → M.Loc → Prop where
  | refl : Alone M spurious op m l 0 m l
  | step {n m' l'} (m'' l'') : Alone M spurious op m l n m' l' → M.step op m' l' m'' l'' → ¬ spurious op m' l' l'' →
      Alone M spurious op m l (n + 1) m'' l''

/-- Executed alone from the memory `m`, the call returns within `n` steps: no execution is longer, and those that are
shorter and have not come to the end can go on. -/
def ReturnsWithin {Sh : Type} (M : Machine Sh Op Ret) (spurious : Op → Sh → M.Loc → M.Loc → Prop) (n : Nat) : Prop :=
  ∀ op m k m' l', Alone M spurious op m (M.start op) k m' l' →
    k ≤ n ∧ ((∃ r, M.result l' = some r) ∨ ∃ m'' l'', M.step op m' l' m'' l'' ∧ ¬ spurious op m' l' l'')

/-- Spurious failures of a mixture of instructions, compare-exchange loops and loops with reservations: a
compare-exchange fails although the object has the expected value, or a conditional store although nobody stored since
the reservation. -/
def mixSpurious (code : Op → Code W Ret) (op : Op) (m : LlMem W) : MixLoc W Ret → MixLoc W Ret → Prop
  | .loop old, .loop _ => m.word = old
  | .loopLinked _ v, .loop _ => m.ver = v
  | .linked _ v, .begin => m.ver = v
  | .linked x v, .fin r => m.ver = v ∧ ∃ e d k, code op = .casWeak e d k ∧ r = k false x ∧ r ≠ k true x
  | _, _ => False

/-- Spurious failures of the kernel's compare-exchange: the object has the expected value. -/
def khSpurious (code : Op → Code W Ret) (op : Op) (w : W) : KhLoc W Ret → KhLoc W Ret → Prop
  | .loop old, .reread => w = old
  | .begin, .reread => ∃ d k, code op = .casWeak w d k ∨ code op = .casStrong w d k
  | _, _ => False

/-! ### Lemmas -/

/-- Steps left, for the call at `l`. -/
def mixLeft [DecidableEq W] (m : LlMem W) : MixLoc W Ret → Nat
  | .begin => 5
  | .loop old => if old = m.word then 2 else 3
  | .loopLinked _ v => if v = m.ver then 1 else 4
  | .linked _ v => if v = m.ver then 1 else 6
  | .fin _ => 0

/-- The states a call comes to. -/
def MixOk (code : Op → Code W Ret) (op : Op) : MixLoc W Ret → Prop
  | .loop _ => ∃ f k, code op = .rmw f k
  | .loopLinked _ _ => ∃ f k, code op = .rmw f k
  | .linked _ _ => (∃ f k, code op = .rmw f k) ∨ (∃ e d k, code op = .casWeak e d k) ∨ ∃ e d k, code op = .casStrong e d k
  | _ => True

theorem mix_ok {code : Op → Code W Ret} {op m l m' l'} (h : MixStep code op m l m' l') : MixOk code op l' := by
  cases h <;> simp_all [MixOk]

theorem mix_left [DecidableEq W] {code : Op → Code W Ret} {op m l m' l'} (h : MixStep code op m l m' l')
    (hs : ¬ mixSpurious code op m l l') : mixLeft m' l' < mixLeft m l := by
  cases h <;> simp_all [mixLeft, mixSpurious] <;> (repeat' split) <;> simp_all <;> omega

theorem mix_go {code : Op → Code W Ret} {op} {m : LlMem W} {l : MixLoc W Ret} (h : MixOk code op l)
    (hl : ∀ r, l ≠ .fin r) : ∃ m' l', MixStep code op m l m' l' ∧ ¬ mixSpurious code op m l l' := by
  classical
  cases l with
  | begin =>
    obtain ⟨w', r, hr⟩ := run_exists (code op) m.word
    exact ⟨_, _, .one hr, by simp [mixSpurious]⟩
  | loop old =>
    obtain ⟨f, k, h⟩ := h
    by_cases e : m.word = old
    · subst e; exact ⟨_, _, .loopOk h, by simp [mixSpurious]⟩
    · exact ⟨_, _, .loopFail h, by simpa [mixSpurious] using e⟩
  | loopLinked x v =>
    obtain ⟨f, k, h⟩ := h
    by_cases e : m.ver = v
    · subst e; exact ⟨_, _, .loopSc h, by simp [mixSpurious]⟩
    · exact ⟨_, _, .loopScFail h, by simpa [mixSpurious] using e⟩
  | linked x v =>
    by_cases hv : m.ver = v
    · subst hv
      rcases h with ⟨f, k, h⟩ | ⟨e, d, k, h⟩ | ⟨e, d, k, h⟩
      · exact ⟨_, _, .rmwSc h, by simp [mixSpurious, h]⟩
      · refine ⟨_, _, .weakSc h, ?_⟩
        rintro ⟨-, e', d', k', h1, h2, h3⟩
        rw [h] at h1; cases h1; exact h3 rfl
      · exact ⟨_, _, .strongSc h, by simp [mixSpurious, h]⟩
    · rcases h with ⟨f, k, h⟩ | ⟨e, d, k, h⟩ | ⟨e, d, k, h⟩
      · exact ⟨_, _, .rmwScFail h, by simpa [mixSpurious] using hv⟩
      · exact ⟨_, _, .weakScFail h, fun h => hv h.1⟩
      · exact ⟨_, _, .strongScFail h, by simpa [mixSpurious] using hv⟩
  | fin r => exact absurd rfl (hl r)

/-- Steps left, with the kernel's compare-exchange. -/
def khLeft [DecidableEq W] (w : W) : KhLoc W Ret → Nat
  | .begin => 4
  | .loop old => if old = w then 1 else 3
  | .reread => 2
  | .fin _ => 0

/-- The states a call comes to. -/
def KhOk (code : Op → Code W Ret) (op : Op) (w : W) : KhLoc W Ret → Prop
  | .loop _ => ∃ f k, code op = .rmw f k
  | .reread => (∃ f k, code op = .rmw f k) ∨ (∃ e d k, code op = .casWeak e d k) ∨
      ∃ e d k, code op = .casStrong e d k ∧ w ≠ e
  | _ => True

theorem kh_ok {code : Op → Code W Ret} {op w l w' l'} (h : KhStep code op w l w' l') (hs : ¬ khSpurious code op w l l') :
    KhOk code op w' l' := by
  cases h with
  | strongHelperFail h =>
    refine .inr (.inr ⟨_, _, _, h, fun e => hs ?_⟩)
    subst e; exact ⟨_, _, .inr h⟩
  | _ => simp_all [KhOk]

theorem kh_left [DecidableEq W] {code : Op → Code W Ret} {op w l w' l'} (h : KhStep code op w l w' l')
    (hs : ¬ khSpurious code op w l l') (hk : KhOk code op w l) : khLeft w' l' < khLeft w l := by
  cases h with
  | strongRetry h =>
    rcases hk with ⟨_, _, h'⟩ | ⟨_, _, _, h'⟩ | ⟨_, _, _, h', hne⟩ <;> rw [h] at h' <;> cases h'
    exact absurd rfl hne
  | _ => simp_all [khLeft, khSpurious] <;> (repeat' split) <;> simp_all <;> omega

theorem kh_go {code : Op → Code W Ret} {op} {w : W} {l : KhLoc W Ret} (h : KhOk code op w l)
    (hl : ∀ r, l ≠ .fin r) : ∃ w' l', KhStep code op w l w' l' ∧ ¬ khSpurious code op w l l' := by
  classical
  cases l with
  | begin =>
    cases hc : code op with
    | load k => exact ⟨_, _, .load hc, by simp [khSpurious]⟩
    | store v r => exact ⟨_, _, .store hc, by simp [khSpurious]⟩
    | casWeak e d k =>
      by_cases e : w = e
      · subst e; exact ⟨_, _, .weakOk hc, by simp [khSpurious]⟩
      · exact ⟨_, _, .weakHelperFail hc, by simpa [khSpurious, hc, eq_comm] using e⟩
    | casStrong e d k =>
      by_cases e : w = e
      · subst e; exact ⟨_, _, .strongOk hc, by simp [khSpurious]⟩
      · exact ⟨_, _, .strongHelperFail hc, by simpa [khSpurious, hc, eq_comm] using e⟩
    | rmw f k => exact ⟨_, _, .snapshot w hc, by simp [khSpurious]⟩
  | loop old =>
    obtain ⟨f, k, h⟩ := h
    by_cases e : w = old
    · subst e; exact ⟨_, _, .loopOk h, by simp [khSpurious]⟩
    · exact ⟨_, _, .loopHelperFail h, by simpa [khSpurious] using e⟩
  | reread =>
    rcases h with ⟨_, _, h⟩ | ⟨_, _, _, h⟩ | ⟨_, _, _, h, hne⟩
    · exact ⟨_, _, .loopReread h, by simp [khSpurious]⟩
    · exact ⟨_, _, .weakReread h, by simp [khSpurious]⟩
    · exact ⟨_, _, .strongReturn h hne, by simp [khSpurious]⟩
  | fin r => exact absurd rfl (hl r)

/-! ### Properties -/

/-- C72: an operation made of single instructions, compare-exchange loops and loops with reservations, in any mixture,
called in a handler returns within five steps, whatever operations were interrupted and wherever. -/
theorem C72_lock_free (code : Op → Code W Ret) : ReturnsWithin (mixMachine code) (mixSpurious code) 5 := by
  classical
  intro op m k m' l' h
  have key : k + mixLeft m' l' ≤ 5 ∧ MixOk code op l' := by
    induction h with
    | refl => exact ⟨Nat.le_refl 5, trivial⟩
    | step _ _ _ hst hs ih =>
      have := mix_left hst hs
      exact ⟨by omega, mix_ok hst⟩
  refine ⟨by omega, ?_⟩
  by_cases hf : ∃ r, l' = .fin r
  · obtain ⟨r, rfl⟩ := hf; exact .inl ⟨r, rfl⟩
  · exact .inr (mix_go key.2 fun r e => hf ⟨r, e⟩)

/-- C72, for the kernel's compare-exchange function. -/
theorem C72_lock_free_kernel (code : Op → Code W Ret) : ReturnsWithin (khMachine code) (khSpurious code) 4 := by
  classical
  intro op m k m' l' h
  have key : k + khLeft m' l' ≤ 4 ∧ KhOk code op m' l' := by
    induction h with
    | refl => exact ⟨Nat.le_refl 4, trivial⟩
    | step _ _ _ hst hs ih =>
      have := kh_left hst hs ih.2
      exact ⟨by omega, kh_ok hst hs⟩
  refine ⟨by omega, ?_⟩
  by_cases hf : ∃ r, l' = .fin r
  · obtain ⟨r, rfl⟩ := hf; exact .inl ⟨r, rfl⟩
  · exact .inr (kh_go key.2 fun r e => hf ⟨r, e⟩)

/-- A handler interrupts `negate` of another value; its own takes a torn snapshot, finds that out, and
reserves and stores. -/
example : Alone (mixMachine (fun _ : Unit => Code.rmw (fun w : BitVec 8 => -w) fun w _ => w))
    (mixSpurious (fun _ : Unit => Code.rmw (fun w : BitVec 8 => -w) fun w _ => w)) () ⟨5, 0⟩ .begin 4 ⟨-5, 1⟩ (.fin 5) := by
  refine .step _ _ (.step ⟨5, 0⟩ (MixLoc.loopLinked 5 0) (.step ⟨5, 0⟩ (MixLoc.loop 5) (.step ⟨5, 0⟩ (MixLoc.loop 7) .refl ?_ ?_) ?_ ?_) ?_ ?_)
    ?_ ?_
  · exact MixStep.snapshot 7 rfl
  · simp [mixSpurious]
  · exact MixStep.loopFail (m := ⟨5, 0⟩) rfl
  · simp [mixSpurious]
  · exact MixStep.loopLink (m := ⟨5, 0⟩) rfl
  · simp [mixSpurious]
  · exact MixStep.loopSc (m := ⟨5, 0⟩) (x := 5) (f := fun w => -w) (k := fun w _ => w) rfl
  · simp [mixSpurious]

/-- The same with the kernel's function, in as many steps as the bound allows. -/
example : Alone (khMachine (fun _ : Unit => Code.rmw (fun w : BitVec 8 => -w) fun w _ => w))
    (khSpurious (fun _ : Unit => Code.rmw (fun w : BitVec 8 => -w) fun w _ => w)) () 5 .begin 4 (-5) (.fin 5) := by
  refine .step _ _ (.step 5 (KhLoc.loop 5) (.step 5 KhLoc.reread (.step 5 (KhLoc.loop 7) .refl ?_ ?_) ?_ ?_) ?_ ?_) ?_ ?_
  · exact KhStep.snapshot 7 rfl
  · simp [khSpurious]
  · exact KhStep.loopHelperFail rfl
  · simp [khSpurious]
  · exact KhStep.loopReread rfl
  · simp [khSpurious]
  · exact KhStep.loopOk (f := fun w => -w) (k := fun w _ => w) rfl
  · simp [khSpurious]

section lock
variable {Addr : Type} [DecidableEq Addr] {idx : Addr → Nat} {code : Op → Code W Ret}

/-- The operations of back ends without locks only are meant in C72: with locks, if a handler interrupts an operation
`j` that holds a lock, an operation `i` of the handler on any object with the same lock does not return as long as `j`
is stopped, whatever all other threads do. -/
theorem C72_locks_never_return {σ : Type} {I : W → Prop} {abs : W → σ} {spec : SeqSpec σ Op Ret}
    (hcorrect : Correct code I abs spec) {m₀ : LkMem Addr W} (h₀ : ∀ a, ∃ w, m₀.cell a = .whole w ∧ I w)
    {Id : Type} [DecidableEq Id] (sys sys' : Sys Id (lkMachine idx code)) (H)
    (h : Exec (lkMachine idx code) m₀ sys H) (i j : Id) (op o : Addr × Op) (l : LkLoc W Ret)
    (hj : sys.calls j = .run o l) (hcrit : l.crit) (hi : sys.calls i = .run op .begin) (hlock : idx op.1 = idx o.1)
    (hrun : Runs idx code (fun k => k ≠ j) sys sys') : sys'.calls i = .run op .begin := by
  induction hrun generalizing H with
  | refl => exact hi
  | @step s s' k op' l₁ l₂ m' hk hc hst _ ih =>
    have hex := Exec.step (M := lkMachine idx code) k op' l₁ m' l₂ h hc hst
    have hlk : s.sh.locked (idx o.1) = true := lkP_crit ((lk_inv hcorrect h₀ h).2.1 j o l hj) hcrit
    refine ih H hex ?_ ?_
    · simpa [upd_other _ _ (Ne.symm hk)] using hj
    · by_cases e : i = k
      · subst e
        rw [hi] at hc; cases hc
        cases hst with
        | acquire ha => rw [hlock] at ha; rw [ha] at hlk; cases hlk
      · simpa [upd_other _ _ e] using hi
  | @ret s s' k op' r hk hc _ ih =>
    have hex := Exec.ret (M := lkMachine idx code) k op' (.fin r) r h hc rfl
    refine ih _ hex ?_ ?_
    · simpa [upd_other _ _ (Ne.symm hk)] using hj
    · by_cases e : i = k
      · subst e; rw [hi] at hc; cases hc
      · simpa [upd_other _ _ e] using hi

/-- A `load` of a handler on one object interrupts a `fetch_add` on another one with the same lock. -/
example : ∃ sys : Sys Nat (lkMachine (fun _ : Bool => 0) (Integral.native .locked false 16)), ∃ H l,
    Exec (lkMachine (fun _ : Bool => 0) (Integral.native .locked false 16)) (freshMem false 16 fun _ => 1) sys H ∧
    sys.calls 0 = .run (true, .fetchAdd 4) l ∧ l.crit ∧ sys.calls 1 = .run (false, .load) .begin := by
  have h0 := Exec.init (Id := Nat) (M := lkMachine (fun _ : Bool => 0) (Integral.native .locked false 16))
    (sh₀ := freshMem false 16 fun _ => 1)
  have h1 := h0.invoke 0 (true, .fetchAdd 4) rfl
  have h2 := h1.step 0 (true, .fetchAdd 4) _ _ _ rfl (LkStep.acquire rfl)
  have h3 := h2.invoke 1 (false, .load) rfl
  exact ⟨_, _, _, h3, rfl, trivial, rfl⟩

end lock

end Verif.Signal
