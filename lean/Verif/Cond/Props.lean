import Verif.Cond.Lemmas

/-!
C46: the lock pool on system mutexes and condition variables, with its real registry of wait states: use of the
system objects is valid, notifications reach exactly the threads blocked on the object, none is missed, and the locks
are always given up.
-/

namespace Verif.Cond

open Verif (upd upd_same upd_other)
open Verif.Registry (Cfg Pool Waiter Id WaitsOn)

variable {w : Nat} {V : Type} {c : Cfg w}

/-! ### Valid use -/

/-- A lock is owned exactly by the thread that is between acquiring and releasing it; so at most one thread is, and a
thread blocked on a condition variable owns no lock. -/
theorem C46_mutual_exclusion (hg : c.Good) {s : State w V} (h : Reach c s) :
    (∀ k t, s.owner k = some t ↔ holds c (s.pc t) = some k) ∧
    (∀ k t u, holds c (s.pc t) = some k → holds c (s.pc u) = some k → t = u) ∧
    (∀ t a, BlockedOn a (s.pc t) → ∀ k, s.owner k ≠ some t) := by
  have hi := inv_reach hg h
  refine ⟨hi.own, fun k t u => hi.excl, fun t a hb k hk => ?_⟩
  obtain ⟨x, old, m, e, _⟩ := hb
  have := (hi.own k t).1 hk
  simp [e, holds] at this

/-- A thread blocked on an object is blocked on a condition variable that exists, and it is the one a notification of
the object finds.  Two blocked threads use the same condition variable exactly if they wait on the same object; so
they use it with the same mutex. -/
theorem C46_condition_variables (hg : c.Good) {s : State w V} (h : Reach c s) {t : Nat} {a : BitVec w}
    (hb : BlockedOn a (s.pc t)) :
    ∃ id, SleepsOn s id t ∧ s.pool.heap id ≠ none ∧
      Registry.step c s.pool (.notify a) = some (s.pool, .signalled (some id)) ∧
      ∀ u b, BlockedOn b (s.pc u) → (SleepsOn s id u ↔ b = a) := by
  have hi := inv_reach hg h
  obtain ⟨x, old, m, e, ha⟩ := hb
  have hx : x ∈ s.pool.waiters := (hi.wt x).2 (by rw [hi.wtid t x (by simp [e, waiting])]; simp [e, waiting])
  cases hh : x.handle with
  | none => exact absurd hh (hi.sl t x old m e)
  | some id =>
    refine ⟨id, ⟨x, old, m, e, hh⟩, (Registry.C38_alive_while_waiting hg hi.reg hx hh).1,
      (Registry.C28_waiter_signalled_iff hg hi.reg hx hh a).2 ha.symm, ?_⟩
    rintro u b ⟨y, old', m', e', hb'⟩
    have hy : y ∈ s.pool.waiters := (hi.wt y).2 (by rw [hi.wtid u y (by simp [e', waiting])]; simp [e', waiting])
    cases hyh : y.handle with
    | none => exact absurd hyh (hi.sl u y old' m' e')
    | some id' =>
      have := Registry.C28_same_state_iff_same_object hg hi.reg hy hx hyh hh
      rw [hb', ha] at this
      rw [← this]
      constructor
      · rintro ⟨z, o2, m2, e2, hz⟩
        rw [e'] at e2; cases e2
        rw [hyh] at hz; cases hz; rfl
      · rintro rfl
        exact ⟨y, old', m', e', hyh⟩

/-- A condition variable is not destroyed while a thread is blocked on it, nor while a thread that was woken has not
returned from the call. -/
theorem C46_not_destroyed (hg : c.Good) {s s' : State w V} (h : Reach c s) {t : Nat} (hs : Step c s t s') {u : Nat}
    {x : Waiter w} {old : V} {m : Mode} (hu : s'.pc u = .asleep x old m ∨ ∃ timeout, s'.pc u = .relock x old m timeout) {id : Id}
    (hx : x.handle = some id) : s'.pool.heap id ≠ none := by
  have hi := inv_step hg (inv_reach hg h) hs
  have hw : waiting (s'.pc u) = some x := by rcases hu with e | ⟨_, e⟩ <;> simp [e, waiting]
  have hm : x ∈ s'.pool.waiters := (hi.wt x).2 (by rw [hi.wtid u x hw]; exact hw)
  exact (Registry.C38_alive_while_waiting hg hi.reg hm hx).1

/-! ### Notifications -/

/-- If a step of one thread unblocks another thread, it is part of a notification of the object the other thread waits
on. -/
theorem C46_woken_only_by_notify (hg : c.Good) {s s' : State w V} (h : Reach c s) {t u : Nat} (hs : Step c s t s')
    (hu : u ≠ t) {a : BitVec w} (hb : BlockedOn a (s.pc u)) (hn : ¬ BlockedOn a (s'.pc u)) :
    ∃ all id, s.pc t = .nSig all a id := by
  have hi := inv_reach hg h
  rcases pc_other hs hu with e | ⟨x, old, m, id, all, b, e1, _, e3, e4⟩
  · rw [e] at hn; exact absurd hb hn
  · refine ⟨all, id, ?_⟩
    obtain ⟨x', old', m', e, ha⟩ := hb
    rw [e1] at e; cases e
    obtain ⟨y, hy, hyb, hyi⟩ := hi.sig t all b id e4
    have hx : x ∈ s.pool.waiters := (hi.wt x).2 (by rw [hi.wtid u x (by simp [e1, waiting])]; simp [e1, waiting])
    have := (Registry.C28_same_state_iff_same_object hg hi.reg hy hx hyi e3).1 rfl
    rw [e4, ← ha, ← this, hyb]

/-- At some moment during a call of `notify_all` no thread is blocked on the object: every thread that was blocked when
the call began has been woken by the time it returns. -/
theorem C46_notify_all (hg : c.Good) {n : Nat} (E : Exec w V c n) {i j : Nat} (hij : i ≤ j) (hj : j ≤ n) {N : Nat}
    {a : BitVec w} (hs : (E.st i).pc N = .nLock true a) (he : (E.st j).pc N = .idle) :
    ∃ l, i ≤ l ∧ l ≤ j ∧ ∀ u, ¬ BlockedOn a ((E.st l).pc u) := by
  rcases notify_trace hg E hs j hij hj with (h | h | ⟨_, h⟩) | ⟨l, h1, h2, _, _, h3⟩
  · rw [he] at h; cases h
  · rw [he] at h; cases h
  · rw [he] at h; cases h
  · rcases h3 with h3 | ⟨h3, _⟩
    · exact ⟨l, h1, by omega, h3⟩
    · exact ⟨l + 1, by omega, by omega, h3 rfl⟩

/-- During a call of `notify_one` a thread blocked on the object is woken, unless at some moment during the call no
thread is blocked on it. -/
theorem C46_notify_one (hg : c.Good) {n : Nat} (E : Exec w V c n) {i j : Nat} (hij : i ≤ j) (hj : j ≤ n) {N : Nat}
    {a : BitVec w} (hs : (E.st i).pc N = .nLock false a) (he : (E.st j).pc N = .idle) :
    (∃ l, i ≤ l ∧ l ≤ j ∧ ∀ u, ¬ BlockedOn a ((E.st l).pc u)) ∨
    ∃ l u, i ≤ l ∧ l < j ∧ BlockedOn a ((E.st l).pc u) ∧ ¬ BlockedOn a ((E.st (l + 1)).pc u) := by
  rcases notify_trace hg E hs j hij hj with (h | h | ⟨_, h⟩) | ⟨l, h1, h2, _, _, h3⟩
  · rw [he] at h; cases h
  · rw [he] at h; cases h
  · rw [he] at h; cases h
  · rcases h3 with h3 | ⟨_, u, h3⟩
    · exact .inl ⟨l, h1, by omega, h3⟩
    · exact .inr ⟨l, u, h1, h2, h3⟩

/-- From time `i` on the object holds a value other than `old`.  A `notify_all` that begins at or after `i` has
returned at time `j`; or a `notify_one`, if `u` is the only thread that waits on the object.  Then `u` is not blocked
waiting for `old` to go away, at no time after `j`.

Missing for the full property (`Unchecked`): the timed waits of objects with native operations, between their
comparison and their first blocking, see `C46_timed_wait_violated`; and timed waits that have timed out in the loop of
`wait_until` and block again, see `C46_wait_until_loop_violated`. -/
theorem C46_store_notify_partial (hg : c.Good) {n : Nat} (E : Exec w V c n) {i j k : Nat} (hij : i ≤ j) (hjk : j ≤ k)
    (hk : k ≤ n) {N u : Nat} {a : BitVec w} {old : V} {all : Bool}
    (hval : ∀ l, i ≤ l → l ≤ k → (E.st l).val a ≠ old)
    (hs : (E.st i).pc N = .nLock all a) (he : (E.st j).pc N = .idle)
    (hall : all = true ∨ ∀ l, i ≤ l → l ≤ j → ∀ t, BlockedOn a ((E.st l).pc t) → t = u)
    (hu : ∀ l, i ≤ l → l ≤ k → ¬ Unchecked ((E.st l).pc u)) :
    ¬ BlockedFor a old ((E.st k).pc u) := by
  have bf : ∀ q : PC w V, ¬ BlockedOn a q → ¬ BlockedFor a old q := fun q h ⟨x, m, e, ha⟩ => h ⟨x, old, m, e, ha⟩
  -- a moment at which `u` is settled
  have key : ∃ l, i ≤ l ∧ l ≤ j ∧ ¬ BlockedFor a old ((E.st l).pc u) ∧
      ∀ x m, (E.st l).pc u = .wWait x old m → x.addr ≠ a := by
    rcases notify_trace hg E hs j hij (by omega) with (h | h | ⟨_, h⟩) | ⟨l, h1, h2, hl, hl', h3⟩
    · rw [he] at h; cases h
    · rw [he] at h; cases h
    · rw [he] at h; cases h
    · have noWait : ∀ l, l ≤ n → holds c ((E.st l).pc N) = some (c.lockOf a) → (∀ x m, (E.st l).pc N ≠ .wWait x old m) →
          ∀ x m, (E.st l).pc u = .wWait x old m → x.addr ≠ a := by
        intro l hln hl hne x m e ha
        have := (inv_reach hg (E.reach l hln)).excl hl (u := u) (by simp [e, holds, ha])
        subst this
        exact hne x m e
      have w' : ∀ x m, (E.st (l + 1)).pc u = .wWait x old m → x.addr ≠ a :=
        noWait (l + 1) (by omega) (by simp [hl', holds]) (by simp [hl'])
      rcases h3 with h3 | ⟨h3, v, h4, h5⟩
      · obtain ⟨t, ht⟩ := E.step l (by omega)
        refine ⟨l + 1, by omega, by omega, ?_, w'⟩
        rintro ⟨x, m, e, ha⟩
        -- a thread does not become blocked in a step of `N`
        by_cases hut : u = t
        · subst hut
          have hpu : (E.st l).pc u = .wWait x old m := asleep_step ht e
          have hNu := (inv_reach hg (E.reach l (by omega))).excl hl (u := u) (by simp [hpu, holds, ha])
          subst hNu
          rw [hl'] at e; cases e
        · rcases pc_other ht hut with e' | ⟨x', o', m', id, al, b, _, e', _⟩
          · rw [e'] at e; exact h3 u ⟨x, old, m, e, ha⟩
          · rw [e'] at e; cases e
      · refine ⟨l + 1, by omega, by omega, bf _ ?_, w'⟩
        rcases hall with hall | hall
        · exact h3 hall u
        · have := hall l (by omega) (by omega) v h4
          subst this
          exact h5
  obtain ⟨l, hl1, hl2, hl3⟩ := key
  have : ∀ d, l + d ≤ k → ¬ BlockedFor a old ((E.st (l + d)).pc u) ∧
      ∀ x m, (E.st (l + d)).pc u = .wWait x old m → x.addr ≠ a := by
    intro d
    induction d with
    | zero => exact fun _ => hl3
    | succ d ih =>
      intro hd
      obtain ⟨t, ht⟩ := E.step (l + d) (by omega)
      exact settled_step ht (hval _ (by omega) (by omega)) (hu _ (by omega) (by omega)) (ih (by omega))
  have := (this (k - l) (by omega)).1
  rwa [show l + (k - l) = k by omega] at this

/-! ### Progress -/

/-- How many steps, at most, a thread that owns a lock makes before it gives it up. -/
def stepsLeft : PC w V → Nat
  | .wReg _ _ _ => 5
  | .wLoad _ _ _ => 4
  | .wWait _ _ _ => 3
  | .wFree _ => 2
  | .nFind _ _ => 3
  | .nSig _ _ _ => 2
  | .sHold _ _ | .cHold _ => 2
  | .unl _ => 1
  | _ => 0

/-- A thread that owns a lock can always make a step, whatever the others do, and every step it makes brings it closer
to giving the lock up: it does so after five steps at most.  In particular, it does not wait for another lock. -/
theorem C46_lock_given_up (hg : c.Good) {s : State w V} (h : Reach c s) {t k : Nat} (hk : s.owner k = some t) :
    stepsLeft (s.pc t) ≤ 5 ∧ (∃ s', Step c s t s') ∧
    ∀ s', Step c s t s' → s'.owner k = none ∨ s'.owner k = some t ∧ stepsLeft (s'.pc t) < stepsLeft (s.pc t) := by
  have hi := inv_reach hg h
  have hh := (hi.own k t).1 hk
  refine ⟨by cases s.pc t <;> simp [stepsLeft], ?_, ?_⟩
  · cases hp : s.pc t with
    | wReg a old m =>
      have ha : (Registry.Op.register t a false none).Allowed s.pool := by
        refine ⟨fun x hx e => ?_, by simp⟩
        have := (hi.wt x).1 hx
        rw [e, hp] at this; cases this
      obtain ⟨p, o, e, _⟩ := Registry.C28_no_fault hg hi.reg ha
      obtain ⟨r, rfl, _⟩ := Registry.C28_register hg hi.reg ha e
      exact ⟨_, .wReg false none p r hp ha e⟩
    | wLoad x old m =>
      by_cases hv : s.val x.addr = old
      · exact ⟨_, .wSame hp hv⟩
      · exact ⟨_, .wDiff hp hv⟩
    | wWait x old m =>
      cases hx : x.handle with
      | none => exact ⟨_, .wYield hp hx⟩
      | some id =>
        have hm : x ∈ s.pool.waiters := (hi.wt x).2 (by rw [hi.wtid t x (by simp [hp, waiting])]; simp [hp, waiting])
        exact ⟨_, .wSleep _ _ hp hx (Registry.C38_alive_while_waiting hg hi.reg hm hx).2⟩
    | wFree x =>
      have hm : x ∈ s.pool.waiters := (hi.wt x).2 (by rw [hi.wtid t x (by simp [hp, waiting])]; simp [hp, waiting])
      obtain ⟨p, o, e, _⟩ := Registry.C28_no_fault hg hi.reg (op := .unregister x) hm
      exact ⟨_, .wFree p o hp e⟩
    | nFind all a =>
      obtain ⟨r, e, _⟩ := Registry.C28_notify_exact hg hi.reg a
      cases r with
      | none => exact ⟨_, .nNone _ hp e⟩
      | some id => exact ⟨_, .nFind _ id hp e⟩
    | nSig all a id =>
      classical
      cases all with
      | true => exact ⟨_, .nAll (fun u => SleepsOn s id u) hp (fun _ h => h) (fun _ h => h)⟩
      | false => exact ⟨_, .nOne (fun u => SleepsOn s id u) hp (fun h => h) (fun _ h => h)⟩
    | sHold a v => exact ⟨_, .sWrite hp⟩
    | cHold j =>
      obtain ⟨p, o, e, _⟩ := Registry.C28_no_fault hg hi.reg (op := .cleanup j) trivial
      exact ⟨_, .cHold p o hp e⟩
    | unl j => exact ⟨_, .unl hp⟩
    | _ => rw [hp] at hh; cases hh
  · intro s' hs
    have hi' := inv_step hg hi hs
    cases hs with
    | wReg bufOk ws pool r hp ha he =>
      rename_i a old m
      right
      refine ⟨hk, ?_⟩
      simp only [State.goto, upd_same, hp]
      split <;> simp [stepsLeft]
    | wRelock hp _ => rcases hp with ⟨_, hp⟩ | hp <;> rw [hp] at hh <;> cases hh
    | unl hp => rw [hp] at hh; cases hh; exact .inl (upd_same _ _ _)
    | wSleep pool o hp _ _ => rw [hp] at hh; cases hh; exact .inl (upd_same _ _ _)
    | wYield hp _ => rw [hp] at hh; cases hh; exact .inl (upd_same _ _ _)
    | store a v hp => rw [hp] at hh; cases hh
    | _ => simp_all [holds, State.goto, stepsLeft]

/-- Every thread can make a step (a blocked thread can be woken), or it waits for a lock whose owner can make a step.
There is no deadlock. -/
theorem C46_no_deadlock (hg : c.Good) {s : State w V} (h : Reach c s) (t : Nat) :
    (∃ s', Step c s t s') ∨
    ∃ k u, wants c (s.pc t) = some k ∧ s.owner k = some u ∧ ∃ s', Step c s u s' := by
  have hi := inv_reach hg h
  cases hh : holds c (s.pc t) with
  | some k => exact .inl (C46_lock_given_up hg h ((hi.own k t).2 hh)).2.1
  | none =>
    have key : ∀ k, wants c (s.pc t) = some k → (s.owner k = none → ∃ s', Step c s t s') →
        (∃ s', Step c s t s') ∨ ∃ k u, wants c (s.pc t) = some k ∧ s.owner k = some u ∧ ∃ s', Step c s u s' := by
      intro k hw hs
      cases ho : s.owner k with
      | none => exact .inl (hs ho)
      | some u => exact .inr ⟨k, u, hw, ho, (C46_lock_given_up hg h ho).2.1⟩
    cases hp : s.pc t with
    | idle => exact .inl ⟨_, .nBegin true 0 hp⟩
    | asleep x old m => exact .inl ⟨_, .wWake true hp⟩
    | wLock a old m => rw [← hp]; exact key _ (by rw [hp]; rfl) (fun ho => ⟨_, .wLock hp ho⟩)
    | relock x old m timeout => rw [← hp]; exact key _ (by rw [hp]; rfl) (fun ho => ⟨_, .wRelock (.inl ⟨_, hp⟩) ho⟩)
    | yielding x old m => rw [← hp]; exact key _ (by rw [hp]; rfl) (fun ho => ⟨_, .wRelock (.inr hp) ho⟩)
    | nLock all a => rw [← hp]; exact key _ (by rw [hp]; rfl) (fun ho => ⟨_, .nLock hp ho⟩)
    | sLock a v => rw [← hp]; exact key _ (by rw [hp]; rfl) (fun ho => ⟨_, .sLock hp ho⟩)
    | cLock k => rw [← hp]; exact key _ (by rw [hp]; rfl) (fun ho => ⟨_, .cLock hp ho⟩)
    | _ => rw [hp] at hh; cases hh

/-! ### Concrete executions, on every platform -/

/-- Thread 1 registers as the first waiter on `a`. -/
theorem first_register (hg : c.Good) (a : BitVec w) :
    ∃ pool id, Registry.step c (Pool.init w) (.register 1 a true (some 7)) = some (pool, .handle (some id)) ∧
      Registry.Reach c pool ∧ pool.waiters = [⟨1, a, some id⟩] ∧
      (Registry.Op.register 1 a true (some 7)).Allowed (Pool.init w) := by
  have ha : (Registry.Op.register 1 a true (some 7)).Allowed (Pool.init w) :=
    ⟨fun x hx => absurd hx (by simp [Pool.init]), fun _ _ => rfl⟩
  obtain ⟨p, o, e, hr⟩ := Registry.C28_no_fault hg .init ha
  obtain ⟨r, rfl, hw, _, _, hn⟩ := Registry.C28_register hg .init ha e
  cases r with
  | none =>
    rcases hn rfl with h | h | ⟨b, h, _⟩
    · cases h
    · cases h
    · cases h
  | some id => exact ⟨p, id, e, hr, hw, ha⟩

/-- Thread 1 waits for the value of `a` to become other than `false` and blocks.  Thread 2 stores `true` (time 6) and
calls `notify_all` (time 7 to 11).  The hypotheses of `C46_notify_all` and `C46_store_notify_partial` are met, and
thread 1 is blocked when the notification begins. -/
theorem ex_store_notify (hg : c.Good) (a : BitVec w) :
    ∃ E : Exec w Bool c 11, BlockedFor a false ((E.st 7).pc 1) ∧ (E.st 7).pc 2 = .nLock true a ∧
      (E.st 11).pc 2 = .idle ∧ (∀ l, 7 ≤ l → l ≤ 11 → (E.st l).val a ≠ false) ∧
      (∀ l, 7 ≤ l → l ≤ 11 → ¬ Unchecked ((E.st l).pc 1)) ∧
      (E.st 11).pc 1 = .relock ((E.st 11).pool.waiters.headD ⟨0, 0, none⟩) false .untimed false := by
  classical
  obtain ⟨p, id, he, hr, hw, hal⟩ := first_register hg a
  have hx : (⟨1, a, some id⟩ : Waiter w) ∈ p.waiters := by simp [hw]
  have huse := (Registry.C38_alive_while_waiting hg hr hx rfl).2
  have hnot := (Registry.C28_waiter_signalled_iff hg hr hx (id := id) rfl a).2 rfl
  let k := c.lockOf a
  let x : Waiter w := ⟨1, a, some id⟩
  let v0 : BitVec w → Bool := fun _ => false
  let free : Nat → Option Nat := fun _ => none
  let i0 : Nat → PC w Bool := fun _ => .idle
  let p1 : Nat → PC w Bool := upd i0 1 (.wLock a false .untimed)
  let p2 := upd p1 1 (.wReg a false .untimed)
  let p3 := upd p2 1 (.wLoad x false .untimed)
  let p4 := upd p3 1 (.wWait x false .untimed)
  let p5 := upd p4 1 (.asleep x false .untimed)
  let o1 := upd free k (some 1)
  let o2 := upd o1 k none
  let v1 := upd v0 a true
  let p7 := upd p5 2 (.nLock true a)
  let o3 := upd o2 k (some 2)
  let p8 := upd p7 2 (.nFind true a)
  let p9 := upd p8 2 (.nSig true a id)
  let s9 : State w Bool := ⟨o3, p, v1, p9⟩
  let p10 := upd (wake (SleepsOn s9 id) p9) 2 (.unl k)
  let p11 := upd p10 2 .idle
  let st : Nat → State w Bool := fun i => match i with
    | 0 => State.start v0
    | 1 => ⟨free, Pool.init w, v0, p1⟩
    | 2 => ⟨o1, Pool.init w, v0, p2⟩
    | 3 => ⟨o1, p, v0, p3⟩
    | 4 => ⟨o1, p, v0, p4⟩
    | 5 => ⟨o2, p, v0, p5⟩
    | 6 => ⟨o2, p, v1, p5⟩
    | 7 => ⟨o2, p, v1, p7⟩
    | 8 => ⟨o3, p, v1, p8⟩
    | 9 => s9
    | 10 => ⟨o3, p, v1, p10⟩
    | _ => ⟨upd o3 k none, p, v1, p11⟩
  have e7 : p7 1 = .asleep x false .untimed := by simp [p7, p5, upd]
  have e9 : p9 1 = .asleep x false .untimed := by simp [p9, p8, p7, p5, upd]
  refine ⟨⟨st, v0, rfl, ?_⟩, ⟨x, .untimed, e7, rfl⟩, upd_same p5 2 _, upd_same p10 2 .idle, ?_, ?_, ?_⟩
  · intro i hi
    match i, hi with
    | 0, _ => exact ⟨1, .wBegin a false .untimed rfl rfl⟩
    | 1, _ => exact ⟨1, .wLock (m := .untimed) (old := false) rfl rfl⟩
    | 2, _ => exact ⟨1, .wReg (m := .untimed) (old := false) true (some 7) p (some id) rfl hal he⟩
    | 3, _ => exact ⟨1, .wSame (m := .untimed) (old := false) (x := x) rfl rfl⟩
    | 4, _ => exact ⟨1, .wSleep (m := .untimed) (old := false) (x := x) p .unit rfl rfl huse⟩
    | 5, _ => exact ⟨2, .store a true (by simp [st, p5, p4, p3, p2, p1, i0, upd])⟩
    | 6, _ => exact ⟨2, .nBegin true a (by simp [st, p5, p4, p3, p2, p1, i0, upd])⟩
    | 7, _ => exact ⟨2, .nLock (all := true) (a := a) rfl (upd_same o1 k _)⟩
    | 8, _ => exact ⟨2, .nFind (all := true) (a := a) p id rfl hnot⟩
    | 9, _ => exact ⟨2, .nAll (a := a) (SleepsOn s9 id) rfl (fun _ h => h) (fun _ h => h)⟩
    | 10, _ => exact ⟨2, .unl (k := k) rfl⟩
    | n + 11, h => omega
  · intro l h1 h2
    have : v1 a ≠ false := by simp [v1]
    obtain rfl | rfl | rfl | rfl | rfl : l = 7 ∨ l = 8 ∨ l = 9 ∨ l = 10 ∨ l = 11 := by omega
    all_goals exact this
  · intro l h1 h2
    obtain rfl | rfl | rfl | rfl | rfl : l = 7 ∨ l = 8 ∨ l = 9 ∨ l = 10 ∨ l = 11 := by omega
    · show ¬ Unchecked (p7 1)
      rw [e7]; exact fun h => h
    · show ¬ Unchecked (p8 1)
      rw [show p8 1 = p7 1 from rfl, e7]; exact fun h => h
    · show ¬ Unchecked (p9 1)
      rw [e9]; exact fun h => h
    · show ¬ Unchecked (p10 1)
      simp only [p10, upd_other _ _ (show (1 : Nat) ≠ 2 by decide), wake, e9]
      split <;> exact fun h => h
    · show ¬ Unchecked (p11 1)
      simp only [p11, p10, upd_other _ _ (show (1 : Nat) ≠ 2 by decide), wake, e9]
      split <;> exact fun h => h
  · show p11 1 = .relock (p.waiters.headD ⟨0, 0, none⟩) false .untimed false
    have hs : SleepsOn s9 id 1 := ⟨x, false, .untimed, e9, rfl⟩
    simp only [p11, p10, upd_other _ _ (show (1 : Nat) ≠ 2 by decide), wake, e9, hs, if_true, hw]
    rfl

/-- The full statement of `C46_store_notify_partial`, for all waiting operations, is false on every platform.  Thread 1
begins a timed wait on an object with native operations and finds the value `false` (time 1).  Thread 2 stores `true`
(time 2) and calls `notify_all` (time 3 to 6).  Then thread 1 takes the lock, registers, and blocks without looking
at the object again (wait_ops_generic.hpp:90-103, 126-134). -/
theorem C46_timed_wait_violated (hg : c.Good) (a : BitVec w) :
    ∃ E : Exec w Bool c 9, (E.st 3).pc 2 = .nLock true a ∧ (E.st 6).pc 2 = .idle ∧
      (∀ l, 3 ≤ l → l ≤ 9 → (E.st l).val a ≠ false) ∧ BlockedFor a false ((E.st 9).pc 1) := by
  obtain ⟨p, id, he, hr, hw, hal⟩ := first_register hg a
  have hx : (⟨1, a, some id⟩ : Waiter w) ∈ p.waiters := by simp [hw]
  have huse := (Registry.C38_alive_while_waiting hg hr hx rfl).2
  have hnot : Registry.step c (Pool.init w) (.notify a) = some (Pool.init w, .signalled none) := by
    simp [Registry.step, Pool.init, Registry.find, Registry.WList.init]
  let k := c.lockOf a
  let x : Waiter w := ⟨1, a, some id⟩
  let v0 : BitVec w → Bool := fun _ => false
  let free : Nat → Option Nat := fun _ => none
  let i0 : Nat → PC w Bool := fun _ => .idle
  let v1 := upd v0 a true
  let p1 : Nat → PC w Bool := upd i0 1 (.wLock a false (.stale false))
  let p3 := upd p1 2 (.nLock true a)
  let p4 := upd p3 2 (.nFind true a)
  let p5 := upd p4 2 (.unl k)
  let p6 := upd p5 2 .idle
  let p7 := upd p6 1 (.wReg a false (.stale false))
  let p8 := upd p7 1 (.wWait x false (.stale false))
  let p9 := upd p8 1 (.asleep x false (.stale false))
  let o1 := upd free k (some 2)
  let o2 := upd o1 k none
  let o3 := upd o2 k (some 1)
  let st : Nat → State w Bool := fun i => match i with
    | 0 => State.start v0
    | 1 => ⟨free, Pool.init w, v0, p1⟩
    | 2 => ⟨free, Pool.init w, v1, p1⟩
    | 3 => ⟨free, Pool.init w, v1, p3⟩
    | 4 => ⟨o1, Pool.init w, v1, p4⟩
    | 5 => ⟨o1, Pool.init w, v1, p5⟩
    | 6 => ⟨o2, Pool.init w, v1, p6⟩
    | 7 => ⟨o3, Pool.init w, v1, p7⟩
    | 8 => ⟨o3, p, v1, p8⟩
    | _ => ⟨upd o3 k none, p, v1, p9⟩
  refine ⟨⟨st, v0, rfl, ?_⟩, upd_same p1 2 _, upd_same p5 2 _, ?_, ⟨x, .stale false, upd_same p8 1 _, rfl⟩⟩
  · intro i hi
    match i, hi with
    | 0, _ => exact ⟨1, .wBeginStale a false rfl⟩
    | 1, _ => exact ⟨2, .store a true (by simp [st, p1, i0, upd])⟩
    | 2, _ => exact ⟨2, .nBegin true a (by simp [st, p1, i0, upd])⟩
    | 3, _ => exact ⟨2, .nLock (all := true) (a := a) rfl rfl⟩
    | 4, _ => exact ⟨2, .nNone (all := true) (a := a) _ rfl hnot⟩
    | 5, _ => exact ⟨2, .unl (k := k) rfl⟩
    | 6, _ => exact ⟨1, .wLock (m := .stale false) (old := false) (a := a)
        (by simp [st, p6, p5, p4, p3, p1, upd]) (upd_same o1 k _)⟩
    | 7, _ => exact ⟨1, .wReg (m := .stale false) (old := false) true (some 7) p (some id) rfl hal he⟩
    | 8, _ => exact ⟨1, .wSleep (m := .stale false) (old := false) (x := x) p .unit rfl rfl huse⟩
    | n + 9, h => omega
  · intro l h1 h2
    have : v1 a ≠ false := by simp [v1]
    obtain rfl | rfl | rfl | rfl | rfl | rfl | rfl : l = 3 ∨ l = 4 ∨ l = 5 ∨ l = 6 ∨ l = 7 ∨ l = 8 ∨ l = 9 := by omega
    all_goals exact this

/-- The full statement also fails for timed waits on a clock the condition variable does not support (for example
`system_clock` without `pthread_cond_clockwait`), whatever the object.  Thread 1 waits and its relative wait, on another
clock, times out (time 6) before the deadline: the clock of the deadline was set back.  Before it has the mutex again,
thread 2 stores `true` (time 7) and calls `notify_all` (time 8 to 12), which finds no blocked thread.  Thread 1 then
gets the mutex and, the deadline not being reached, blocks again inside `wait_until` without returning to the
caller that would compare (src/lock_pool.cpp:468-485). -/
theorem C46_wait_until_loop_violated (hg : c.Good) (a : BitVec w) :
    ∃ E : Exec w Bool c 14, (E.st 1).pc 1 = .wLock a false (.timed true) ∧
      (E.st 8).pc 2 = .nLock true a ∧ (E.st 12).pc 2 = .idle ∧
      (∀ l, 8 ≤ l → l ≤ 14 → (E.st l).val a ≠ false) ∧ BlockedFor a false ((E.st 14).pc 1) := by
  classical
  obtain ⟨p, id, he, hr, hw, hal⟩ := first_register hg a
  have hx : (⟨1, a, some id⟩ : Waiter w) ∈ p.waiters := by simp [hw]
  have huse := (Registry.C38_alive_while_waiting hg hr hx rfl).2
  have hnot := (Registry.C28_waiter_signalled_iff hg hr hx (id := id) rfl a).2 rfl
  let k := c.lockOf a
  let x : Waiter w := ⟨1, a, some id⟩
  let v0 : BitVec w → Bool := fun _ => false
  let free : Nat → Option Nat := fun _ => none
  let i0 : Nat → PC w Bool := fun _ => .idle
  let p1 : Nat → PC w Bool := upd i0 1 (.wLock a false (.timed true))
  let p2 := upd p1 1 (.wReg a false (.timed true))
  let p3 := upd p2 1 (.wLoad x false (.timed true))
  let p4 := upd p3 1 (.wWait x false (.timed true))
  let p5 := upd p4 1 (.asleep x false (.timed true))
  let p6 := upd p5 1 (.relock x false (.timed true) true)
  let o1 := upd free k (some 1)
  let o2 := upd o1 k none
  let v1 := upd v0 a true
  let p8 := upd p6 2 (.nLock true a)
  let o3 := upd o2 k (some 2)
  let p9 := upd p8 2 (.nFind true a)
  let p10 := upd p9 2 (.nSig true a id)
  let s10 : State w Bool := ⟨o3, p, v1, p10⟩
  let p11 := upd (wake (SleepsOn s10 id) p10) 2 (.unl k)
  let p12 := upd p11 2 .idle
  let o4 := upd o3 k none
  let o5 := upd o4 k (some 1)
  let p13 := upd p12 1 (.wWait x false (.stale true))
  let p14 := upd p13 1 (.asleep x false (.stale true))
  let st : Nat → State w Bool := fun i => match i with
    | 0 => State.start v0
    | 1 => ⟨free, Pool.init w, v0, p1⟩
    | 2 => ⟨o1, Pool.init w, v0, p2⟩
    | 3 => ⟨o1, p, v0, p3⟩
    | 4 => ⟨o1, p, v0, p4⟩
    | 5 => ⟨o2, p, v0, p5⟩
    | 6 => ⟨o2, p, v0, p6⟩
    | 7 => ⟨o2, p, v1, p6⟩
    | 8 => ⟨o2, p, v1, p8⟩
    | 9 => ⟨o3, p, v1, p9⟩
    | 10 => s10
    | 11 => ⟨o3, p, v1, p11⟩
    | 12 => ⟨o4, p, v1, p12⟩
    | 13 => ⟨o5, p, v1, p13⟩
    | _ => ⟨upd o5 k none, p, v1, p14⟩
  have e6 : p6 1 = .relock x false (.timed true) true := upd_same p5 1 _
  have e10 : p10 1 = .relock x false (.timed true) true := e6
  have e12 : p12 1 = .relock x false (.timed true) true := by
    simp only [p12, p11, upd_other _ _ (show (1 : Nat) ≠ 2 by decide), wake, e10]
  refine ⟨⟨st, v0, rfl, ?_⟩, rfl, upd_same p6 2 _, upd_same p11 2 .idle, ?_, ⟨x, .stale true, upd_same p13 1 _, rfl⟩⟩
  · intro i hi
    match i, hi with
    | 0, _ => exact ⟨1, .wBegin a false (.timed true) rfl rfl⟩
    | 1, _ => exact ⟨1, .wLock (m := .timed true) (old := false) rfl rfl⟩
    | 2, _ => exact ⟨1, .wReg (m := .timed true) (old := false) true (some 7) p (some id) rfl hal he⟩
    | 3, _ => exact ⟨1, .wSame (m := .timed true) (old := false) (x := x) rfl rfl⟩
    | 4, _ => exact ⟨1, .wSleep (m := .timed true) (old := false) (x := x) p .unit rfl rfl huse⟩
    | 5, _ => exact ⟨1, .wWake (m := .timed true) (old := false) (x := x) true rfl⟩
    | 6, _ => exact ⟨2, .store a true (by simp [st, p6, p5, p4, p3, p2, p1, i0, upd])⟩
    | 7, _ => exact ⟨2, .nBegin true a (by simp [st, p6, p5, p4, p3, p2, p1, i0, upd])⟩
    | 8, _ => exact ⟨2, .nLock (all := true) (a := a) rfl (upd_same o1 k _)⟩
    | 9, _ => exact ⟨2, .nFind (all := true) (a := a) p id rfl hnot⟩
    | 10, _ => exact ⟨2, .nAll (a := a) (SleepsOn s10 id) rfl (fun _ h => h) (fun _ h => h)⟩
    | 11, _ => exact ⟨2, .unl (k := k) rfl⟩
    | 12, _ => exact ⟨1, .wAgain (x := x) e12 rfl (upd_same o3 k _)⟩
    | 13, _ => exact ⟨1, .wSleep (m := .stale true) (old := false) (x := x) p .unit rfl rfl huse⟩
    | n + 14, h => omega
  · intro l h1 h2
    have : v1 a ≠ false := by simp [v1]
    obtain rfl | rfl | rfl | rfl | rfl | rfl | rfl :
      l = 8 ∨ l = 9 ∨ l = 10 ∨ l = 11 ∨ l = 12 ∨ l = 13 ∨ l = 14 := by omega
    all_goals exact this

/-- The platforms meet the requirement of all theorems above. -/
example (lockOf : BitVec 64 → Nat) (a : BitVec 64) :
    ∃ E : Exec 64 Bool (Registry.cfg64 .sse2 lockOf) 11, ∃ u, BlockedOn a ((E.st 7).pc u) := by
  obtain ⟨E, ⟨x, m, e, h⟩, _⟩ := ex_store_notify (Registry.C28_platform_64 .sse2 lockOf) a
  exact ⟨E, 1, x, false, m, e, h⟩

end Verif.Cond
