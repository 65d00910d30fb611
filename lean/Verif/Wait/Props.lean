import Verif.Wait.PollLemmas

/-!
Property theorems C26 (results of the waiting operations) and C37 (polling waits of interprocess objects).

In every theorem the world `W` is arbitrary: any values stored by other threads at any time, any behaviour of the
clocks, any wake-ups and error codes of the kernel.
-/

set_option linter.unusedSectionVars false

namespace Verif.Wait

open Verif.Chrono

variable {V : Type} [DecidableEq V] (W : World V) (old : V) {i j : Nat} {tr : List (Ev V)}

/-! ### C26: untimed wait -/

/-- C26: native `wait` returns a value that differs from the one waited on and that the object held during the call. -/
theorem C26_wait_native {v : V} (h : Runs W (nativeWait old) i j tr v) : WaitOk W old i j v :=
  (nativeWait_good (h := [])).1 _ _ _ h

/-- C26: the same with the lock pool, for all its implementations and if no wait state could be allocated. -/
theorem C26_wait_emulated (pool : Pool) {v : V} (h : Runs W (emulatedWait pool old) i j tr v) : WaitOk W old i j v :=
  (emulatedWait_good (h := [])).1 _ _ _ h

theorem C26_wait_generic (pool : Pool) {v : V} (h : Runs W (genericWait pool old) i j tr v) : WaitOk W old i j v :=
  (genericWait_good (h := [])).1 _ _ _ h

/-! ### C26: timed waits -/

/-- C26: `wait_until` of all native implementations on a clock unknown to the kernel.  Timeout is reported only with the old
value, read after the clock had shown the deadline or later; otherwise the value differs. -/
theorem C26_wait_until_native (u : Conv) (lim : Int → Int) (timeout : Int) {v : V} {timedOut : Bool}
    (h : Runs W (relWaitUntil u lim old timeout) i j tr (v, timedOut)) :
    TimedOk W old (fun t => timeout ≤ W.clk .user t) i j v timedOut :=
  (relWaitUntil_good (h := [])).1 _ _ _ h

/-- C26: `wait_until` of the futex implementation on a clock known to the kernel, including the case that the kernel turns
out not to support the operation.  The time point and the deadline `ts` passed to the kernel denote the same instant
(`hclk`; see `C26_same_instant`). -/
theorem C26_wait_until_futex (clockId : Nat) (ts : Timespec) (u : Conv) (lim : Int → Int) (timeout : Int)
    (hts : ts.Normal) (hclk : ∀ t, timeout ≤ W.clk .user t ↔ ts.ns ≤ (W.posix clockId t).ns) {v : V} {timedOut : Bool}
    (h : Runs W (futexAbs clockId ts u lim old timeout) i j tr (v, timedOut)) :
    TimedOk W old (fun t => timeout ≤ W.clk .user t) i j v timedOut :=
  (futexAbs_good (h := []) hts hclk).1 _ _ _ h

/-- C26: `wait_until` of the FreeBSD implementation on a clock known to the kernel. -/
theorem C26_wait_until_freebsd (clockId : Nat) (ts : Timespec) (timeout : Int)
    (hts : ts.Normal) (hclk : ∀ t, timeout ≤ W.clk .user t ↔ ts.ns ≤ (W.posix clockId t).ns) {v : V} {timedOut : Bool}
    (h : Runs W (freebsdAbs clockId ts old) i j tr (v, timedOut)) :
    TimedOk W old (fun t => timeout ≤ W.clk .user t) i j v timedOut :=
  ((freebsdAbs_good (h := []) hts).1 _ _ _ h).weaken (Nat.le_refl _) (fun t _ _ => (hclk t).2)

/-- C26: `wait_until` with the lock pool on a clock without a POSIX clock id. -/
theorem C26_wait_until_pool (pool : Pool) (u : Conv) (timeout : Int) {v : V} {timedOut : Bool}
    (h : Runs W (poolWaitUntil pool u old timeout) i j tr (v, timedOut)) :
    TimedOk W old (fun t => timeout ≤ W.clk .user t) i j v timedOut :=
  (poolWaitUntil'_good (h := [])).1 _ _ _ h

/-- C26: `wait_until` with the lock pool on a POSIX clock. -/
theorem C26_wait_until_pool_posix (pool : Pool) (clockId : Nat) (ts : Timespec) (timeout : Int)
    (hts : ts.Normal) (hclk : ∀ t, timeout ≤ W.clk .user t ↔ ts.ns ≤ (W.posix clockId t).ns) {v : V} {timedOut : Bool}
    (h : Runs W (poolAbsUntil pool clockId ts old) i j tr (v, timedOut)) :
    TimedOk W old (fun t => timeout ≤ W.clk .user t) i j v timedOut :=
  ((poolAbsUntil_good (h := []) hts).1 _ _ _ h).weaken (Nat.le_refl _) (fun t _ _ => (hclk t).2)

/-- The hypothesis `hclk` above holds for `system_clock` with nanosecond ticks and a 64-bit `time_t`: if the user's clock
and the POSIX clock show the same time, the time point and its conversion denote the same instant. -/
theorem C26_same_instant (clockId : Nat) (epoch timeout : Int) (he : -(2 ^ 62) ≤ epoch ∧ epoch ≤ 2 ^ 62)
    (ht : Fits 64 timeout) (hsame : ∀ t, (W.posix clockId t).ns = epoch * 1000000000 + W.clk .user t) :
    (toTimespec 64 epoch timeout).Normal ∧
    ∀ t, timeout ≤ W.clk .user t ↔ (toTimespec 64 epoch timeout).ns ≤ (W.posix clockId t).ns := by
  obtain ⟨h1, h2⟩ := C30_to_timespec_64 epoch timeout he ht
  refine ⟨h1, fun t => ?_⟩
  rw [h2, hsame t]; omega

/-- C26: `wait_for` of the native implementations that use `steady_clock`: timeout is reported only if the duration has
elapsed on that clock during the call. -/
theorem C26_wait_for_native (u : Conv) (lim : Int → Int) (timeout : Int) {v : V} {timedOut : Bool}
    (h : Runs W (relWaitFor u lim old timeout) i j tr (v, timedOut)) :
    TimedForOk W old (fun s t => timeout ≤ W.clk .steady t - W.clk .steady s) i j v timedOut :=
  (relWaitFor_good (h := [])).1 _ _ _ h

/-- C26: `wait_for` of the futex and FreeBSD implementations for a timeout of `c` ticks of `ut.num / ut.den` nanoseconds:
timeout is reported only if the duration has elapsed on `CLOCK_MONOTONIC` or on `steady_clock`, whichever was used. -/
theorem C26_wait_for_futex (nosys : Bool) (w : Nat) (ut u : Conv) (mult : Int) (lim : Int → Int) (c : Int)
    (hw : 0 < w) (hfit : ∀ t, Fits w (W.posix 1 t).sec) {v : V} {timedOut : Bool}
    (h : Runs W (absWaitFor nosys w ut mult u lim old c) i j tr (v, timedOut)) :
    TimedForOk W old (fun s t => c * mult ≤ W.clk .steady t - W.clk .steady s ∨
        c * ut.num ≤ ((W.posix 1 t).ns - (W.posix 1 s).ns) * ut.den) i j v timedOut :=
  (absWaitFor_good (h := []) hw hfit).1 _ _ _ h

/-- C26: `wait_for` with the lock pool. -/
theorem C26_wait_for_pool (pool : Pool) (u : Conv) (timeout : Int) {v : V} {timedOut : Bool}
    (h : Runs W (poolWaitFor pool u old timeout) i j tr (v, timedOut)) :
    TimedForOk W old (fun s t => timeout ≤ W.clk .steady t - W.clk .steady s) i j v timedOut :=
  (poolWaitFor_good (h := [])).1 _ _ _ h

/-- C26: if the object never holds the old value from the deadline on (say, because a store was made before it), no
timed wait reports timeout: the value is returned.  Stated once for all operations, as a consequence of `TimedOk`. -/
theorem C26_no_false_timeout {passed : Nat → Prop} {v : V} {timedOut : Bool}
    (h : TimedOk W old passed i j v timedOut) (hv : ∀ t t', passed t → t ≤ t' → W.val t' ≠ old) :
    timedOut = false ∧ v ≠ old := by
  obtain ⟨-, h1, h2⟩ := h
  cases timedOut with
  | false => exact ⟨rfl, h1 rfl⟩
  | true =>
    obtain ⟨-, t, t', -, k1, -, k2, k3⟩ := h2 rfl
    exact absurd k3 (hv t t' k2 k1)

/-- C26: every relative timeout passed to the kernel is positive (zero means "forever" to some kernels) and does not exceed
the largest value of its type; also while the call is still running. -/
theorem C26_limits (u : Conv) (max timeout : Int) (hmax : 0 < max)
    (h : Partial W (relWaitUntil u (clamp max) old timeout) i tr) :
    ∀ n t, Ev.block (.rel n) t ∈ tr → 0 < n ∧ n ≤ max := by
  have hg : Good W (LimitsOk max) (relWaitUntil u (clamp max) old timeout) i [] (fun _ h _ => LimitsOk max h) := by
    simp only [relWaitUntil, bind_def]
    apply good_bind
    have h0 : LimitsOk max ([] : List (Ev V)) := fun _ _ h => nomatch h
    apply good_now h0
    intro t ht
    have h1 := limitsOk_snoc (e := Ev.now .user t) h0 (fun _ _ h => nomatch h)
    exact ⟨h1, relUntil_limits hmax h1⟩
  exact hg.2 _ h

/-- C26: once the deadline has passed for good, a timed wait does at most four more steps before it returns, whatever the
values it reads and however often it is woken (with `std::chrono::ceil`, or a clock with ticks of whole units). -/
theorem C26_returns_after_deadline (u : Conv) (lim : Int → Int) (timeout : Int) (T : Nat)
    (hT : ∀ t, T ≤ t → timeout ≤ W.clk .user t) (hu : u.std = true ∨ u.den = 1)
    (h : Partial W (relWaitUntil u lim old timeout) i tr) : stepsAfter T tr ≤ 4 := by
  have hg : Good W (fun h => stepsAfter T h ≤ 4) (relWaitUntil u lim old timeout) i []
      (fun _ h _ => stepsAfter T h ≤ 4) := by
    simp only [relWaitUntil, bind_def]
    apply good_bind
    apply good_now (by simp [stepsAfter])
    intro t ht
    have h1 : stepsAfter T ([] ++ [Ev.now .user t] : List (Ev V)) ≤ 1 :=
      steps_snoc (k := 0) (by simp [stepsAfter]) (.inl (by omega))
    refine ⟨by omega, ?_⟩
    refine relUntil_deadline hT hu h1 ?_
    rcases Nat.lt_or_ge t T with hlt | hge
    · exact .inr (steps_snoc (k := 0) (by simp [stepsAfter]) (.inr ⟨hlt, Nat.le_refl _⟩))
    · exact .inl (hT t hge)
  exact hg.2 _ h

/-- C27: once the value has changed for good, native `wait` does at most two more steps, one of which may be a call of
the kernel (which does not block, as the value differs: `C27_native_notify_all`). -/
theorem C27_native_wait_steps (T : Nat) (hT : ∀ t, T ≤ t → W.val t ≠ old) (h : Partial W (nativeWait old) i tr) :
    stepsAfter T tr ≤ 2 :=
  (nativeWait_steps (h := []) hT (by simp [stepsAfter])).2 _ h

/-! ### C37 -/

/-- C37: `wait` of an interprocess object without native support returns a value that differs from the one waited on and that
the object held during the call. -/
theorem C37_wait (spins : Nat) {v : V} (h : Runs W (ipcWait spins old) i j tr v) : WaitOk W old i j v :=
  (ipcWait_good (h := [])).1 _ _ _ h

/-- C37: timed waits report timeout only with the old value, read after the deadline had passed. -/
theorem C37_wait_until (spins : Nat) (timeout : Int) {v : V} {timedOut : Bool}
    (h : Runs W (ipcWaitUntil spins old timeout) i j tr (v, timedOut)) :
    TimedOk W old (fun t => timeout ≤ W.clk .user t) i j v timedOut :=
  (ipcWaitUntil_good (h := [])).1 _ _ _ h

theorem C37_wait_for (spins : Nat) (timeout : Int) {v : V} {timedOut : Bool}
    (h : Runs W (ipcWaitFor spins old timeout) i j tr (v, timedOut)) :
    TimedForOk W old (fun s t => timeout ≤ W.clk .steady t - W.clk .steady s) i j v timedOut :=
  (ipcWaitFor_good (h := [])).1 _ _ _ h

/-- C37: no notification is needed.  From the time the value has changed for good `wait` does at most two more steps before
it returns, and it never blocks in the kernel. -/
theorem C37_wait_no_notify (spins : Nat) (T : Nat) (hT : ∀ t, T ≤ t → W.val t ≠ old)
    (h : Partial W (ipcWait spins old) i tr) : stepsAfter T tr ≤ 2 ∧ NeverBlocks tr :=
  (ipcWait_steps (h := []) hT ⟨Nat.le_refl _, fun _ _ h => nomatch h⟩).2 _ h

/-- C37: from the time the value has changed for good, timed waits do at most three more steps. -/
theorem C37_wait_until_no_notify (spins : Nat) (timeout : Int) (T : Nat) (hT : ∀ t, T ≤ t → W.val t ≠ old)
    (h : Partial W (ipcWaitUntil spins old timeout) i tr) : stepsAfter T tr ≤ 3 ∧ NeverBlocks tr := by
  have hg : Good W (AtMost T 3) (ipcWaitUntil spins old timeout) i [] (fun _ h _ => AtMost T 3 h) := by
    simp only [ipcWaitUntil, bind_def]
    apply good_bind
    apply good_now ⟨Nat.zero_le _, fun _ _ h => nomatch h⟩
    intro t ht
    exact ⟨atMost_now.1.mono (by omega), ipcUntil_steps hT atMost_now.1 atMost_now.2⟩
  exact hg.2 _ h

/-- C37: from the time the deadline has passed for good, timed waits do at most four more steps. -/
theorem C37_wait_until_deadline (spins : Nat) (timeout : Int) (T : Nat) (hT : ∀ t, T ≤ t → timeout ≤ W.clk .user t)
    (h : Partial W (ipcWaitUntil spins old timeout) i tr) : stepsAfter T tr ≤ 4 ∧ NeverBlocks tr := by
  have hg : Good W (AtMost T 4) (ipcWaitUntil spins old timeout) i [] (fun _ h _ => AtMost T 4 h) := by
    simp only [ipcWaitUntil, bind_def]
    apply good_bind
    apply good_now ⟨Nat.zero_le _, fun _ _ h => nomatch h⟩
    intro t ht
    refine ⟨atMost_now.1.mono (by omega), ipcUntil_deadline hT atMost_now.1 ?_⟩
    rcases Nat.lt_or_ge t T with hlt | hge
    · exact .inr (atMost_now.2 hlt)
    · exact .inl (hT t hge)
  exact hg.2 _ h

/-! ### Non-vacuity -/

section Examples

/-- The object holds 0 before time 5 and 1 from then on; the clocks show the time. -/
def exW : World Nat where
  val t := if t < 5 then 0 else 1
  clk _ t := t
  posix _ t := ⟨t, 0⟩
  posix_ok _ t := ⟨⟨Int.le_refl 0, show (0 : Int) < 1000000000 by decide⟩, Int.natCast_nonneg t⟩

/-- A wait that blocks once and returns the new value. -/
example : Runs exW (nativeWait 0) 0 7 [.load 1 0, .block .none 1, .load 7 1] 1 := by
  refine ⟨0, 1, [.load 1 0], [.block .none 1, .load 7 1], ⟨by decide, rfl, rfl⟩, ?_, rfl⟩
  refine LoopRuns.next (s' := 1) (j := 7) (tr := [.block .none 1, .load 7 1]) (tr' := []) ?_ (.done ⟨rfl, rfl, rfl⟩)
  exact ⟨.ok, 6, [.block .none 1], [.load 7 1], ⟨by decide, rfl, fun h => nomatch h⟩,
    ⟨1, 7, [.load 7 1], [], ⟨by decide, rfl, rfl⟩, ⟨rfl, rfl, rfl⟩, rfl⟩, rfl⟩

def exConv : Conv := ⟨true, 1, 1, by decide, by decide⟩

/-- A timed wait for instant 3 that blocks once and times out at time 4. -/
example : Runs exW (relWaitUntil exConv id 0 3) 0 4
    [.now .user 0, .load 1 0, .block (.rel 3) 1, .now .user 4, .load 4 0] (0, true) := by
  refine ⟨0, 0, [.now .user 0], [.load 1 0, .block (.rel 3) 1, .now .user 4, .load 4 0], ⟨by decide, rfl, rfl⟩, ?_, rfl⟩
  refine ⟨0, 1, [.load 1 0], [.block (.rel 3) 1, .now .user 4, .load 4 0], ⟨by decide, rfl, rfl⟩, ?_, rfl⟩
  refine LoopRuns.next (s' := (0, 4)) (j := 4) (tr := [.block (.rel 3) 1, .now .user 4, .load 4 0]) (tr' := []) ?_
    (.done ?_)
  rotate_left
  · have h : exConv.ceil (3 - 4) ≤ 0 := by decide
    simp only [if_pos h, pure_def, Runs, if_true, and_self]
  have h : ¬ exConv.ceil (3 - 0) ≤ 0 := by decide
  simp only [if_neg h, if_true]
  refine ⟨.timedOut, 4, [.block (.rel 3) 1], [.now .user 4, .load 4 0], ⟨by decide, rfl, fun _ _ _ h => nomatch h⟩, ?_, rfl⟩
  refine ⟨4, 4, [.now .user 4], [.load 4 0], ⟨by decide, rfl, rfl⟩, ?_, rfl⟩
  exact ⟨0, 4, [.load 4 0], [], ⟨by decide, rfl, rfl⟩, ⟨rfl, rfl, rfl⟩, rfl⟩

/-- The value has changed for good at time 5, and at time 3 the deadline 3 has passed for good. -/
example : (∀ t, 5 ≤ t → exW.val t ≠ 0) ∧ ∀ t, 3 ≤ t → (3 : Int) ≤ exW.clk .user t := by
  constructor
  · intro t ht
    show (if t < 5 then 0 else 1) ≠ 0
    rw [if_neg (by omega)]; decide
  · intro t ht
    show (3 : Int) ≤ (t : Int)
    omega

/-- A polling wait that spins once and then sees the new value. -/
example : Runs exW (ipcWait 16 0) 0 6 [.load 1 0, .pause 2, .load 6 1] 1 := by
  refine ⟨0, 1, [.load 1 0], [.pause 2, .load 6 1], ⟨by decide, rfl, rfl⟩, ?_, rfl⟩
  refine ⟨.inr 1, 6, [.pause 2, .load 6 1], [], ?_, ⟨rfl, rfl, rfl⟩, rfl⟩
  refine ⟨(), 2, [.pause 2], [.load 6 1], ⟨by decide, rfl⟩, ?_, rfl⟩
  exact ⟨1, 6, [.load 6 1], [], ⟨by decide, rfl, rfl⟩, ⟨rfl, rfl, rfl⟩, rfl⟩

/-- A wait on the pthread lock pool that times out in the kernel. -/
example : Runs exW (poolAbsUntil (.pthread fun _ => true) 0 ⟨3, 0⟩ 0) 0 4
    [.load 0 0, .block (.abs 0 ⟨3, 0⟩) 0, .load 4 0] (0, true) := by
  refine ⟨0, 0, [.load 0 0], [.block (.abs 0 ⟨3, 0⟩) 0, .load 4 0], ⟨by decide, rfl, rfl⟩, ?_, rfl⟩
  refine LoopRuns.done ?_
  refine ⟨true, 3, [.block (.abs 0 ⟨3, 0⟩) 0], [.load 4 0], ?_, ?_, rfl⟩
  · refine ⟨.timedOut, 3, [.block (.abs 0 ⟨3, 0⟩) 0], [], ⟨by decide, rfl, fun _ c d h => ?_⟩, ⟨rfl, rfl, rfl⟩, rfl⟩
    cases h; exact Int.le_refl _
  · exact ⟨0, 4, [.load 4 0], [], ⟨by decide, rfl, rfl⟩, ⟨rfl, rfl, rfl⟩, rfl⟩

end Examples

end Verif.Wait
