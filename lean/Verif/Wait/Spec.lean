import Verif.Wait.World

/-! Specification of the waiting operations, in terms of the value of the object and the clock over time. -/

namespace Verif.Wait

variable {V : Type}

/-- The object held `v` at some time between `i` and `j`. -/
def Seen (W : World V) (i j : Nat) (v : V) : Prop := ∃ t, i ≤ t ∧ t ≤ j ∧ W.val t = v

/-- Result of `wait(old)` called at time `i` and returning `v` at time `j`. -/
def WaitOk (W : World V) (old : V) (i j : Nat) (v : V) : Prop := v ≠ old ∧ Seen W i j v

/-- Result of a timed wait for a deadline; `passed t` says that at time `t` the clock showed the deadline or later.
Timeout is reported only if the object still held the old value at a time when the deadline had passed before. -/
def TimedOk (W : World V) (old : V) (passed : Nat → Prop) (i j : Nat) (v : V) (timedOut : Bool) : Prop :=
  Seen W i j v ∧
  (timedOut = false → v ≠ old) ∧
  (timedOut = true → v = old ∧ ∃ t t', i ≤ t ∧ t ≤ t' ∧ t' ≤ j ∧ passed t ∧ W.val t' = old)

/-- Result of a timed wait for a duration; `elapsed t t'` says that the duration elapsed from `t` to `t'`. -/
def TimedForOk (W : World V) (old : V) (elapsed : Nat → Nat → Prop) (i j : Nat) (v : V) (timedOut : Bool) : Prop :=
  Seen W i j v ∧
  (timedOut = false → v ≠ old) ∧
  (timedOut = true → v = old ∧
    ∃ s t t', i ≤ s ∧ s ≤ t ∧ t ≤ t' ∧ t' ≤ j ∧ elapsed s t ∧ W.val t' = old)

/-- Number of steps done at or after time `T`. -/
def stepsAfter (T : Nat) (tr : List (Ev V)) : Nat := (tr.filter (fun e => decide (T ≤ e.time))).length

/-- The steps contain no blocking call. -/
def NeverBlocks (tr : List (Ev V)) : Prop := ∀ l t, Ev.block l t ∉ tr

end Verif.Wait
