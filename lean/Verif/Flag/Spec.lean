import Verif.Common.Lin
import Verif.Wait.Spec

/-!
What a user of `atomic_flag` relies on: a boolean, initially clear, with three indivisible operations, and
waiting for it to differ from a given value.
-/

namespace Verif.Flag

inductive Op where
  | test | testAndSet | clear
deriving DecidableEq

inductive Ret where
  | unit
  | flag (b : Bool)
deriving DecidableEq

/-- `true` is set. -/
def spec : SeqSpec Bool Op Ret
  | s, .test, s', r => s' = s ∧ r = .flag s
  | s, .testAndSet, s', r => s' = true ∧ r = .flag s
  | _, .clear, s', r => s' = false ∧ r = .unit

/-- Result of `wait(old)` on a flag whose state over time is `state`: called at time `i` it returned `v` at
time `j`. -/
def FlagWaitOk (state : Nat → Bool) (old : Bool) (i j : Nat) (v : Bool) : Prop :=
  v ≠ old ∧ ∃ t, i ≤ t ∧ t ≤ j ∧ state t = v

/-- Result of a timed wait; `passed t`: at time `t` the clock showed the deadline or later. -/
def FlagTimedOk (state : Nat → Bool) (old : Bool) (passed : Nat → Prop) (i j : Nat) (v timedOut : Bool) : Prop :=
  (∃ t, i ≤ t ∧ t ≤ j ∧ state t = v) ∧
  (timedOut = false → v ≠ old) ∧
  (timedOut = true → v = old ∧ ∃ t t', i ≤ t ∧ t ≤ t' ∧ t' ≤ j ∧ passed t ∧ state t' = old)

end Verif.Flag
