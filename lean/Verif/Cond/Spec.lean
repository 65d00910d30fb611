import Verif.Cond.Model

/-!
Vocabulary for the statements about the lock pool on system mutexes and condition variables.
-/

namespace Verif.Cond

open Verif.Registry (Cfg Waiter Id)

variable {w : Nat} {V : Type}

/-- The lock a thread at this position owns, having returned from the call that acquires it and not yet made the call that
releases it. -/
def holds (c : Cfg w) : PC w V → Option Nat
  | .wReg a _ _ | .nFind _ a | .nSig _ a _ | .sHold a _ => some (c.lockOf a)
  | .wLoad x _ _ | .wWait x _ _ | .wFree x => some (c.lockOf x.addr)
  | .cHold k | .unl k => some k
  | _ => none

/-- The lock a thread at this position is waiting to acquire. -/
def wants (c : Cfg w) : PC w V → Option Nat
  | .wLock a _ _ | .nLock _ a | .sLock a _ => some (c.lockOf a)
  | .relock x _ _ _ | .yielding x _ _ => some (c.lockOf x.addr)
  | .cLock k => some k
  | _ => none

/-- The thread is blocked in a waiting operation on the object at `a`, waiting for its value to differ from `old`. -/
def BlockedOn (a : BitVec w) (q : PC w V) : Prop := ∃ x old m, q = .asleep x old m ∧ x.addr = a

/-- The same for a given value. -/
def BlockedFor (a : BitVec w) (old : V) (q : PC w V) : Prop := ∃ x m, q = .asleep x old m ∧ x.addr = a

/-- The waiting operation the thread executes, from the time it has a wait state (or has failed to get one). -/
def waiting : PC w V → Option (Waiter w)
  | .wLoad x _ _ | .wWait x _ _ | .asleep x _ _ | .relock x _ _ _ | .yielding x _ _ | .wFree x => some x
  | _ => none

/-- The thread is in a timed wait and may block without comparing under the lock (see `Mode.stale`): a wait on an object with
native operations that has not blocked yet, or a wait that has timed out inside the loop of `wait_until`. -/
def Unchecked : PC w V → Prop
  | .wLock _ _ (.stale _) | .wReg _ _ (.stale _) | .wWait _ _ (.stale _) | .asleep _ _ (.stale _) => True
  | .relock _ _ m true => m.loops = true
  | _ => False

end Verif.Cond
