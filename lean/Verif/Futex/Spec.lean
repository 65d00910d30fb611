import Verif.Futex.Model

/-!
Vocabulary for the statements about the futex lock: what it means to own the lock, to be blocked, to be in
a waiting function, and to be going to wake or take the lock.
-/

namespace Verif.Futex

variable {T C V : Type}

/-- The thread owns the lock: it has acquired it and its release has not taken effect. -/
def Owns : PC C V → Prop
  | .hold | .waitRead .. | .waitInc .. | .ulLoad .. | .ulCas .. | .waitDec .. | .ntInc .. | .ntTest ..
  | .ntRequeue .. | .ntOr .. => True
  | _ => False

/-- The thread is blocked in the kernel waiting for the lock. -/
def BlockedOnLock (q : PC C V) : Prop := ∃ x, q = .asleepM x

/-- The thread is blocked in the kernel waiting for a notification on `c`. -/
def BlockedOnCond (c : C) (q : PC C V) : Prop := ∃ w, q = .asleepC w ∧ w.c = c

/-- The thread is running code that tries to acquire the lock (and is not asleep). -/
def Acquiring : PC C V → Prop
  | .spin .. | .spinCas .. | .slowLoad .. | .slow .. | .slowWait .. => True
  | _ => False

/-- The waiting function call the thread is executing, from the moment it has read `m_cond`. -/
def waitOf : PC C V → Option (Wait C V)
  | .waitInc w | .condWait w | .asleepC w | .condRet w _ | .waitDec w | .asleepM (.cond w)
  | .spin _ (.relock w) | .spinCas _ _ (.relock w) | .slowLoad (.relock w) | .slow _ (.relock w)
  | .slowWait _ (.relock w) | .asleepM (.lock (.relock w))
  | .ulLoad (.wait w) | .ulCas _ (.wait w) | .ulWake _ (.wait w) | .ulClear _ (.wait w) => some w
  | _ => none

/-- The counters have not wrapped around under a thread that remembers an old value: fewer than
`mutexMod` releases since a thread that is about to clear the contended bit released the lock, and fewer
than `condMod` notifications since a waiting function started. -/
def Fresh (cfg : Cfg) (s : State T C V) : Prop :=
  (∀ t w k, s.pc t = .ulClear w k → s.m.n < w.n + cfg.mutexMod) ∧
  (∀ t w, waitOf (s.pc t) = some w → s.cond w.c < w.p + cfg.condMod)

/-- The thread has left the kernel because it was notified and is going to acquire the lock: its waiting
function was called before the last notification. -/
def Leaving (s : State T C V) (q : PC C V) : Prop := ∃ w r, q = .condRet w r ∧ w.p < s.cond w.c

/-- Somebody is committed to waking a sleeper or to taking the lock: a thread that has released the lock
and is about to wake a sleeper, a thread that is acquiring the lock, or a notified thread that is about to
do so. -/
def Committed (s : State T C V) (t : T) : Prop :=
  (∃ w k, s.pc t = .ulWake w k) ∨ Acquiring (s.pc t) ∨ Leaving s (s.pc t)

end Verif.Futex
