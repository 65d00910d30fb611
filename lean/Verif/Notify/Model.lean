import Verif.Locked.Model

/-
Waiting and notifying on processors that reorder accesses.

`wait` compares the value of the object with the argument and registers as a waiter, both while it holds the mutex of the
object (wait_ops_generic.hpp:63–78, wait_ops_emulated.hpp:57–70, lock_pool.hpp:124–162); to block, it gives the mutex back
(src/lock_pool.cpp:1187–1204, 440–443, 646–668, 893–896).  The load of an object that is lock-free has the order that the user passed.  `notify_one` and
`notify_all` take the mutex, look the object up and wake waiters (wait_ops_generic.hpp:228–238,
wait_ops_emulated.hpp:214–226, src/lock_pool.cpp:1252–1270, 804–828); the store that precedes the call is not made in the
section if the object is lock-free.  Programs are those of `Verif.Locked`.

Simplifications.
* The waiters of an object are one variable that the mutex guards.  Its value is the set of the waits that are registered
  and that no notification has reached: wait number `k` is in it if bit `k` is set.  That the list of wait states, the
  counters, the condition `m_cond` and the queues of the kernel implement such a set is the subject of C25, C27 and C28.
* A section is one passage of `wait` through the mutex: from taking it, in the beginning or after waking up, to giving it
  back, in order to block or at the end.
* Where the kernel does this work (objects with native waiting, wait_ops_futex.hpp:115–125), the sections are those of the
  lock of the queue in the kernel, as far as it is such a mutex.
* Of timed waits nothing is said: they compare before they take the mutex (C27).
-/

namespace Verif.Notify

open Verif.Order Verif.Mca Verif.Mca.Run Verif.Locked

variable {cpu : Cpu}

/-- What a section does for an object. -/
inductive Call where
  /-- the wait number `k` finds the value `old` and is about to block -/
  | wait (k old : Nat)
  | notifyOne
  | notifyAll
  deriving DecidableEq

/-- The sections do what the functions of the library do.  `slot x` is the variable with the waiters of the object `x`, and
`does S x` what the section `S` does for it, if anything. -/
structure Records (R : Mca.Run cpu) (rf : Pos → Option Pos → Prop) (V : Values) (guard : Nat → Option Nat) {Sec : Type}
    (mutex : Sec → Nat) (take give : Sec → OpId) (slot : Nat → Nat) (does : Sec → Nat → Option Call) : Prop where
  /-- the mutex is that of the object, lock_pool.hpp:101–108 -/
  guarded : ∀ S x c, does S x = some c → guard (slot x) = some (mutex S)
  /-- the waiters are changed by adding to them or removing some: src/lock_pool.cpp:983–1025, 1028–1063 -/
  reads : ∀ S x v, SectionLeft R V (take S) (give S) (slot x) v → ∃ u, SectionFound R rf V (take S) (give S) (slot x) u
  /-- wait_ops_generic.hpp:68–73, wait_ops_emulated.hpp:61–67, src/lock_pool.cpp:1155–1170, 646–651 -/
  wait : ∀ S x k old, does S x = some (.wait k old) →
    (∃ v, SectionLeft R V (take S) (give S) (slot x) v ∧ v.testBit k = true) ∧
    ∃ r s y, Inside R (take S) (give S) r ∧ R.Has r .rd ∧ R.Is r y ∧ y.loc = x ∧ rf r s ∧ V.of x s = old
  /-- src/lock_pool.cpp:1252–1260, 805–815 -/
  one : ∀ S x, does S x = some .notifyOne → ∃ v, SectionFound R rf V (take S) (give S) (slot x) v ∧
    (v = 0 ∨ ∃ j v', v.testBit j = true ∧ SectionLeft R V (take S) (give S) (slot x) v' ∧
      ∀ i, v'.testBit i = (v.testBit i && decide (i ≠ j)))
  /-- src/lock_pool.cpp:1262–1270, 818–828 -/
  all : ∀ S x, does S x = some .notifyAll → ∃ v, SectionFound R rf V (take S) (give S) (slot x) v ∧
    (v = 0 ∨ SectionLeft R V (take S) (give S) (slot x) 0)

/-- The section removes wait number `k` from the waiters of `x`. -/
def Wakes (R : Mca.Run cpu) (rf : Pos → Option Pos → Prop) (V : Values) {Sec : Type} (take give : Sec → OpId)
    (slot : Nat → Nat) (B : Sec) (x k : Nat) : Prop :=
  ∃ v v', SectionFound R rf V (take B) (give B) (slot x) v ∧ SectionLeft R V (take B) (give B) (slot x) v' ∧
    v.testBit k = true ∧ v'.testBit k = false

/-- `S` is a section in which a call of `wait(old)`, wait number `k`, blocks, and it is never woken. -/
def LeftBlocked (R : Mca.Run cpu) (rf : Pos → Option Pos → Prop) (V : Values) {Sec : Type} (take give : Sec → OpId)
    (slot : Nat → Nat) (does : Sec → Nat → Option Call) (S : Sec) (x k old : Nat) : Prop :=
  does S x = some (.wait k old) ∧ ∀ B, ¬ Wakes R rf V take give slot B x k

/-- `w` is an access of the thread before the operation `a`, or happens before one. -/
def Precedes (R : Mca.Run cpu) (hb : Pos → Pos → Prop) (w : Pos) (a : OpId) : Prop :=
  ∃ e id it, R.Within e id it ∧ id.1 = a.1 ∧ id.2 < a.2 ∧ (w = e ∨ hb w e)

/-- `w` modifies the object `x`, and from then on it never has the value `old`.  `later` is the order of the modifications. -/
def Settles (R : Mca.Run cpu) (V : Values) (later : Pos → Pos → Prop) (x old : Nat) (w : Pos) : Prop :=
  (∃ y, R.Is w y ∧ y.loc = x) ∧ R.Has w .wr ∧ V.val w ≠ old ∧
    ∀ w' y, R.Is w' y → y.loc = x → R.Has w' .wr → later w w' → V.val w' ≠ old

end Verif.Notify
