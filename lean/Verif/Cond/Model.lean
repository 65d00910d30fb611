import Verif.Registry.Model

/-
The whole lock pool on platforms where its locks are system mutexes and its wait states hold system condition
variables: POSIX threads (src/lock_pool.cpp:317-507) and Windows (830-918).

The state holds all locks, the registry of wait states with its real tables (`Registry.Pool`, `Registry.step`),
the values of all atomic objects, and any number of threads.  A thread may store to an object, wait on an object
(untimed or timed), notify an object, or run the cleanup function, any number of times.

Contract of the system calls:
* `pthread_mutex_trylock`/`lock`, `AcquireSRWLockExclusive` return with the lock owned only when it was free; the spinning
  with `trylock` before `lock` (src/lock_pool.cpp:419-425) is not visible and is left out;
* `pthread_cond_wait`/`timedwait`/`clockwait`, `SleepConditionVariableSRW` release the mutex and block in one step
  and own the mutex again when they return; they may return at any time for any reason (spurious wake-up, timeout, signal),
  and report a timeout only if they were not woken by a signal;
* `pthread_cond_signal`, `WakeConditionVariable` wake at least one of the threads blocked on the condition
  variable, if there is one; `pthread_cond_broadcast`, `WakeAllConditionVariable` wake all of them.

Interleaving is sequentially consistent.  Clocks and deadlines are not modelled here (see `Verif.Wait` and
`Verif.Chrono`): a timed wait may end at any time.
-/

namespace Verif.Cond

open Verif (upd)
open Verif.Registry (Cfg Pool Waiter Id)

/-- How a waiting operation uses the lock pool.  `loop`: its clock is not supported by the condition variable, so
`wait_state::wait_until` runs a loop of relative waits of its own (src/lock_pool.cpp:468-485). -/
inductive Mode where
  /-- `wait`: wait_ops_emulated.hpp:58-71, wait_ops_generic.hpp:63-79 -/
  | untimed
  /-- a timed wait that compares under the lock before it blocks: wait_ops_emulated.hpp:74-135, and wait_ops_generic.hpp
  after it has been woken once -/
  | timed (loop : Bool)
  /-- a timed wait that blocks without a comparison since it took the lock: wait_ops_generic.hpp:82-150, before it has
  blocked for the first time, and `wait_state::wait_until` when it blocks again in its own loop -/
  | stale (loop : Bool)
deriving DecidableEq

/-- `wait_state::wait_until` has its own loop. -/
def Mode.loops : Mode → Bool
  | .untimed => false
  | .timed l | .stale l => l

/-- The next time the operation blocks, it has compared before. -/
def Mode.checked : Mode → Mode
  | .stale l => .timed l
  | m => m

/-- The operation blocks without comparing. -/
def Mode.isStale : Mode → Bool
  | .stale _ => true
  | _ => false

/-- Where a thread is.  `x` is the waiting operation with its wait state, `old` the value it waits to go away. -/
inductive PC (w : Nat) (V : Type) where
  | idle
  /-- constructor of `scoped_wait_state`, before `long_lock`: lock_pool.hpp:134-138, src/lock_pool.cpp:1142-1147 -/
  | wLock (a : BitVec w) (old : V) (m : Mode)
  /-- before `allocate_wait_state`: src/lock_pool.cpp:1155-1170 -/
  | wReg (a : BitVec w) (old : V) (m : Mode)
  /-- before the object is read: wait_ops_emulated.hpp:63, 67, wait_ops_generic.hpp:70, 74 -/
  | wLoad (x : Waiter w) (old : V) (m : Mode)
  /-- the object was found equal to `old`; before `lock_pool::wait` (or timed): src/lock_pool.cpp:1187-1250 -/
  | wWait (x : Waiter w) (old : V) (m : Mode)
  /-- blocked on the condition variable of the wait state: src/lock_pool.cpp:442, 456, 463, 506, 892, 904 -/
  | asleep (x : Waiter w) (old : V) (m : Mode)
  /-- woken, with or without a timeout; the call re-acquires the mutex before it returns -/
  | relock (x : Waiter w) (old : V) (m : Mode) (timeout : Bool)
  /-- without a wait state: `unlock(); wait_some(); long_lock()`, before `long_lock`: src/lock_pool.cpp:1199-1203 -/
  | yielding (x : Waiter w) (old : V) (m : Mode)
  /-- destructor of `scoped_wait_state`, before `free_wait_state`: lock_pool.hpp:143-146 -/
  | wFree (x : Waiter w)
  /-- `notify_one` / `notify_all`: before `long_lock` (wait_ops_emulated.hpp:214-226, wait_ops_generic.hpp:228-238) -/
  | nLock (all : Bool) (a : BitVec w)
  /-- before `m_wait_states.find`: src/lock_pool.cpp:1252-1272 -/
  | nFind (all : Bool) (a : BitVec w)
  /-- a wait state was found; before signalling its condition variable: src/lock_pool.cpp:372-381, 850-859 -/
  | nSig (all : Bool) (a : BitVec w) (id : Id)
  /-- lock-based store or read-modify-write (core_operations_emulated.hpp): before the lock -/
  | sLock (a : BitVec w) (v : V)
  /-- before the write -/
  | sHold (a : BitVec w) (v : V)
  /-- `cleanup_lock_pool` (src/lock_pool.cpp:961-971), before `long_lock` of lock `k` -/
  | cLock (k : Nat)
  /-- before `free_spare` -/
  | cHold (k : Nat)
  /-- before `unlock` of lock `k`: `~scoped_lock`, lock_pool.hpp:114-117 -/
  | unl (k : Nat)

/-- All locks (`owner k` is the thread that owns lock `k`), the registry, the objects, the threads. -/
structure State (w : Nat) (V : Type) where
  owner : Nat → Option Nat
  pool : Pool w
  val : BitVec w → V
  pc : Nat → PC w V

/-- Static initialisation (src/lock_pool.cpp:437, 886, 946-958); all threads outside. -/
def State.start {w : Nat} {V : Type} (val : BitVec w → V) : State w V :=
  ⟨fun _ => none, Pool.init w, val, fun _ => .idle⟩

section
variable {w : Nat} {V : Type}

/-- A thread moves to a new position. -/
def State.goto (s : State w V) (t : Nat) (q : PC w V) : State w V := { s with pc := upd s.pc t q }

/-- The threads in `P` that are blocked are woken. -/
def wake (P : Nat → Prop) [DecidablePred P] (pc : Nat → PC w V) : Nat → PC w V := fun t =>
  match pc t with
  | .asleep x old m => if P t then .relock x old m false else .asleep x old m
  | q => q

/-- Thread `t` is blocked on the condition variable of the wait state `id`. -/
def SleepsOn (s : State w V) (id : Id) (t : Nat) : Prop :=
  ∃ x old m, s.pc t = .asleep x old m ∧ x.handle = some id

/-- One step of thread `t`. -/
inductive Step (c : Cfg w) : State w V → Nat → State w V → Prop where
  /- waiting -/
  /-- the emulated waits go to the lock directly, the untimed generic wait after a comparison it repeats -/
  | wBegin {s t} (a old m) : s.pc t = .idle → m.isStale = false → Step c s t (s.goto t (.wLock a old m))
  /-- timed generic waits: the object was found equal to the value waited on (wait_ops_generic.hpp:92-93, 127-128) -/
  | wBeginStale {s t} (a l) : s.pc t = .idle → Step c s t (s.goto t (.wLock a (s.val a) (.stale l)))
  | wLock {s t a old m} : s.pc t = .wLock a old m → s.owner (c.lockOf a) = none →
      Step c s t ({ s with owner := upd s.owner (c.lockOf a) (some t) }.goto t (.wReg a old m))
  | wReg {s t a old m} (bufOk ws pool h) : s.pc t = .wReg a old m →
      (Registry.Op.register t a bufOk ws).Allowed s.pool →
      Registry.step c s.pool (.register t a bufOk ws) = some (pool, .handle h) →
      Step c s t ({ s with pool := pool }.goto t
        (if m.isStale then .wWait ⟨t, a, h⟩ old m else .wLoad ⟨t, a, h⟩ old m))
  | wSame {s t x old m} : s.pc t = .wLoad x old m → s.val x.addr = old → Step c s t (s.goto t (.wWait x old m))
  | wDiff {s t x old m} : s.pc t = .wLoad x old m → s.val x.addr ≠ old → Step c s t (s.goto t (.wFree x))
  /-- a timed wait finds that its deadline has passed -/
  | wGiveUp {s t x old m} : s.pc t = .wLoad x old m → m ≠ .untimed → Step c s t (s.goto t (.wFree x))
  /-- so does a timed generic wait before it has blocked (wait_ops_generic.hpp:98-103, 131), and the loop of
  `wait_until` (src/lock_pool.cpp:473-474) -/
  | wGiveUpStale {s t x old l} : s.pc t = .wWait x old (.stale l) → Step c s t (s.goto t (.wFree x))
  /-- the condition variable is used: the wait state must be allocated (`Registry.step` checks it) -/
  | wSleep {s t x old m id} (pool o) : s.pc t = .wWait x old m → x.handle = some id →
      Registry.step c s.pool (.use x) = some (pool, o) →
      Step c s t ({ s with owner := upd s.owner (c.lockOf x.addr) none, pool := pool }.goto t (.asleep x old m))
  | wYield {s t x old m} : s.pc t = .wWait x old m → x.handle = none →
      Step c s t ({ s with owner := upd s.owner (c.lockOf x.addr) none }.goto t (.yielding x old m))
  /-- spurious wake-up, timeout -/
  | wWake {s t x old m} (timeout) : s.pc t = .asleep x old m → Step c s t (s.goto t (.relock x old m timeout))
  | wRelock {s t x old m} : (∃ timeout, s.pc t = .relock x old m timeout) ∨ s.pc t = .yielding x old m →
      s.owner (c.lockOf x.addr) = none →
      Step c s t ({ s with owner := upd s.owner (c.lockOf x.addr) (some t) }.goto t (.wLoad x old m.checked))
  /-- the relative wait in the loop of `wait_until` has timed out, but the clock of the deadline has not reached it:
  the loop blocks again (src/lock_pool.cpp:469-482) -/
  | wAgain {s t x old m} : s.pc t = .relock x old m true → m.loops = true → s.owner (c.lockOf x.addr) = none →
      Step c s t ({ s with owner := upd s.owner (c.lockOf x.addr) (some t) }.goto t (.wWait x old (.stale true)))
  | wFree {s t x} (pool o) : s.pc t = .wFree x → Registry.step c s.pool (.unregister x) = some (pool, o) →
      Step c s t ({ s with pool := pool }.goto t (.unl (c.lockOf x.addr)))
  | unl {s t k} : s.pc t = .unl k → Step c s t ({ s with owner := upd s.owner k none }.goto t .idle)
  /- notifying -/
  | nBegin {s t} (all a) : s.pc t = .idle → Step c s t (s.goto t (.nLock all a))
  | nLock {s t all a} : s.pc t = .nLock all a → s.owner (c.lockOf a) = none →
      Step c s t ({ s with owner := upd s.owner (c.lockOf a) (some t) }.goto t (.nFind all a))
  | nNone {s t all a} (pool) : s.pc t = .nFind all a →
      Registry.step c s.pool (.notify a) = some (pool, .signalled none) →
      Step c s t ({ s with pool := pool }.goto t (.unl (c.lockOf a)))
  | nFind {s t all a} (pool id) : s.pc t = .nFind all a →
      Registry.step c s.pool (.notify a) = some (pool, .signalled (some id)) →
      Step c s t ({ s with pool := pool }.goto t (.nSig all a id))
  | nAll {s t a id} (P : Nat → Prop) [DecidablePred P] : s.pc t = .nSig true a id →
      (∀ u, SleepsOn s id u → P u) → (∀ u, P u → SleepsOn s id u) →
      Step c s t ({ s with pc := wake P s.pc }.goto t (.unl (c.lockOf a)))
  | nOne {s t a id} (P : Nat → Prop) [DecidablePred P] : s.pc t = .nSig false a id →
      ((∃ u, SleepsOn s id u) → ∃ u, P u) → (∀ u, P u → SleepsOn s id u) →
      Step c s t ({ s with pc := wake P s.pc }.goto t (.unl (c.lockOf a)))
  /- storing -/
  /-- an object with native operations -/
  | store {s t} (a v) : s.pc t = .idle → Step c s t { s with val := upd s.val a v }
  | sBegin {s t} (a v) : s.pc t = .idle → Step c s t (s.goto t (.sLock a v))
  | sLock {s t a v} : s.pc t = .sLock a v → s.owner (c.lockOf a) = none →
      Step c s t ({ s with owner := upd s.owner (c.lockOf a) (some t) }.goto t (.sHold a v))
  | sWrite {s t a v} : s.pc t = .sHold a v →
      Step c s t ({ s with val := upd s.val a v }.goto t (.unl (c.lockOf a)))
  /- cleanup -/
  | cBegin {s t} (k) : s.pc t = .idle → Step c s t (s.goto t (.cLock k))
  | cLock {s t k} : s.pc t = .cLock k → s.owner k = none →
      Step c s t ({ s with owner := upd s.owner k (some t) }.goto t (.cHold k))
  | cHold {s t k} (pool o) : s.pc t = .cHold k → Registry.step c s.pool (.cleanup k) = some (pool, o) →
      Step c s t ({ s with pool := pool }.goto t (.unl k))

/-- An execution: states numbered by time; at every time one thread makes a step. -/
structure Exec (w : Nat) (V : Type) (c : Cfg w) (n : Nat) where
  st : Nat → State w V
  val₀ : BitVec w → V
  start : st 0 = State.start val₀
  step : ∀ i < n, ∃ t, Step c (st i) t (st (i + 1))

/-- States some execution leads to. -/
inductive Reach (c : Cfg w) : State w V → Prop where
  | start (val) : Reach c (State.start val)
  | step {s t s'} : Reach c s → Step c s t s' → Reach c s'

end

end Verif.Cond
