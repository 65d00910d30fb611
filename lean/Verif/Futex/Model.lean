import Verif.Common.Lin

/-
One entry of the lock pool in its futex implementation (src/lock_pool.cpp:509–828): the mutex, the
condition variables of the objects that map to this entry, and the threads that use them.

All steps are single atomic accesses or single kernel calls, interleaved arbitrarily, for any number of
threads and condition variables.  Interleaving is sequentially consistent; memory order is the subject
of `Verif.Order` and `Verif.Tso`.

The counters that the code keeps in 30 bits (mutex word) and 32 bits (`m_cond`) are natural numbers here
and every *comparison* made by the code or the kernel is modulo `cfg.mutexMod` and `cfg.condMod`
(2^30 and 2^32 in the code).  That way the wrap-around of the code is modelled exactly, while theorems
can speak about the true number of increments.  `m_waiter_count` is a natural number (it counts threads;
the code's 32-bit counter is assumed not to overflow).

What the threads do with the lock is unconstrained: a thread that holds the lock may release it, call
`wait`, `wait_until`, `wait_for`, `notify_one` or `notify_all` on any condition variable, any number of
times.
-/

namespace Verif.Futex

open Verif (upd)

/-- How the code around the model is configured. -/
structure Cfg where
  /-- counter values in the mutex word: 2^30, src/lock_pool.cpp:520–524 -/
  mutexMod : Nat
  /-- values of `m_cond`: 2^32, src/lock_pool.cpp:533 -/
  condMod : Nat
  /-- whether there are callers that compare the object with the expected value *before* taking the lock
  and do not look again before blocking: the timed waits of wait_ops_generic.hpp:92–105, 127–136.
  All other waiting operations compare under the lock: wait_ops_generic.hpp:68–75,
  wait_ops_emulated.hpp:61–67, 84–99, 116–128. -/
  staleCheck : Bool

/-- The configuration found in the code for the non-timed generic wait and all emulated waits. -/
def Cfg.code : Cfg := ⟨2 ^ 30, 2 ^ 32, false⟩

/-- The mutex word `m_mutex`: bit 0 `locked`, bit 1 `contended`, the rest a counter
(src/lock_pool.cpp:517–526).  `Word.enc` in `Futex/Bits.lean` relates it to the 32-bit word. -/
structure Word where
  locked : Bool
  contended : Bool
  n : Nat
deriving DecidableEq

/-- Equality of mutex words as the hardware and the kernel see it. -/
def Word.Same (M : Nat) (a b : Word) : Prop :=
  a.locked = b.locked ∧ a.contended = b.contended ∧ a.n % M = b.n % M

/-- Which of the three waiting functions of `wait_state` is running.  `untilClock` is `wait_until` with
`FUTEX_WAIT_BITSET` (src/lock_pool.cpp:694–716), `untilPoll` its fallback (721–756). -/
inductive Mode where
  | wait | untilClock | untilPoll | for_
deriving DecidableEq

/-- A running call of a waiting function of `wait_state`: the condition variable, the value
`prev_cond` read at its start, the expected value `old` of the atomic object (known to the caller of
the function only), and the function. -/
structure Wait (C V : Type) where
  c : C
  p : Nat
  old : V
  mode : Mode

/-- Why a thread takes the lock. -/
inductive LockFor (C V : Type) where
  /-- `short_lock` / `long_lock` from a `scoped_lock` or `scoped_wait_state`, lock_pool.hpp:94–162 -/
  | plain
  /-- re-acquisition at the end of a waiting function, src/lock_pool.cpp:665, 759, 797 -/
  | relock (w : Wait C V)
  /-- only with `staleCheck`: the caller found the object equal to `old` already -/
  | stale (c : C) (old : V) (m : Mode)

/-- Why a thread releases the lock. -/
inductive UnlockFor (C V : Type) where
  | plain
  | wait (w : Wait C V)

/-- What a thread that is asleep on the mutex futex was doing. -/
inductive Sleep (C V : Type) where
  /-- blocked in `lock_slow_path`, src/lock_pool.cpp:607 -/
  | lock (k : LockFor C V)
  /-- blocked in a waiting function and moved to the mutex futex by a notification,
  src/lock_pool.cpp:812, 825 -/
  | cond (w : Wait C V)

/-- Results of a futex wait call. -/
inductive Res where
  | ok | intr | again | timedOut | other
deriving DecidableEq

/-- Where a thread is. -/
inductive PC (C V : Type) where
  /-- not using this lock -/
  | idle
  /-- `long_lock`, top of the loop with `i` iterations left: src/lock_pool.cpp:574–576 -/
  | spin (i : Nat) (k : LockFor C V)
  /-- before the `compare_exchange_strong`, `prev_state = w`: src/lock_pool.cpp:577–582 -/
  | spinCas (i : Nat) (w : Word) (k : LockFor C V)
  /-- `lock_slow_path`, before a load of the word: src/lock_pool.cpp:593, 608 -/
  | slowLoad (k : LockFor C V)
  /-- `lock_slow_path`, top of the loop, `prev_state = w`: src/lock_pool.cpp:594–605 -/
  | slow (w : Word) (k : LockFor C V)
  /-- before `futex_wait(&m_mutex, w)`: src/lock_pool.cpp:607 -/
  | slowWait (w : Word) (k : LockFor C V)
  /-- asleep in the kernel on the mutex futex -/
  | asleepM (x : Sleep C V)
  /-- owns the lock and executes code of the caller -/
  | hold
  /-- `wait_state::wait…`, before the load of `m_cond`: src/lock_pool.cpp:648, 673, 769 -/
  | waitRead (c : C) (old : V) (m : Mode)
  /-- before `++m_waiter_count`: src/lock_pool.cpp:649, 674, 770 -/
  | waitInc (w : Wait C V)
  /-- `unlock`, before the load: src/lock_pool.cpp:617 -/
  | ulLoad (k : UnlockFor C V)
  /-- before the `compare_exchange_weak`, `prev_state = w`: src/lock_pool.cpp:619–624 -/
  | ulCas (w : Word) (k : UnlockFor C V)
  /-- the word had the contended bit; before `futex_signal`, `new_state = w`: src/lock_pool.cpp:626–628 -/
  | ulWake (w : Word) (k : UnlockFor C V)
  /-- nobody was woken; before the `compare_exchange_strong`: src/lock_pool.cpp:629–633 -/
  | ulClear (w : Word) (k : UnlockFor C V)
  /-- before the futex wait on `m_cond`: src/lock_pool.cpp:655, 703, 732, 790 -/
  | condWait (w : Wait C V)
  /-- asleep in the kernel on `m_cond` -/
  | asleepC (w : Wait C V)
  /-- the futex wait on `m_cond` returned `r`: src/lock_pool.cpp:656–663, 704–714, 752–754, 791–795 -/
  | condRet (w : Wait C V) (r : Res)
  /-- lock re-acquired, before `--m_waiter_count`: src/lock_pool.cpp:667, 761, 799 -/
  | waitDec (w : Wait C V)
  /-- `notify_one` / `notify_all`, before the increment of `m_cond`: src/lock_pool.cpp:807, 820 -/
  | ntInc (all : Bool) (c : C)
  /-- before the test of `m_waiter_count`: src/lock_pool.cpp:809, 822 -/
  | ntTest (all : Bool) (c : C)
  /-- before `futex_requeue`: src/lock_pool.cpp:812, 825 -/
  | ntRequeue (all : Bool) (c : C)
  /-- before the `opaque_or` of the contended bit: src/lock_pool.cpp:813, 826 -/
  | ntOr (all : Bool) (c : C)

/-- The shared state: mutex word, `m_cond` and `m_waiter_count` of every condition variable, value of the
atomic object of every condition variable, position of every thread. -/
structure State (T C V : Type) where
  m : Word
  cond : C → Nat
  wc : C → Nat
  val : C → V
  pc : T → PC C V

/-- Static initialisation (src/lock_pool.cpp:640, 946–958), new wait states (537–542), all threads
outside. -/
def State.start (T : Type) {C V : Type} (val : C → V) : State T C V :=
  ⟨⟨false, false, 0⟩, fun _ => 0, fun _ => 0, val, fun _ => .idle⟩

/-- `prev_state | locked`, src/lock_pool.cpp:579, 598 -/
def Word.lock (w : Word) : Word := { w with locked := true }
/-- `prev_state | contended`, src/lock_pool.cpp:604 -/
def Word.contend (w : Word) : Word := { w with contended := true }
/-- `(prev_state & ~locked) + counter_one`, src/lock_pool.cpp:621 -/
def Word.unlock (w : Word) : Word := { w with locked := false, n := w.n + 1 }
/-- `new_state & ~contended`, src/lock_pool.cpp:632 -/
def Word.clear (w : Word) : Word := { w with contended := false }

/-- What a thread does once it owns the lock. -/
def LockFor.next {C V : Type} : LockFor C V → PC C V
  | .plain => .hold
  | .relock w => .waitDec w
  | .stale c old m => .waitRead c old m

/-- What a thread does after `unlock` returned. -/
def UnlockFor.next {C V : Type} : UnlockFor C V → PC C V
  | .plain => .idle
  | .wait w => .condWait w

/-- What a thread does when it is woken from the mutex futex: `lock_slow_path` loads the word again
whatever the result (src/lock_pool.cpp:608); a waiting function looks at the result. -/
def Sleep.woken {C V : Type} (r : Res) : Sleep C V → PC C V
  | .lock k => .slowLoad k
  | .cond w => .condRet w r

/-- Whether a waiting function leaves its loop because of the result of the futex wait: `wait_for` has
no loop (src/lock_pool.cpp:790–797); `wait` and `wait_until` leave on an error other than EINTR
(656–660, 704–711); the fallback of `wait_until` ignores the result (750). -/
def Leaves : Mode → Res → Prop
  | .for_, _ => True
  | .wait, r | .untilClock, r => r ≠ .ok ∧ r ≠ .intr
  | .untilPoll, _ => False

variable {T C V : Type} [DecidableEq T] [DecidableEq C]

/-- A thread moves to a new position. -/
def State.goto (s : State T C V) (t : T) (q : PC C V) : State T C V := { s with pc := upd s.pc t q }

/-- Effect of `futex_requeue(&m_cond, &m_mutex, 0, n)` on the threads in `mv`: they sleep on the mutex
futex from now on. -/
def requeue (mv : T → Prop) [DecidablePred mv] (pc : T → PC C V) : T → PC C V := fun t =>
  match pc t with
  | .asleepC w => if mv t then .asleepM (.cond w) else .asleepC w
  | q => q

/-- Thread `t` sleeps on the condition variable `c`. -/
def SleepsOn (s : State T C V) (c : C) (t : T) : Prop := ∃ w, s.pc t = .asleepC w ∧ w.c = c

/-- One step of thread `t`. -/
inductive Step (cfg : Cfg) : State T C V → T → State T C V → Prop where
  /-- the thread enters `long_lock` (`short_lock` is the same, src/lock_pool.cpp:566–574) -/
  | enter {s t} : s.pc t = .idle → Step cfg s t (s.goto t (.spin 10 .plain))
  /-- only with `staleCheck`: the object is compared first, then `long_lock` is entered -/
  | enterStale {s t} (c m) : cfg.staleCheck = true → s.pc t = .idle →
      Step cfg s t (s.goto t (.spin 10 (.stale c (s.val c) m)))
  /-- a store to an object by a thread outside (objects with native operations) or by the lock owner
  (emulated operations) -/
  | store {s t} (c v) : s.pc t = .idle ∨ s.pc t = .hold →
      Step cfg s t { s with val := upd s.val c v }
  /- long_lock, src/lock_pool.cpp:572–588 -/
  | spinLoad {s t i k} : s.pc t = .spin (i + 1) k → s.m.locked = false →
      Step cfg s t (s.goto t (.spinCas i s.m k))
  | spinBusy {s t i k} : s.pc t = .spin (i + 1) k → s.m.locked = true → Step cfg s t (s.goto t (.spin i k))
  | spinOk {s t i w k} : s.pc t = .spinCas i w k → s.m.Same cfg.mutexMod w →
      Step cfg s t ({ s with m := s.m.lock }.goto t k.next)
  | spinFail {s t i w k} : s.pc t = .spinCas i w k → ¬ s.m.Same cfg.mutexMod w →
      Step cfg s t (s.goto t (.spin i k))
  | spinEnd {s t k} : s.pc t = .spin 0 k → Step cfg s t (s.goto t (.slowLoad k))
  /- lock_slow_path, src/lock_pool.cpp:591–612 -/
  | slowLoad {s t k} : s.pc t = .slowLoad k → Step cfg s t (s.goto t (.slow s.m k))
  | slowLock {s t w k} : s.pc t = .slow w k → w.locked = false → s.m.Same cfg.mutexMod w →
      Step cfg s t ({ s with m := s.m.lock }.goto t k.next)
  | slowContend {s t w k} : s.pc t = .slow w k → w.locked = true → s.m.Same cfg.mutexMod w →
      Step cfg s t ({ s with m := s.m.contend }.goto t (.slowWait s.m.contend k))
  /-- either weak CAS may fail, also spuriously, and then reports the current word -/
  | slowFail {s t w k} : s.pc t = .slow w k → Step cfg s t (s.goto t (.slow s.m k))
  | slowSleep {s t w k} : s.pc t = .slowWait w k → s.m.Same cfg.mutexMod w →
      Step cfg s t (s.goto t (.asleepM (.lock k)))
  /-- `futex_wait` returns at once: word changed, signal, error -/
  | slowNoSleep {s t w k} : s.pc t = .slowWait w k → Step cfg s t (s.goto t (.slowLoad k))
  /- unlock, src/lock_pool.cpp:615–636 -/
  | release {s t} : s.pc t = .hold → Step cfg s t (s.goto t (.ulLoad .plain))
  | ulLoad {s t k} : s.pc t = .ulLoad k → Step cfg s t (s.goto t (.ulCas s.m k))
  | ulOk {s t w k} : s.pc t = .ulCas w k → s.m.Same cfg.mutexMod w →
      Step cfg s t ({ s with m := s.m.unlock }.goto t
        (if w.contended then .ulWake s.m.unlock k else k.next))
  | ulFail {s t w k} : s.pc t = .ulCas w k → Step cfg s t (s.goto t (.ulCas s.m k))
  /-- `futex_signal` wakes one of the sleepers -/
  | ulWakeOne {s t w k u x} : s.pc t = .ulWake w k → s.pc u = .asleepM x →
      Step cfg s t ((s.goto u (x.woken .ok)).goto t k.next)
  /-- `futex_signal` finds no sleeper -/
  | ulWakeNone {s t w k} : s.pc t = .ulWake w k → (∀ u x, s.pc u ≠ .asleepM x) →
      Step cfg s t (s.goto t (.ulClear w k))
  | ulClearOk {s t w k} : s.pc t = .ulClear w k → s.m.Same cfg.mutexMod w →
      Step cfg s t ({ s with m := s.m.clear }.goto t k.next)
  | ulClearFail {s t w k} : s.pc t = .ulClear w k → ¬ s.m.Same cfg.mutexMod w →
      Step cfg s t (s.goto t k.next)
  /- wait, wait_until, wait_for, src/lock_pool.cpp:646–802.  The caller has compared the object with
  `old` under the lock and found it equal. -/
  | waitBegin {s t} (c m) : s.pc t = .hold → Step cfg s t (s.goto t (.waitRead c (s.val c) m))
  | waitRead {s t c old m} : s.pc t = .waitRead c old m →
      Step cfg s t (s.goto t (.waitInc ⟨c, s.cond c, old, m⟩))
  | waitInc {s t w} : s.pc t = .waitInc w →
      Step cfg s t ({ s with wc := upd s.wc w.c (s.wc w.c + 1) }.goto t (.ulLoad (.wait w)))
  /-- the kernel compares `m_cond` with `prev_cond` and puts the thread to sleep -/
  | condSleep {s t w} : s.pc t = .condWait w → s.cond w.c % cfg.condMod = w.p % cfg.condMod →
      Step cfg s t (s.goto t (.asleepC w))
  | condAgain {s t w} : s.pc t = .condWait w → s.cond w.c % cfg.condMod ≠ w.p % cfg.condMod →
      Step cfg s t (s.goto t (.condRet w .again))
  /-- the call returns at once for another reason or spuriously -/
  | condNoSleep {s t w} (r) : s.pc t = .condWait w → r ≠ .again → Step cfg s t (s.goto t (.condRet w r))
  /-- the fallback loop of `wait_until` finds that the deadline has passed, or cannot read the clock:
  src/lock_pool.cpp:723, 732–736 -/
  | pollDeadline {s t w} : s.pc t = .condWait w → w.mode = .untilPoll →
      Step cfg s t (s.goto t (.spin 10 (.relock w)))
  | condLeave {s t w r} : s.pc t = .condRet w r → Leaves w.mode r →
      Step cfg s t (s.goto t (.spin 10 (.relock w)))
  /-- otherwise the loop condition decides: src/lock_pool.cpp:663, 714, 754 -/
  | condLoop {s t w r} : s.pc t = .condRet w r → ¬ Leaves w.mode r →
      s.cond w.c % cfg.condMod = w.p % cfg.condMod → Step cfg s t (s.goto t (.condWait w))
  | condChanged {s t w r} : s.pc t = .condRet w r → ¬ Leaves w.mode r →
      s.cond w.c % cfg.condMod ≠ w.p % cfg.condMod → Step cfg s t (s.goto t (.spin 10 (.relock w)))
  | waitDec {s t w} : s.pc t = .waitDec w →
      Step cfg s t ({ s with wc := upd s.wc w.c (s.wc w.c - 1) }.goto t .hold)
  /- notify_one, notify_all, src/lock_pool.cpp:805–828 -/
  | ntBegin {s t} (all c) : s.pc t = .hold → Step cfg s t (s.goto t (.ntInc all c))
  | ntInc {s t all c} : s.pc t = .ntInc all c →
      Step cfg s t ({ s with cond := upd s.cond c (s.cond c + 1) }.goto t (.ntTest all c))
  | ntSkip {s t all c} : s.pc t = .ntTest all c → s.wc c = 0 → Step cfg s t (s.goto t .hold)
  | ntTest {s t all c} : s.pc t = .ntTest all c → 0 < s.wc c → Step cfg s t (s.goto t (.ntRequeue all c))
  /-- requeue everybody (at most INT_MAX threads, i.e. all) -/
  | ntAll {s t c} (mv : T → Prop) [DecidablePred mv] : s.pc t = .ntRequeue true c →
      (∀ u, mv u ↔ SleepsOn s c u) →
      Step cfg s t ({ s with pc := requeue mv s.pc }.goto t (.ntOr true c))
  /-- requeue one sleeper -/
  | ntOne {s t c u} : s.pc t = .ntRequeue false c → SleepsOn s c u →
      Step cfg s t ({ s with pc := requeue (· = u) s.pc }.goto t (.ntOr false c))
  /-- nobody sleeps: nothing to requeue -/
  | ntNone {s t c} : s.pc t = .ntRequeue false c → (∀ u, ¬ SleepsOn s c u) →
      Step cfg s t (s.goto t (.ntOr false c))
  | ntOr {s t all c} : s.pc t = .ntOr all c →
      Step cfg s t ({ s with m := s.m.contend }.goto t .hold)
  /- a sleeper wakes without having been woken by another thread: signal, timeout, spurious wake-up -/
  | wakeM {s t x} (r) : s.pc t = .asleepM x → Step cfg s t (s.goto t (x.woken r))
  | wakeC {s t w} (r) : s.pc t = .asleepC w → Step cfg s t (s.goto t (.condRet w r))

/-- An execution: states numbered by time; at every time one thread makes a step. -/
structure Exec (T C V : Type) [DecidableEq T] [DecidableEq C] (cfg : Cfg) (n : Nat) where
  st : Nat → State T C V
  val₀ : C → V
  start : st 0 = State.start T val₀
  step : ∀ i < n, ∃ t, Step cfg (st i) t (st (i + 1))

end Verif.Futex
