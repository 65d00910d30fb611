import Verif.Weak.Spec

/-
The lock of the lock pool (src/lock_pool.cpp, futex version) with the memory orders written in the code,
run on the weak memory machine of `Verif.Weak.Spec`.

Threads take and release any of the locks any number of times.  While it holds lock `l` a thread may access
ordinary variables protected by `l`; it may access atomic variables (with any order) and execute fences at
any time.  Blocking and waking (futex calls) have no effect on memory here: a futex wait may return at any
time, so the theorems do not depend on who is woken when.  `wait_state::wait…` (lines 646–802) is an unlock
followed by a lock, with actions on `m_cond` in between, and therefore covered by the arbitrary sequences of
lock and unlock considered here; so are `scoped_lock` and `scoped_wait_state` (lock_pool.hpp:94–162).
-/

namespace Verif.Weak

open Verif.Order (MO)

/-- Memory locations: the mutex words of the pool and the variables of the program. -/
inductive Loc (L A : Type) where
  | mutex (l : L)
  | obj (a : A)
deriving DecidableEq

/-- Values: mutex words (32 bits, src/lock_pool.cpp:509–513) and values of variables. -/
inductive Val (V : Type) where
  | word (w : BitVec 32)
  | val (v : V)
deriving DecidableEq

/-- `mutex_bits::locked`, src/lock_pool.cpp:520 -/
def locked : BitVec 32 := 1
/-- `mutex_bits::contended`, src/lock_pool.cpp:522 -/
def contended : BitVec 32 := 1 <<< 1
/-- `mutex_bits::counter_one`, src/lock_pool.cpp:524 -/
def counterOne : BitVec 32 := 1 <<< 2

/-- Order of the CAS that takes the lock, src/lock_pool.cpp:580 and 599 -/
def lockOrder : MO := .acquire
/-- Order of the CAS that sets the contended bit, src/lock_pool.cpp:605 -/
def contendOrder : MO := .relaxed
/-- Order of the CAS that releases the lock, src/lock_pool.cpp:622 -/
def unlockOrder : MO := .release
/-- Order of the CAS that clears the contended bit, src/lock_pool.cpp:633 -/
def clearOrder : MO := .relaxed
/-- Order of `opaque_or` in `notify_one` and `notify_all`, src/lock_pool.cpp:813, 826 -/
def orOrder : MO := .relaxed
/-- Order of the loads and of failed CASes, src/lock_pool.cpp:576, 580, 593, 599, 605, 608, 617, 622, 633 -/
def loadOrder : MO := .relaxed

/-- Where a thread is. -/
inductive Pc (L : Type) where
  /-- owns no lock, runs the caller's code -/
  | out
  /-- `long_lock`, `i` iterations left: src/lock_pool.cpp:574–576 -/
  | spin (l : L) (i : Nat)
  /-- before the `compare_exchange_strong`: src/lock_pool.cpp:577–582 -/
  | spinCas (l : L) (i : Nat) (w : BitVec 32)
  /-- `lock_slow_path`, before a load: src/lock_pool.cpp:593, 608 -/
  | slowLoad (l : L)
  /-- `lock_slow_path`, top of the loop: src/lock_pool.cpp:594–605 -/
  | slow (l : L) (w : BitVec 32)
  /-- in `futex_wait`: src/lock_pool.cpp:607 -/
  | slowWait (l : L)
  /-- owns the lock, runs the caller's code -/
  | hold (l : L)
  /-- `unlock`, before the load: src/lock_pool.cpp:617 -/
  | ulLoad (l : L)
  /-- before the `compare_exchange_weak`: src/lock_pool.cpp:619–624 -/
  | ulCas (l : L) (w : BitVec 32)
  /-- before `futex_signal`: src/lock_pool.cpp:626–628 -/
  | ulWake (l : L) (w : BitVec 32)
  /-- before the `compare_exchange_strong`: src/lock_pool.cpp:629–633 -/
  | ulClear (l : L) (w : BitVec 32)
deriving DecidableEq

variable {L A V : Type}

/-- What a thread may do next.  `guard a` is the lock that protects the ordinary variable `a`; `none` for
atomic variables. -/
inductive Prog (guard : A → Option L) : Pc L → Act (Loc L A) (Val V) → Pc L → Prop where
  /- the caller's code -/
  | outTau : Prog guard .out .tau .out
  | outFence {o} : Prog guard .out (.fence o) .out
  | outRead {a o v} : guard a = none → Prog guard .out (.read (.obj a) o v) .out
  | outWrite {a o v} : guard a = none → Prog guard .out (.write (.obj a) o v) .out
  | outRmw {a o v v'} : guard a = none → Prog guard .out (.rmw (.obj a) o v v') .out
  | holdTau {l} : Prog guard (.hold l) .tau (.hold l)
  | holdFence {l o} : Prog guard (.hold l) (.fence o) (.hold l)
  | holdRead {l a o v} : guard a = none → Prog guard (.hold l) (.read (.obj a) o v) (.hold l)
  | holdWrite {l a o v} : guard a = none → Prog guard (.hold l) (.write (.obj a) o v) (.hold l)
  | holdRmw {l a o v v'} : guard a = none → Prog guard (.hold l) (.rmw (.obj a) o v v') (.hold l)
  | naRead {l a v} : guard a = some l → Prog guard (.hold l) (.naRead (.obj a) v) (.hold l)
  | naWrite {l a v} : guard a = some l → Prog guard (.hold l) (.naWrite (.obj a) v) (.hold l)
  /-- `opaque_or` of the contended bit by a notification, src/lock_pool.cpp:813, 826 -/
  | ntOr {l w} : Prog guard (.hold l) (.rmw (.mutex l) orOrder (.word w) (.word (w ||| contended))) (.hold l)
  /- long_lock, src/lock_pool.cpp:572–588 -/
  | enter {l} : Prog guard .out .tau (.spin l 10)
  | spinFree {l i w} : w &&& locked = 0 →
      Prog guard (.spin l (i + 1)) (.read (.mutex l) loadOrder (.word w)) (.spinCas l i w)
  | spinBusy {l i w} : w &&& locked ≠ 0 →
      Prog guard (.spin l (i + 1)) (.read (.mutex l) loadOrder (.word w)) (.spin l i)
  | spinOk {l i w} :
      Prog guard (.spinCas l i w) (.rmw (.mutex l) lockOrder (.word w) (.word (w ||| locked))) (.hold l)
  | spinFail {l i w w'} : w' ≠ w →
      Prog guard (.spinCas l i w) (.read (.mutex l) loadOrder (.word w')) (.spin l i)
  | spinEnd {l} : Prog guard (.spin l 0) .tau (.slowLoad l)
  /- lock_slow_path, src/lock_pool.cpp:591–612 -/
  | slowLoad {l w} : Prog guard (.slowLoad l) (.read (.mutex l) loadOrder (.word w)) (.slow l w)
  | slowLock {l w} : w &&& locked = 0 →
      Prog guard (.slow l w) (.rmw (.mutex l) lockOrder (.word w) (.word (w ||| locked))) (.hold l)
  | slowContend {l w} : w &&& locked ≠ 0 →
      Prog guard (.slow l w) (.rmw (.mutex l) contendOrder (.word w) (.word (w ||| contended))) (.slowWait l)
  /-- either weak CAS may fail, also spuriously -/
  | slowFail {l w w'} : Prog guard (.slow l w) (.read (.mutex l) loadOrder (.word w')) (.slow l w')
  | slowWake {l} : Prog guard (.slowWait l) .tau (.slowLoad l)
  /- unlock, src/lock_pool.cpp:615–636 -/
  | release {l} : Prog guard (.hold l) .tau (.ulLoad l)
  | ulLoad {l w} : Prog guard (.ulLoad l) (.read (.mutex l) loadOrder (.word w)) (.ulCas l w)
  | ulFail {l w w'} : Prog guard (.ulCas l w) (.read (.mutex l) loadOrder (.word w')) (.ulCas l w')
  | ulOk {l w} : w &&& contended = 0 →
      Prog guard (.ulCas l w) (.rmw (.mutex l) unlockOrder (.word w) (.word ((w &&& ~~~locked) + counterOne))) .out
  | ulOkContended {l w} : w &&& contended ≠ 0 →
      Prog guard (.ulCas l w) (.rmw (.mutex l) unlockOrder (.word w) (.word ((w &&& ~~~locked) + counterOne)))
        (.ulWake l ((w &&& ~~~locked) + counterOne))
  | ulWoke {l w} : Prog guard (.ulWake l w) .tau .out
  | ulNobody {l w} : Prog guard (.ulWake l w) .tau (.ulClear l w)
  | ulClear {l w} :
      Prog guard (.ulClear l w) (.rmw (.mutex l) clearOrder (.word w) (.word (w &&& ~~~contended))) .out
  | ulClearFail {l w w'} : w' ≠ w → Prog guard (.ulClear l w) (.read (.mutex l) loadOrder (.word w')) .out

/-- Initial memory: mutex words are 0 (src/lock_pool.cpp:640, 946–958). -/
def init (v₀ : A → V) : Loc L A → Val V
  | .mutex _ => .word 0
  | .obj a => .val (v₀ a)

/-- States of any number of threads using the pool. -/
def Reachable {T : Type} [DecidableEq T] [DecidableEq L] [DecidableEq A] (guard : A → Option L) (v₀ : A → V) :
    Sys T (Loc L A) (Val V) (Pc L) → Prop := Reach (Prog guard) (init v₀) .out

/-- The thread owns lock `l`: it returned from `lock` and its `unlock` has not yet changed the word. -/
def Pc.Owns (l : L) : Pc L → Prop
  | .hold l' | .ulLoad l' | .ulCas l' _ => l' = l
  | _ => False

end Verif.Weak
