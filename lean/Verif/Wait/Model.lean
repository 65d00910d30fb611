import Verif.Wait.World

/-!
The waiting operations of all implementations.  A timed operation yields the value and the flag `timed_out`, which
the callers initialise with `false` (atomic_impl.hpp:295, 309 and so on).

Arithmetic on time points is on mathematical integers here; where the code's 64-bit arithmetic overflows is the
subject of C31.
-/

namespace Verif.Wait

open Verif.Chrono

variable {V : Type} [DecidableEq V]

/-- Conversion from ticks of a clock to units of the kernel interface: which `chrono::ceil` is used, and the ratio. -/
structure Conv where
  std : Bool
  num : Int
  den : Int
  num_pos : 0 < num
  den_pos : 0 < den

def Conv.ceil (u : Conv) (c : Int) : Int := Chrono.ceil u.std u.num u.den c

/-- Result of a timed wait: value and `timed_out`. -/
abbrev Timed (V : Type) := V × Bool

/-! ### Native waiting operations -/

/-- `wait` with native support: wait_ops_futex.hpp:115–125, wait_ops_windows.hpp:61–71,
wait_ops_darwin_ulock.hpp:82–96, wait_ops_freebsd_umtx.hpp:84–94, wait_ops_dragonfly_umtx.hpp:51–61. -/
def nativeWait (old : V) : Prog V V := do
  let v ← Prog.load
  Prog.loop (fun v =>
    if v = old then do
      let _ ← Prog.kwait .none
      let v ← Prog.load
      return .inl v
    else return .inr v) v

/-- Timed wait that measures time with `Clock::now()` and passes the remaining time to the kernel: `wait_until_fallback`
in wait_ops_futex.hpp:128–169 and wait_ops_freebsd_umtx.hpp:100–148, `wait_until_impl` in wait_ops_freebsd_umtx.hpp:278–319,
wait_ops_windows.hpp:74–109, wait_ops_darwin_ulock.hpp:99–140, wait_ops_dragonfly_umtx.hpp:64–97.  `u` converts to the
unit of the kernel interface, `lim` saturates. -/
def relUntil (c : Clk) (u : Conv) (lim : Int → Int) (old : V) (timeout now : Int) : Prog V (Timed V) := do
  let v ← Prog.load
  Prog.loop (fun (v, now) =>
    if v = old then do
      let n := u.ceil (timeout - now)
      if n ≤ 0 then return .inr (v, true)
      else do
        let _ ← Prog.kwait (.rel (lim n))
        let now ← Prog.now c
        let v ← Prog.load
        return .inl (v, now)
    else return .inr (v, false)) (v, now)

/-- Wait for a deadline on a POSIX clock, after the test that it is not negative: wait_ops_futex.hpp:187–212 and
306–326, wait_ops_freebsd_umtx.hpp:150–185.  `nosys` is what is done when the kernel reports ENOSYS
(`none`: FreeBSD does not test for it). -/
def absLoop (clockId : Nat) (ts : Timespec) (nosys : Option (Prog V (Timed V))) (old v : V) : Prog V (Timed V) :=
  Prog.loop (fun v =>
    if v = old then do
      let r ← Prog.kwait (.abs clockId ts)
      match r, nosys with
      | .timedOut, _ => do
        let v ← Prog.load
        return .inr (v, decide (v = old))
      | .noSys, some p => do
        let x ← p
        return .inr x
      | _, _ => do
        let v ← Prog.load
        return .inl v
    else return .inr (v, false)) v

/-- `wait_until_abs_timeout` of the futex implementation, wait_ops_futex.hpp:174–219. -/
def futexAbs (clockId : Nat) (ts : Timespec) (u : Conv) (lim : Int → Int) (old : V) (timeout : Int) :
    Prog V (Timed V) := do
  let v ← Prog.load
  if 0 ≤ ts.sec then
    absLoop clockId ts (some do
      let now ← Prog.now .user
      relUntil .user u lim old timeout now) old v
  else return (v, decide (v = old))

/-- `wait_until_abs_timeout` and its caller in the FreeBSD implementation, wait_ops_freebsd_umtx.hpp:150–185, 201–226. -/
def freebsdAbs (clockId : Nat) (ts : Timespec) (old : V) : Prog V (Timed V) := do
  let v ← Prog.load
  if 0 ≤ ts.sec then absLoop clockId ts none old v
  else return (v, decide (v = old))

/-- `wait_until` for a clock that is not known to the kernel: all native implementations
(wait_ops_futex.hpp:221–233, 265–276, wait_ops_windows.hpp:112–122 and so on). -/
def relWaitUntil (u : Conv) (lim : Int → Int) (old : V) (timeout : Int) : Prog V (Timed V) := do
  let now ← Prog.now .user
  relUntil .user u lim old timeout now

/-- `wait_for` by `steady_clock`: the end of wait_ops_futex.hpp:333–334, wait_ops_freebsd_umtx.hpp:271–272, 345–346, and
wait_ops_windows.hpp:135–136, wait_ops_darwin_ulock.hpp:166–167, wait_ops_dragonfly_umtx.hpp:123–124.  `timeout` is in
ticks of `steady_clock`. -/
def relWaitFor (u : Conv) (lim : Int → Int) (old : V) (timeout : Int) : Prog V (Timed V) := do
  let now ← Prog.now .steady
  relUntil .steady u lim old (now + timeout) now

/-- `wait_for` of the futex implementation, wait_ops_futex.hpp:281–335 (`nosys = true`), and of the FreeBSD
implementation, wait_ops_freebsd_umtx.hpp:243–273 (`nosys = false`).  The timeout is `c` ticks; `ut` converts it to
nanoseconds, `mult` ticks of `steady_clock` make one; `w` is the width of `tv_sec`; 1 is `CLOCK_MONOTONIC`. -/
def absWaitFor (nosys : Bool) (w : Nat) (ut : Conv) (mult : Int) (u : Conv) (lim : Int → Int) (old : V) (c : Int) :
    Prog V (Timed V) := do
  let fallback : Prog V (Timed V) := relWaitFor u lim old (c * mult)
  if 0 ≤ c then do
    let now ← Prog.gettime 1
    match now with
    | some now =>
      match absTimespec w now (ut.ceil c) with
      | some ts => do
        let v ← Prog.load
        absLoop 1 ts (if nosys then some fallback else none) old v
      | none => fallback
    | none => fallback
  else fallback

/-! ### Waiting in the lock pool -/

/-- Implementations of the lock pool (`null`: the wait state could not be allocated). -/
inductive Pool where
  /-- src/lock_pool.cpp:646–802; `native c`: the kernel supports absolute deadlines on clock `c` (684–693) -/
  | futex (native : Nat → Bool)
  /-- src/lock_pool.cpp:440–507; `native c`: `pthread_cond_clockwait`/`timedwait` supports clock `c` (448–466) -/
  | pthread (native : Nat → Bool)
  /-- src/lock_pool.cpp:893–909 -/
  | windows
  | null

/-- `wait_state::wait` and `lock_pool::wait`: src/lock_pool.cpp:646–668, 440–443, 893–896, 1187–1204. -/
def Pool.wait : Pool → Prog V Unit
  | .futex _ =>
    Prog.loop (fun (_ : Unit) => do
      let r ← Prog.kwait .none
      if r = .ok ∨ r = .intr then do
        let changed ← Prog.env
        if changed then return .inr () else return .inl ()
      else return .inr ()) ()
  | .pthread _ | .windows => do
    let _ ← Prog.kwait .none
    return ()
  | .null => Prog.pause

/-- `wait_state::wait_for` and `lock_pool::wait_for`: src/lock_pool.cpp:767–802, 488–507, 899–909, 1231–1250.  All
callers but the pthread `wait_until` ignore the result. -/
def Pool.waitFor (n : Int) : Pool → Prog V Bool
  | .futex _ => do
    let r ← Prog.kwait (.rel n)
    return decide (r = .timedOut)
  | .pthread _ | .windows => do
    let r ← Prog.kwait (.rel n)
    return decide (r = .timedOut)
  | .null => do
    let start ← Prog.now .steady
    Prog.pause
    let stop ← Prog.now .steady
    return decide (stop - start ≥ n)

/-- `wait_state::wait_until` and `lock_pool::wait_until`: src/lock_pool.cpp:671–764, 446–485, 1207–1228. -/
def Pool.waitUntil (c : Nat) (ts : Timespec) : Pool → Prog V Bool
  | .futex native =>
    if native c then
      Prog.loop (fun (_ : Unit) => do
        let r ← Prog.kwait (.abs c ts)
        if r = .ok ∨ r = .intr then do
          let changed ← Prog.env
          if changed then return .inr false else return .inl ()
        else return .inr (decide (r = .timedOut))) ()
    else do
      let now ← Prog.gettime c
      match now with
      | none => return false
      | some now =>
        Prog.loop (fun (now : Timespec) => do
          if remaining ts now ≤ 0 then return .inr true
          else do
            let _ ← Prog.kwait (.rel (remaining ts now))
            let now' ← Prog.gettime c
            -- BOOST_VERIFY: a failure leaves the old value in place (assertions disabled)
            let changed ← Prog.env
            if changed then return .inr false else return .inl (now'.getD now)) now
  | .pthread native =>
    if native c then do
      let r ← Prog.kwait (.abs c ts)
      return decide (r = .timedOut)
    else
      -- BOOST_VERIFY: a failure leaves the old value in place (assertions disabled)
      Prog.loop (fun (now : Timespec) => do
        let now' ← Prog.gettime c
        let now := now'.getD now
        if reached now ts then return .inr true
        else do
          let timedOut ← Pool.waitFor (remaining ts now) (.pthread native)
          if timedOut then return .inl now else return .inr false) ⟨0, 0⟩
  | .windows => return false
  | .null => do
    Prog.pause
    let now ← Prog.gettime c
    match now with
    | some now => return reached now ts
    | none => return false

/-! ### Emulated and generic waiting operations -/

/-- `wait` of wait_ops_emulated.hpp:57–70. -/
def emulatedWait (pool : Pool) (old : V) : Prog V V := do
  let v ← Prog.load
  Prog.loop (fun v =>
    if v = old then do
      pool.wait
      let v ← Prog.load
      return .inl v
    else return .inr v) v

/-- `wait` of wait_ops_generic.hpp:63–78. -/
def genericWait (pool : Pool) (old : V) : Prog V V := do
  let v ← Prog.load
  if v = old then emulatedWait pool old else return v

/-- The loop of `wait_until_fallback` in wait_ops_emulated.hpp:86–99 and wait_ops_generic.hpp:96–109. -/
def poolRelLoop (pool : Pool) (c : Clk) (u : Conv) (old : V) (timeout : Int) (v : V) (now : Int) : Prog V (Timed V) :=
  Prog.loop (fun (v, now) =>
    if v = old then do
      let n := u.ceil (timeout - now)
      if n ≤ 0 then return .inr (v, true)
      else do
        let _ ← pool.waitFor n
        let now ← Prog.now c
        let v ← Prog.load
        return .inl (v, now)
    else return .inr (v, false)) (v, now)

/-- `wait_until_fallback`, wait_ops_emulated.hpp:73–102 and wait_ops_generic.hpp:81–113 (the test before the lock in the
latter is the first test of the loop). -/
def poolRelUntil (pool : Pool) (c : Clk) (u : Conv) (old : V) (timeout now : Int) : Prog V (Timed V) := do
  let v ← Prog.load
  poolRelLoop pool c u old timeout v now

/-- The loop of `wait_until_abs_timeout`, wait_ops_emulated.hpp:118–134 and wait_ops_generic.hpp:132–147. -/
def poolAbsLoop (pool : Pool) (c : Nat) (ts : Timespec) (old v : V) : Prog V (Timed V) :=
  if 0 ≤ ts.sec then
    Prog.loop (fun v =>
      if v = old then do
        let timedOut ← pool.waitUntil c ts
        let v ← Prog.load
        if timedOut then return .inr (v, decide (v = old))
        else return .inl v
      else return .inr (v, false)) v
  else return (v, decide (v = old))

/-- `wait_until_abs_timeout`, wait_ops_emulated.hpp:106–137 and wait_ops_generic.hpp:117–151. -/
def poolAbsUntil (pool : Pool) (c : Nat) (ts : Timespec) (old : V) : Prog V (Timed V) := do
  let v ← Prog.load
  poolAbsLoop pool c ts old v

/-- `wait_until` for clocks without `posix_clock_traits`: wait_ops_emulated.hpp:153–163, 185–195,
wait_ops_generic.hpp:167–178. -/
def poolWaitUntil (pool : Pool) (u : Conv) (old : V) (timeout : Int) : Prog V (Timed V) := do
  let now ← Prog.now .user
  poolRelUntil pool .user u old timeout now

/-- `wait_for`: wait_ops_emulated.hpp:199–212, wait_ops_generic.hpp:214–226. -/
def poolWaitFor (pool : Pool) (u : Conv) (old : V) (timeout : Int) : Prog V (Timed V) := do
  let now ← Prog.now .steady
  poolRelUntil pool .steady u old (now + timeout) now

/-! ### Interprocess objects without native support -/

/-- Body of both polling loops. -/
def pollStep (old : V) : Prog V (Unit ⊕ V) := do
  Prog.pause
  let v ← Prog.load
  if v ≠ old then return .inr v else return .inl ()

/-- The spin phase with `n` iterations left, then the sleeping phase: wait_ops_generic.hpp:264–277. -/
def pollFrom (old : V) : Nat → Prog V V
  | 0 => Prog.loop (fun (_ : Unit) => pollStep old) ()
  | n + 1 => do
    let r ← pollStep old
    match r with
    | .inr v => return v
    | .inl _ => pollFrom old n

/-- `wait`, wait_ops_generic.hpp:259–282 (`spins` is `fast_loop_count`, 16). -/
def ipcWait (spins : Nat) (old : V) : Prog V V := do
  let v ← Prog.load
  if v = old then pollFrom old spins else return v

/-- Body of both polling loops of the timed wait, wait_ops_generic.hpp:300–313, 316–326: the state is the time last
read.  Simplified: `new_val`, which equals `old_val` whenever the body is entered, is not part of the state. -/
def pollTimedStep (c : Clk) (old : V) (timeout : Int) (now : Int) : Prog V (Int ⊕ Timed V) := do
  if now - timeout ≥ 0 then return .inr (old, true)
  else do
    Prog.pause
    let now ← Prog.now c
    let v ← Prog.load
    if v ≠ old then return .inr (v, false) else return .inl now

def pollTimedFrom (c : Clk) (old : V) (timeout : Int) : Nat → Int → Prog V (Timed V)
  | 0, now => Prog.loop (pollTimedStep c old timeout) now
  | n + 1, now => do
    let r ← pollTimedStep c old timeout now
    match r with
    | .inr x => return x
    | .inl now => pollTimedFrom c old timeout n now

/-- `wait_until_impl`, wait_ops_generic.hpp:285–332. -/
def ipcUntil (spins : Nat) (c : Clk) (old : V) (timeout now : Int) : Prog V (Timed V) := do
  let v ← Prog.load
  if v = old then pollTimedFrom c old timeout spins now else return (v, false)

/-- `wait_until`, wait_ops_generic.hpp:335–346. -/
def ipcWaitUntil (spins : Nat) (old : V) (timeout : Int) : Prog V (Timed V) := do
  let now ← Prog.now .user
  ipcUntil spins .user old timeout now

/-- `wait_for`, wait_ops_generic.hpp:348–360. -/
def ipcWaitFor (spins : Nat) (old : V) (timeout : Int) : Prog V (Timed V) := do
  let now ← Prog.now .steady
  ipcUntil spins .steady old (now + timeout) now

end Verif.Wait
