import Verif.Call.Lemmas
import Verif.Wait.Props

/-!
C73: the requests that the kernel receives are those that the operations call for.
-/

namespace Verif.Call

open Verif.Chrono Verif.Wait

/-- C73, waiting and notification of an object with native waiting, without a time limit: the kernel is asked to block
the thread if the object, at its own address, holds the old value, to wake one thread blocked there, and to wake all (up
to 2^31 − 1).  All three requests are for the same set of processes, so that a notification finds the waiting thread, and for an object
for several processes that set is not only the calling process. -/
theorem C73_wait_notify (t : Target) {sys : Sys} (hs : t.sys = some sys) (ipc : Bool) (addr old : Nat)
    (hold : old < 2 ^ 32) :
    ∃ shared, (ipc = true → shared = true) ∧ (ipc = false → t.priv = true → shared = false) ∧
      kernel t sys (t.futexWait addr old (t.flagFor ipc)) = some (.wait shared addr old .forever) ∧
      kernel t sys (t.futexSignal addr (t.flagFor ipc) 1) = some (.wake shared addr 1) ∧
      kernel t sys (t.futexBroadcast addr (t.flagFor ipc)) = some (.wake shared addr (2 ^ 31 - 1)) := by
  obtain ⟨os, android, long64, time64, big, sf, s64, nr, bs, pr, rt, mo⟩ := t
  have hmod : ((old : Int) % 4294967296).toNat = old := by omega
  have hmod' : (toInt32 old % 4294967296).toNat = old := by unfold toInt32; split <;> omega
  cases ipc <;> cases pr <;> cases android <;> cases os <;> cases sf <;> cases s64 <;> cases nr <;>
    simp [Target.sys] at hs <;> subst hs <;>
    simp [kernel, Target.futexWait, Target.futexBroadcast, Target.futexSignal, Target.invokeTime, Target.opWait,
      Target.opWake, Target.flagFor, Target.privateFlag, readLimit, readCount, hmod, hmod'] <;>
    decide

/-- C73, a relative time limit, on targets where the kernel reads the structure that the library writes (`hmatch`: not the
32-bit system call `futex` with a 64-bit `time_t`; see `C73_violated`).  `d` is the remaining time as
`wait_until_fallback` computes it (`C73_remaining_time`). -/
theorem C73_wait_for_partial (t : Target) {sys : Sys} (hs : t.sys = some sys) (hlong : t.long64 = true → t.time64 = true)
    (hmatch : sys = .futex → t.long64 = false → t.time64 = false) (ipc : Bool) (pad addr old : Nat) (hold : old < 2 ^ 32)
    (d : Timespec) (hv : ValidTime d) (hw : d.sec < 2 ^ (t.secWidth - 1)) :
    ∃ shared, (ipc = true → shared = true) ∧
      kernel t sys (t.futexSignal addr (t.flagFor ipc) 1) = some (.wake shared addr 1) ∧
      kernel t sys (t.futexWaitFor addr old (t.futexTimespec pad d) (t.flagFor ipc)) =
        some (.wait shared addr old (.relative d)) := by
  have hl := readLimit_futexTimespec t hs hlong hmatch (pad := pad) .relative hv hw
  generalize t.futexTimespec pad d = ws at hl
  obtain ⟨os, android, long64, time64, big, sf, s64, nr, bs, pr, rt, mo⟩ := t
  have hmod : ((old : Int) % 4294967296).toNat = old := by omega
  have hmod' : (toInt32 old % 4294967296).toNat = old := by unfold toInt32; split <;> omega
  clear hmatch hlong hw
  cases ipc <;> cases pr <;> cases android <;> cases os <;> cases sf <;> cases s64 <;> cases nr <;>
    simp [Target.sys] at hs <;> subst hs <;>
    simp [kernel, Target.futexWaitFor, Target.futexSignal, Target.invokeTime, Target.opWait, Target.opWake,
      Target.flagFor, Target.privateFlag, readCount, hmod, hmod', hl] <;> decide

/-- C73, a deadline, on the same targets.  If the user's clock has the POSIX clock id `c` and the library passes the
deadline to the kernel at all, then the kernel waits for this deadline on this clock. -/
theorem C73_wait_until_partial (t : Target) {sys : Sys} (hs : t.sys = some sys)
    (hlong : t.long64 = true → t.time64 = true) (hmatch : sys = .futex → t.long64 = false → t.time64 = false)
    (hopen : t.os = .openbsd → t.bitset = false ∧ t.android = false) (ipc : Bool) (clock : Option Nat)
    (pad addr old : Nat) (hold : old < 2 ^ 32) (d : Timespec) (hv : ValidTime d) (hw : d.sec < 2 ^ (t.secWidth - 1))
    {a : Args} (ha : t.untilCall ipc clock pad addr old d = some a) :
    ∃ shared c, (ipc = true → shared = true) ∧ clock = some c ∧
      kernel t sys (t.futexSignal addr (t.flagFor ipc) 1) = some (.wake shared addr 1) ∧
      kernel t sys a = some (.wait shared addr old (.absolute c d)) := by
  have hl := fun c => readLimit_futexTimespec t hs hlong hmatch (pad := pad) (.absolute c) hv hw
  have hmod : ((old : Int) % 4294967296).toNat = old := by omega
  simp only [Target.untilCall] at ha
  split at ha
  · rename_i op f hsel
    obtain ⟨rfl, hb, hcf⟩ := selectWait_cases t clock hsel
    injection ha with ha
    have hp := flagFor_cases t ipc
    rcases sys_cases t hs with ⟨ho, rfl⟩ | ⟨ho, rfl⟩ | ⟨ho, rfl | rfl⟩
    · have := hopen ho; simp_all
    all_goals
      rcases hcf with ⟨rfl, rfl⟩ | ⟨rfl, rfl⟩ <;> rcases hp with hp | ⟨hp, rfl⟩ <;> subst ha <;>
        simp [kernel, Target.futexWaitUntil, Target.futexSignal, Target.invokeTime, Target.opWake, readCount, hp, ho,
          hmod, hl]
  · cases ha

/-- C73: the deadline is passed to the kernel if the clock is the real-time or the monotonic one and the headers have what is
needed; for every other clock the remaining time is computed by the library. -/
theorem C73_which_clocks (t : Target) (hb : t.bitset = true) (hr : t.realtime = true) (hm : t.monotonic = true)
    (ipc : Bool) (clock : Option Nat) (pad addr old : Nat) (d : Timespec) :
    (t.untilCall ipc clock pad addr old d).isSome = true ↔ clock = some 0 ∨ clock = some 1 := by
  simp only [Target.untilCall, Target.selectWait, Target.opBitset, Target.realtimeFlag, hb, hr, hm]
  match clock with
  | none => simp
  | some 0 => simp
  | some 1 => simp
  | some (n + 2) => simp

/-- C73: the lock pool moves waiting threads from the condition to the mutex: none is woken, and one (`notify_one`) or
any number up to 2^31 − 1 (`notify_all`) is moved; src/lock_pool.cpp:812, 825. -/
theorem C73_requeue (t : Target) {sys : Sys} (hs : t.sys = some sys) (cond mutex : Nat) :
    ∃ shared,
      kernel t sys (t.futexRequeue cond mutex t.privateFlag 0 1) = some (.requeue shared cond mutex 0 1) ∧
      kernel t sys (t.futexRequeue cond mutex t.privateFlag 0 (4294967295 / 2)) =
        some (.requeue shared cond mutex 0 (2 ^ 31 - 1)) ∧
      kernel t sys (t.futexSignal mutex t.privateFlag 1) = some (.wake shared mutex 1) ∧
      kernel t sys (t.futexWait cond 7 t.privateFlag) = some (.wait shared cond 7 .forever) := by
  obtain ⟨os, android, long64, time64, big, sf, s64, nr, bs, pr, rt, mo⟩ := t
  cases pr <;> cases android <;> cases os <;> cases sf <;> cases s64 <;> cases nr <;>
    simp [Target.sys] at hs <;> subst hs <;>
    simp [kernel, Target.futexWait, Target.futexRequeue, Target.futexSignal, Target.invokeTime, Target.invokeNum,
      Target.opWait, Target.opRequeue, Target.opWake, Target.privateFlag, readLimit, readCount, toInt32] <;>
    decide

/-- C73, results: what the kernel reported for a wait is what the caller acts on, with both ways of reporting,
provided that code for systems with the direct one has the correction compiled in. -/
theorem C73_result (direct old : Bool) (h : direct = true → old = true) (errno : Nat) (o : Outcome)
    (ho : ∀ e, o = .err e → 0 < e) : (fixResult old (libc direct errno o)).outcome = o := by
  cases o with
  | ok => cases old <;> simp [fixResult, libc, Ret.outcome]
  | err e =>
    have := ho e rfl
    cases direct <;> cases old <;> simp_all [fixResult, libc, Ret.outcome]

/-- C73, FreeBSD: the three kinds of waits, with `UMTX_ABSTIME`, and relative ones without it. -/
theorem C73_freebsd (long64 shared : Bool) (obj old clock : Nat) (d : Timespec) (hv : ValidTime d) :
    umtxKernel long64 shared (umtxWait obj old) = some (.wait shared obj old .forever) ∧
    umtxKernel long64 shared (umtxWaitFor long64 obj old d) = some (.wait shared obj old (.relative d)) ∧
    umtxKernel long64 shared (umtxWaitUntil long64 clock obj old d) = some (.wait shared obj old (.absolute clock d)) ∧
    umtxKernel long64 shared (umtxWaitForOld obj old d) = some (.wait shared obj old (.relative d)) := by
  cases long64 <;>
    simp [umtxKernel, umtxWait, umtxWaitFor, umtxWaitUntil, umtxWaitForOld, sizeofUmtxTime, sizeofTimespec, hv]

/-- The hypotheses on `d` above hold for what the library computes: the remaining time of `n` nanoseconds, and the
deadline `n` nanoseconds after `now`, both for the width of `tv_sec` on the target. -/
theorem C73_remaining_time (t : Target) (n : Int) (hn : 0 < n) (now : Timespec) (hnow : now.Normal)
    (h0 : 0 ≤ now.sec) (hs : now.sec < 2 ^ (t.secWidth - 1)) :
    (ValidTime (relTimespec t.secWidth n) ∧ (relTimespec t.secWidth n).sec < 2 ^ (t.secWidth - 1)) ∧
    ∀ d, absTimespec t.secWidth now n = some d → ValidTime d ∧ d.sec < 2 ^ (t.secWidth - 1) ∧ d.ns = now.ns + n := by
  have hw : 0 < t.secWidth := by unfold Target.secWidth; split <;> decide
  have hfit : Fits t.secWidth now.sec := by
    have : (0 : Int) < 2 ^ (t.secWidth - 1) := Int.pow_pos (by decide)
    unfold Fits; omega
  obtain ⟨⟨a1, a2⟩, a3, a4, -⟩ := C30_rel_timespec t.secWidth hw n (by omega)
  refine ⟨⟨⟨a3, a1, a2⟩, ?_⟩, fun d hd => ?_⟩
  · unfold Fits at a4; omega
  · obtain ⟨⟨b1, b2⟩, b3, b4⟩ := (C30_abs_timespec t.secWidth hw now n (by omega) hnow hfit).1 d hd
    have b5 := hnow.1
    refine ⟨⟨?_, b1, b2⟩, ?_, b4⟩
    · simp only [Timespec.ns] at b4; omega
    · unfold Fits at b3; omega

/-! The targets in use: Linux on x86-64, on i386 with 32-bit time, on RISC-V 32, on Android, NetBSD and OpenBSD. -/

def linux64 : Target := { os := .linux, long64 := true, time64 := true }
def linux32 : Target := { os := .linux, long64 := false, time64 := false, sysFutexTime64 := true }
def riscv32 : Target :=
  { os := .linux, long64 := false, time64 := true, sysFutex := false, sysFutexTime64 := true, nrFutex := false }
def android : Target :=
  { os := .linux, android := true, long64 := true, time64 := true, sysFutex := false, bitset := false, priv := false,
    realtime := false }
def netbsd32 : Target := { os := .netbsd, long64 := false, time64 := true, big := true }
def openbsd : Target := { os := .openbsd, long64 := true, time64 := true, bitset := false, realtime := false }

example : [linux64, linux32, riscv32, android, netbsd32, openbsd].map Target.sys =
    [some .futex, some .futex, some .futexTime64, some .futex, some .netbsd, some .openbsd] := by decide

/-- All of them meet the hypotheses of the theorems above. -/
example : ∀ t ∈ [linux64, linux32, riscv32, android, netbsd32, openbsd],
    (t.long64 = true → t.time64 = true) ∧ (t.sys = some .futex → t.long64 = false → t.time64 = false) ∧
    (t.os = .openbsd → t.bitset = false ∧ t.android = false) := by decide

/-- A wait until 1700000000.25 s on the real-time clock, for an object for several processes and for an ordinary one. -/
example : ((riscv32.untilCall true (some 0) 77 4096 5 ⟨1700000000, 250000000⟩).bind (kernel riscv32 .futexTime64)) =
    some (.wait true 4096 5 (.absolute 0 ⟨1700000000, 250000000⟩)) := by decide
example : ((android.untilCall false (some 1) 77 4096 5 ⟨1700000000, 250000000⟩).bind (kernel android .futex)) =
    some (.wait false 4096 5 (.absolute 1 ⟨1700000000, 250000000⟩)) := by decide
example : openbsd.untilCall false (some 0) 0 4096 5 ⟨1700000000, 250000000⟩ = none := by decide
example : kernel netbsd32 .netbsd (netbsd32.futexRequeue 64 68 128 0 1) = some (.requeue false 64 68 0 1) := by decide
/-- A count of 2^32 − 1 would be refused. -/
example : kernel linux64 .futex (linux64.futexRequeue 64 68 128 0 4294967295) = none := by decide
example : (fixResult true (libc true 0 (.err 35))).outcome = .err 35 ∧ (fixResult false (libc true 0 (.err 35))).outcome = .ok := by
  decide

/-! ### 32-bit Linux with 64-bit time -/

/-- 32-bit Linux as musl 1.2 and glibc with `_TIME_BITS=64` have it: `SYS_futex` is defined, `time_t` has 64 bits. -/
def time64On32 (big : Bool) : Target :=
  { os := .linux, long64 := false, time64 := true, big, sysFutex := true, sysFutexTime64 := true }

/-- Finding F60: on such a target the kernel reads two 32-bit integers where the library has written a 64-bit number of seconds:
the nanoseconds of every deadline are lost on little-endian machines. -/
theorem C73_violated (ipc : Bool) (clock pad addr old : Nat) (hc : clock ≤ 1) (hold : old < 2 ^ 32)
    (d : Timespec) (hv : ValidTime d) (hw : d.sec < 2 ^ 31) :
    ∃ a shared, (time64On32 false).untilCall ipc (some clock) pad addr old d = some a ∧
      kernel (time64On32 false) .futex a = some (.wait shared addr old (.absolute clock ⟨d.sec, 0⟩)) := by
  obtain ⟨sec, nsec⟩ := d
  obtain ⟨h0, h1, h2⟩ := hv
  simp only at h0 h1 h2 hw
  have hmod : ((old : Int) % 4294967296).toNat = old := by omega
  have e1 : signed32 ((sec % 18446744073709551616).toNat % 4294967296) = sec := by
    unfold signed32; split <;> omega
  have e2 : signed32 ((sec % 18446744073709551616).toNat / 4294967296) = 0 := by
    unfold signed32; split <;> omega
  have hv' : ValidTime ⟨sec, 0⟩ := ⟨h0, Int.le_refl 0, by simp⟩
  have : clock = 0 ∨ clock = 1 := by omega
  rcases this with rfl | rfl <;> cases ipc <;>
    simp [time64On32, Target.untilCall, Target.selectWait, Target.opBitset, Target.realtimeFlag, Target.futexWaitUntil,
      Target.invokeTime, Target.futexTimespec, Target.futexTime64, Target.timespec, words64, kernel, Target.flagFor,
      Target.privateFlag, readLimit, readTime, hmod, e1, e2, hv']

/-- On big-endian machines such a deadline is an error from the year 2001 on (the kernel takes the seconds for the nanoseconds,
which must be less than 10^9): the thread does not block but repeats the call. -/
theorem C73_violated_big_endian (ipc : Bool) (clock pad addr old : Nat) (hc : clock ≤ 1)
    (d : Timespec) (hw0 : 1000000000 ≤ d.sec) (hw : d.sec < 2 ^ 31) :
    ∃ a, (time64On32 true).untilCall ipc (some clock) pad addr old d = some a ∧
      kernel (time64On32 true) .futex a = none := by
  obtain ⟨sec, nsec⟩ := d
  simp only at hw0 hw
  have e1 : signed32 ((sec % 18446744073709551616).toNat % 4294967296) = sec := by
    unfold signed32; split <;> omega
  have hv' : ∀ s, ¬ ValidTime ⟨s, sec⟩ := by
    intro s h; have := h.2.2; simp only at this; omega
  have : clock = 0 ∨ clock = 1 := by omega
  rcases this with rfl | rfl <;> cases ipc <;>
    simp [time64On32, Target.untilCall, Target.selectWait, Target.opBitset, Target.realtimeFlag, Target.futexWaitUntil,
      Target.invokeTime, Target.futexTimespec, Target.futexTime64, Target.timespec, words64, kernel, Target.flagFor,
      Target.privateFlag, readLimit, readTime, e1, hv']

/-! ### What it means for timed waits -/

/-- C26 with the system call between the library and the kernel: where the structures match, `wait_until` on a POSIX clock
reports timeout only after the deadline, `d'` being the deadline that the kernel has received. -/
theorem C26_wait_until_call {V : Type} [DecidableEq V] {W : World V} {old : V} {i j : Nat} {tr : List (Ev V)}
    (t : Target) {sys : Sys} (hs : t.sys = some sys) (hlong : t.long64 = true → t.time64 = true)
    (hmatch : sys = .futex → t.long64 = false → t.time64 = false)
    (hopen : t.os = .openbsd → t.bitset = false ∧ t.android = false) (ipc shared : Bool) (clock clock' pad addr bits bits' : Nat)
    (hbits : bits < 2 ^ 32) (d d' : Timespec) (hv : ValidTime d) (hw : d.sec < 2 ^ (t.secWidth - 1)) {a : Args}
    (ha : t.untilCall ipc (some clock) pad addr bits d = some a)
    (hk : kernel t sys a = some (.wait shared addr bits' (.absolute clock' d')))
    (u : Conv) (lim : Int → Int) (timeout : Int)
    (hclk : ∀ t, timeout ≤ W.clk .user t ↔ d.ns ≤ (W.posix clock t).ns) {v : V} {timedOut : Bool}
    (h : Runs W (futexAbs clock' d' u lim old timeout) i j tr (v, timedOut)) :
    TimedOk W old (fun t => timeout ≤ W.clk .user t) i j v timedOut := by
  obtain ⟨shared', c, -, hc, -, h1⟩ := C73_wait_until_partial t hs hlong hmatch hopen ipc (some clock) pad addr bits hbits
    d hv hw ha
  rw [h1] at hk
  injection hk with hk; injection hk with _ _ _ hk; injection hk with hk1 hk2
  injection hc with hc
  subst hk1 hk2 hc
  exact C26_wait_until_futex (V := V) (clockId := _) (ts := _) (u := u) (lim := lim) (timeout := timeout)
    (hts := ⟨hv.2.1, hv.2.2⟩) (hclk := hclk) (h := h)

/-- A world whose clocks show 100.5 s all the time, and whose object holds 0. -/
def halfWorld : World Nat where
  val _ := 0
  clk _ _ := 100500000000
  posix _ _ := ⟨100, 500000000⟩
  posix_ok _ _ := ⟨⟨by decide, by decide⟩, by decide⟩

/-- Finding F60, C26: on 32-bit Linux with 64-bit `time_t` a wait until 100.9 s reports timeout at 100.5 s. -/
theorem C26_call_violated :
    ∃ a d' shared, (time64On32 false).untilCall false (some 0) 0 0 0 ⟨100, 900000000⟩ = some a ∧
      kernel (time64On32 false) .futex a = some (.wait shared 0 0 (.absolute 0 d')) ∧
      (∀ t, (100900000000 : Int) ≤ halfWorld.clk .user t ↔
        (⟨100, 900000000⟩ : Timespec).ns ≤ (halfWorld.posix 0 t).ns) ∧
      ∃ j tr, Runs halfWorld (futexAbs 0 d' ⟨true, 1, 1, by decide, by decide⟩ id 0 100900000000) 0 j tr (0, true) ∧
        ¬ TimedOk halfWorld 0 (fun t => (100900000000 : Int) ≤ halfWorld.clk .user t) 0 j 0 true := by
  obtain ⟨a, shared, h1, h2⟩ := C73_violated false 0 0 0 0 (by decide) (by decide) ⟨100, 900000000⟩ (by decide) (by decide)
  refine ⟨a, ⟨100, 0⟩, shared, h1, h2, fun t => by simp [halfWorld, Timespec.ns], 0,
    [.load 0 0, .block (.abs 0 ⟨100, 0⟩) 0, .load 0 0], ?_, ?_⟩
  · refine ⟨0, 0, [.load 0 0], [.block (.abs 0 ⟨100, 0⟩) 0, .load 0 0], ⟨Nat.le_refl _, rfl, rfl⟩, ?_, rfl⟩
    dsimp only
    rw [if_pos (show (0 : Int) ≤ 100 by decide)]
    refine LoopRuns.done ?_
    dsimp only
    rw [if_pos rfl]
    refine ⟨.timedOut, 0, [.block (.abs 0 ⟨100, 0⟩) 0], [.load 0 0],
      ⟨Nat.le_refl _, rfl, fun _ c d h => ?_⟩, ?_, rfl⟩
    · injection h with hc hd; subst hc hd; decide
    · exact ⟨0, 0, [.load 0 0], [], ⟨Nat.le_refl _, rfl, rfl⟩, ⟨rfl, rfl, rfl⟩, rfl⟩
  · rintro ⟨-, -, h⟩
    obtain ⟨-, t, -, -, -, -, h, -⟩ := h rfl
    simp [halfWorld] at h

end Verif.Call
