import Verif.Call.Spec

/-!
The system calls through which the library blocks and wakes threads: include/boost/atomic/detail/futex.hpp:26–244 and
its uses in wait_ops_futex.hpp:40–92, 107, 115–346 and src/lock_pool.cpp:607–826, and `_umtx_op` in
wait_ops_freebsd_umtx.hpp:84–360.

Two halves.  `Target.futex…` are the functions of the library: they produce the arguments of the system call.  `kernel…`
is the other side, from the documentation and the source of the kernels: what a kernel understands by these arguments.
The layout of `timespec` is that of the C library.

Simplified: memory that an argument points to is a list of 32-bit words, in the order of the addresses; a pointer
argument carries the memory that it points to.
-/

namespace Verif.Call

open Verif.Chrono

/-- Operating systems with a futex (futex.hpp:26–68). -/
inductive Os where
  | linux | netbsd | openbsd
deriving DecidableEq, Repr

/-- A target, as the preprocessor and the C library see it. -/
structure Target where
  os : Os
  /-- `__ANDROID__` -/
  android : Bool := false
  /-- `long` and pointers have 64 bits -/
  long64 : Bool
  /-- `time_t` has 64 bits -/
  time64 : Bool
  /-- the most significant byte comes first -/
  big : Bool := false
  /-- `SYS_futex`, `SYS_futex_time64`, `__NR_futex` are defined -/
  sysFutex : Bool := true
  sysFutexTime64 : Bool := false
  nrFutex : Bool := true
  /-- `FUTEX_WAIT_BITSET`, `FUTEX_PRIVATE_FLAG`, `FUTEX_CLOCK_REALTIME` are defined -/
  bitset : Bool := true
  priv : Bool := true
  realtime : Bool := true
  /-- `_POSIX_MONOTONIC_CLOCK >= 0` -/
  monotonic : Bool := true
deriving DecidableEq, Repr

/-- The system call that is made. -/
inductive Sys where
  | futex | futexTime64 | netbsd | openbsd
deriving DecidableEq, Repr

/-- `BOOST_ATOMIC_DETAIL_SYS_FUTEX`, futex.hpp:26–68; `none`: not defined (then another back end is used). -/
def Target.sys (t : Target) : Option Sys :=
  match t.os with
  | .linux =>
    if t.sysFutex then some .futex
    else if t.sysFutexTime64 then some .futexTime64
    else if t.nrFutex then some .futex
    else none
  | .netbsd => some .netbsd
  | .openbsd => some .openbsd

/-- `BOOST_ATOMIC_DETAIL_FUTEX_TIME64`, futex.hpp:36. -/
def Target.futexTime64 (t : Target) : Bool :=
  match t.os with
  | .linux => !t.sysFutex && t.sysFutexTime64
  | _ => false

/-- `FUTEX_WAIT`, `FUTEX_WAKE`, `FUTEX_REQUEUE` in the headers of the systems. -/
def Target.opWait (t : Target) : Nat := match t.os with | .openbsd => 1 | _ => 0
def Target.opWake (t : Target) : Nat := match t.os with | .openbsd => 2 | _ => 1
def Target.opRequeue (_ : Target) : Nat := 3

/-- `BOOST_ATOMIC_DETAIL_FUTEX_WAIT_BITSET`, futex.hpp:85–89: 9 in the headers too. -/
def Target.opBitset (t : Target) : Option Nat := if t.bitset then some 9 else if t.android then some 9 else none

/-- `BOOST_ATOMIC_DETAIL_FUTEX_PRIVATE_FLAG`, futex.hpp:91–97: 128 in the headers too. -/
def Target.privateFlag (t : Target) : Nat := if t.priv then 128 else if t.android then 128 else 0

/-- `BOOST_ATOMIC_DETAIL_FUTEX_CLOCK_REALTIME`, futex.hpp:99–103: 256 in the headers too. -/
def Target.realtimeFlag (t : Target) : Option Nat := if t.realtime then some 256 else if t.android then some 256 else none

/-! ### Memory -/

/-- The 32-bit words of a 32-bit and of a 64-bit integer. -/
def word32 (x : Int) : Nat := (x % 4294967296).toNat
def words64 (big : Bool) (x : Int) : List Nat :=
  let n := (x % 18446744073709551616).toNat
  if big then [n / 4294967296, n % 4294967296] else [n % 4294967296, n / 4294967296]

/-- `struct timespec` of the C library.  With 32-bit `long` and 64-bit `time_t` Linux pads the nanoseconds to 64 bits
(with whatever is in memory, `pad`), the other systems do not. -/
def Target.timespec (t : Target) (pad : Nat) (d : Timespec) : List Nat :=
  if t.time64 then
    if t.long64 then words64 t.big d.sec ++ words64 t.big d.nsec
    else match t.os with
      | .linux => words64 t.big d.sec ++ if t.big then [pad, word32 d.nsec] else [word32 d.nsec, pad]
      | _ => words64 t.big d.sec ++ [word32 d.nsec]
  else if t.long64 then word32 d.sec :: words64 t.big d.nsec
  else [word32 d.sec, word32 d.nsec]

/-- `futex_timespec`, futex.hpp:109–127. -/
def Target.futexTimespec (t : Target) (pad : Nat) (d : Timespec) : List Nat :=
  if t.futexTime64 then words64 t.big d.sec ++ words64 t.big d.nsec else t.timespec pad d

/-- Width of `futex_timespec::tv_sec`. -/
def Target.secWidth (t : Target) : Nat := if t.futexTime64 || t.time64 then 64 else 32

/-! ### The functions of the library -/

/-- An argument that is either a number or a pointer to some memory. -/
inductive Arg where
  | num (n : Nat)
  | mem (ws : List Nat)
deriving DecidableEq, Repr

/-- The arguments of the call after the system call number.  `fourth` is the timeout; Linux and OpenBSD take a second
number in the same place, NetBSD in an argument of its own, `val2`. -/
structure Args where
  addr1 : Nat
  op : Nat
  /-- converted to `int` for OpenBSD -/
  val1 : Int
  fourth : Arg
  addr2 : Nat := 0
  val2 : Nat := 0
  val3 : Nat := 0
deriving DecidableEq, Repr

/-- `static_cast< int >` of an `unsigned int`. -/
def toInt32 (n : Nat) : Int := if n < 2147483648 then n else (n : Int) - 4294967296

/-- The first `futex_invoke`, futex.hpp:130–147: with a timeout (`none`: `nullptr`). -/
def Target.invokeTime (t : Target) (addr1 op val1 : Nat) (timeout : Option (List Nat)) (addr2 val3 : Nat) : Args :=
  let fourth := match timeout with | some ws => Arg.mem ws | none => Arg.num 0
  match t.os with
  | .openbsd => { addr1, op, val1 := toInt32 val1, fourth, addr2 }
  | .netbsd => { addr1, op, val1, fourth, addr2, val2 := 0, val3 }
  | .linux => { addr1, op, val1, fourth, addr2, val3 }

/-- The second `futex_invoke`, futex.hpp:150–167: with a number. -/
def Target.invokeNum (t : Target) (addr1 op val1 val2 addr2 val3 : Nat) : Args :=
  match t.os with
  | .openbsd => { addr1, op, val1 := toInt32 val1, fourth := .num val2, addr2 }
  | .netbsd => { addr1, op, val1, fourth := .num 0, addr2, val2, val3 }
  | .linux => { addr1, op, val1, fourth := .num val2, addr2, val3 }

/-- `futex_wait`, futex.hpp:170–186. -/
def Target.futexWait (t : Target) (pval expected flags : Nat) : Args :=
  t.invokeTime pval (t.opWait ||| flags) expected none 0 0

/-- `futex_wait_for`, futex.hpp:189–201. -/
def Target.futexWaitFor (t : Target) (pval expected : Nat) (timeout : List Nat) (flags : Nat) : Args :=
  t.invokeTime pval (t.opWait ||| flags) expected (some timeout) 0 0

/-- `futex_wait_until`, futex.hpp:206–209; `op` is `BOOST_ATOMIC_DETAIL_FUTEX_WAIT_BITSET`. -/
def Target.futexWaitUntil (t : Target) (op pval expected : Nat) (timeout : List Nat) (flags : Nat) : Args :=
  t.invokeTime pval (op ||| flags) expected (some timeout) 0 4294967295

/-- `futex_signal`, futex.hpp:214–217.  It calls `futex_invoke(pval, op, count)`, which is the first of the two
overloads (the third parameter of the second has no default). -/
def Target.futexSignal (t : Target) (pval flags count : Nat) : Args :=
  t.invokeTime pval (t.opWake ||| flags) count none 0 0

/-- `futex_broadcast`, futex.hpp:220–223: `(~0u) >> 1`. -/
def Target.futexBroadcast (t : Target) (pval flags : Nat) : Args := t.futexSignal pval flags (4294967295 / 2)

/-- `futex_requeue`, futex.hpp:226–236. -/
def Target.futexRequeue (t : Target) (pval1 pval2 flags wakeCount requeueCount : Nat) : Args :=
  t.invokeNum pval1 (t.opRequeue ||| flags) wakeCount requeueCount pval2 0

/-- `futex_private_flag`, wait_ops_futex.hpp:107. -/
def Target.flagFor (t : Target) (interprocess : Bool) : Nat := if interprocess then 0 else t.privateFlag

/-- `select_futex_wait< Clock >`, wait_ops_futex.hpp:44–90, and the condition in src/lock_pool.cpp:680–700.  `clock` is
`posix_clock_traits< Clock >::clock_id` (`none`: the clock has no traits).  The result is `futex_flags`; `none` is
`futex_wait_fallback`, and also the case that there is no `FUTEX_WAIT_BITSET`. -/
def Target.selectWait (t : Target) (clock : Option Nat) : Option (Nat × Nat) :=
  match t.opBitset, clock with
  | some op, some 1 => if t.monotonic then some (op, 0) else none
  | some op, some 0 => match t.realtimeFlag with
    | some f => some (op, f)
    | none => none
  | _, _ => none

/-- The call of `wait_until_abs_timeout`, wait_ops_futex.hpp:189–195 (and src/lock_pool.cpp:694–703). -/
def Target.untilCall (t : Target) (interprocess : Bool) (clock : Option Nat) (pad addr expected : Nat) (d : Timespec) :
    Option Args :=
  match t.selectWait clock with
  | some (op, f) => some (t.futexWaitUntil op addr expected (t.futexTimespec pad d) (t.flagFor interprocess ||| f))
  | none => none

/-! ### The kernel -/

/-- A signed integer of 32 or 64 bits. -/
def signed32 (n : Nat) : Int := if n < 2147483648 then n else (n : Int) - 4294967296
def signed64 (n : Nat) : Int := if n < 9223372036854775808 then n else (n : Int) - 18446744073709551616

/-- A 64-bit integer at two words. -/
def read64 (big : Bool) (a b : Nat) : Nat := if big then a * 4294967296 + b else b * 4294967296 + a

/-- The time that the kernel reads at an address, by system call and target.  Linux on 64-bit machines: two 64-bit
integers.  On 32-bit machines: `futex` reads two 32-bit integers; `futex_time64` reads two 64-bit integers and ignores
the upper half of the nanoseconds.  The other systems read the `timespec` of the C library. -/
def readTime (t : Target) (sys : Sys) : List Nat → Option Timespec
  | a :: b :: ws =>
    match sys with
    | .futex =>
      if t.long64 then match ws with
        | [c, d] => some ⟨signed64 (read64 t.big a b), signed64 (read64 t.big c d)⟩
        | _ => none
      else some ⟨signed32 a, signed32 b⟩
    | .futexTime64 => match ws with
        | [c, d] => some ⟨signed64 (read64 t.big a b),
            if t.long64 then signed64 (read64 t.big c d) else (read64 t.big c d % 4294967296 : Nat)⟩
        | _ => none
    | _ =>
      match ws with
      | [] => some ⟨signed32 a, signed32 b⟩
      | [c] => some ⟨signed64 (read64 t.big a b), signed32 c⟩
      | [c, d] => some ⟨signed64 (read64 t.big a b), signed64 (read64 t.big c d)⟩
      | _ => none
  | _ => none

/-- Read a time limit: a null pointer is no limit, an invalid time an error. -/
def readLimit (t : Target) (sys : Sys) (f : Timespec → Limit) : Arg → Option Limit
  | .num 0 => some .forever
  | .num _ => none
  | .mem ws => match readTime t sys ws with
    | some d => if ValidTime d then some (f d) else none
    | none => none

/-- A number that the kernel reads as `int` and that must not be negative. -/
def readCount (n : Int) : Option Nat := if 0 ≤ n ∧ n < 2147483648 then some n.toNat else none

/-- What the kernel does for a call: Linux `do_futex`, NetBSD `do_futex`, OpenBSD `sys_futex`; `none`: it reports an
error.  Of `op`, the low 7 bits are the command, then come the private flag and, except on OpenBSD, the clock. -/
def kernel (t : Target) (sys : Sys) (a : Args) : Option Req :=
  let shared := decide (a.op / 128 % 2 = 0)
  let cmd := a.op % 128
  let expected := (a.val1 % 4294967296).toNat
  match sys with
  | .openbsd =>
    if a.op ≥ 256 then none
    else if cmd = 1 then (readLimit t sys .relative a.fourth).map (.wait shared a.addr1 expected)
    else if cmd = 2 then (readCount a.val1).map (.wake shared a.addr1)
    else if cmd = 3 then match readCount a.val1, a.fourth with
      | some w, .num m => (readCount m).map (.requeue shared a.addr1 a.addr2 w)
      | _, _ => none
    else none
  | _ =>
    let clock := if a.op / 256 % 2 = 1 then 0 else 1
    if a.op ≥ 512 then none
    else if cmd = 0 then
      if a.op ≥ 256 then none else (readLimit t sys .relative a.fourth).map (.wait shared a.addr1 expected)
    else if cmd = 9 then
      -- the bit set must not be empty
      if a.val3 = 0 then none
      else (readLimit t sys (.absolute clock) a.fourth).map (.wait shared a.addr1 expected)
    else if a.op ≥ 256 then none
    else if cmd = 1 then (readCount a.val1).map (.wake shared a.addr1)
    else if cmd = 3 then
      match readCount a.val1, (match sys with | .netbsd => Arg.num a.val2 | _ => a.fourth) with
      | some w, .num m => (readCount m).map (.requeue shared a.addr1 a.addr2 w)
      | _, _ => none
    else none

/-! ### Results -/

/-- What the caller has in hand after a call: the result and `errno`. -/
structure Ret where
  res : Int
  errno : Nat
deriving DecidableEq, Repr

/-- How `futex(2)` reports: −1 and `errno`, or, in OpenBSD before 7.0 (`direct`), the error number itself
(comment in futex.hpp:174–178).  A wait that is not refused returns 0. -/
def libc (direct : Bool) (errno : Nat) : Outcome → Ret
  | .ok => ⟨0, errno⟩
  | .err e => if direct then ⟨e, errno⟩ else ⟨-1, e⟩

/-- The end of `futex_wait` and `futex_wait_for`, futex.hpp:173–185, 192–200; `old`: compiled for
`OpenBSD < 202111`. -/
def fixResult (old : Bool) (r : Ret) : Ret := if old then if r.res > 0 then ⟨-1, r.res.toNat⟩ else r else r

/-- How the callers take it (wait_ops_futex.hpp:196–208, src/lock_pool.cpp:655–661). -/
def Ret.outcome (r : Ret) : Outcome := if r.res < 0 then .err r.errno else .ok

/-! ### FreeBSD -/

/-- `_umtx_time`, with `UMTX_ABSTIME` in `_flags`. -/
structure UmtxTime where
  timeout : Timespec
  abstime : Bool
  clockid : Nat
deriving DecidableEq, Repr

/-- What the last argument points to. -/
inductive UmtxArg where
  | null
  | timespec (d : Timespec)
  | time (u : UmtxTime)
deriving DecidableEq, Repr

/-- Arguments of `_umtx_op` but the operation, which `Verif.WaitSel` treats: `size` is `uaddr` as a number. -/
structure UmtxArgs where
  obj : Nat
  val : Nat
  size : Nat
  arg : UmtxArg
deriving DecidableEq, Repr

/-- `sizeof(timespec)` and `sizeof(_umtx_time)` by the size of `time_t` and `long`. -/
def sizeofTimespec (long64 : Bool) : Nat := if long64 then 16 else 12
def sizeofUmtxTime (long64 : Bool) : Nat := sizeofTimespec long64 + 8

/-- wait_ops_freebsd_umtx.hpp:88–89. -/
def umtxWait (obj old : Nat) : UmtxArgs := ⟨obj, old, 0, .null⟩

/-- wait_ops_freebsd_umtx.hpp:110–141: the remaining time, against `CLOCK_MONOTONIC`. -/
def umtxWaitFor (long64 : Bool) (obj old : Nat) (d : Timespec) : UmtxArgs :=
  ⟨obj, old, sizeofUmtxTime long64, .time ⟨d, false, 1⟩⟩

/-- wait_ops_freebsd_umtx.hpp:150–171, 213–218 (and 260–267 with clock 1). -/
def umtxWaitUntil (long64 : Bool) (clock obj old : Nat) (d : Timespec) : UmtxArgs :=
  ⟨obj, old, sizeofUmtxTime long64, .time ⟨d, true, clock⟩⟩

/-- Without `UMTX_ABSTIME`: wait_ops_freebsd_umtx.hpp:290–313. -/
def umtxWaitForOld (obj old : Nat) (d : Timespec) : UmtxArgs := ⟨obj, old, 0, .timespec d⟩

/-- What the kernel does (`umtx_copyin_umtx_time`): the size says what the last argument points to.  The clock of a
relative limit is not part of the request. -/
def umtxKernel (long64 shared : Bool) (a : UmtxArgs) : Option Req :=
  match a.arg with
  | .null => some (.wait shared a.obj a.val .forever)
  | .timespec d =>
    if a.size ≤ sizeofTimespec long64 then
      if ValidTime d then some (.wait shared a.obj a.val (.relative d)) else none
    else none
  | .time u =>
    if a.size ≤ sizeofTimespec long64 then
      -- only `_timeout` is read
      if ValidTime u.timeout then some (.wait shared a.obj a.val (.relative u.timeout)) else none
    else if ValidTime u.timeout then
      some (.wait shared a.obj a.val (if u.abstime then .absolute u.clockid u.timeout else .relative u.timeout))
    else none

end Verif.Call
