import Verif.Chrono.Spec

/-!
The arithmetic on durations and instants in the waiting operations.

Two versions of the arithmetic: on mathematical integers, where only the result matters, and (suffix `?`) on
64-bit integers, where `none` is the undefined behaviour of signed overflow.
-/

namespace Verif.Chrono

/-- `chrono::ceil` for compilers without `std::chrono::ceil`, include/boost/atomic/detail/chrono.hpp:44–51; `num / den`
is `conv_ratio`, `c` is `from.count()`.  Division and remainder of C++ truncate towards zero. -/
def ceilFallback (num den c : Int) : Int :=
  (c * num).tdiv den + if (c * num).tmod den ≠ 0 then 1 else 0

/-- `std::chrono::ceil` (chrono.hpp:40): `duration_cast` truncates towards zero, and one unit is added if the result
is less than the argument.  This is the definition in the C++ standard; the standard library is trusted. -/
def ceilStd (num den c : Int) : Int :=
  let t := (c * num).tdiv den
  if t * den < c * num then t + 1 else t

/-- `chrono::ceil`, whichever of the two is selected by chrono.hpp:38–53. -/
def ceil (std : Bool) (num den c : Int) : Int := if std then ceilStd num den c else ceilFallback num den c

/-- Conversion of an integer to a signed `w`-bit type (`static_cast< decltype(ts.tv_sec) >`). -/
def cast (w : Nat) (x : Int) : Int := (BitVec.ofInt w x).toInt

/-- `posix_clock_traits< system_clock >::to_timespec`, chrono.hpp:68–83.  `w` is the width of `time_t`, `epoch` the
value of `to_time_t(time_point())`, `t` the time point in nanoseconds since the epoch of the clock. -/
def toTimespec (w : Nat) (epoch t : Int) : Timespec :=
  let sec := cast w (epoch + cast w (t.tdiv 1000000000))
  let ns := t.tmod 1000000000
  if ns < 0 then ⟨sec - 1, ns + 1000000000⟩ else ⟨sec, ns⟩

/-- Relative timeout of `n` nanoseconds for the kernel, saturated: wait_ops_futex.hpp:150–160,
wait_ops_freebsd_umtx.hpp:122–132, 300–310, src/lock_pool.cpp:738–748, 778–788.  `w` is the width of `tv_sec`. -/
def relTimespec (w : Nat) (n : Int) : Timespec :=
  let sec := n.tdiv 1000000000
  if sec ≤ 2 ^ (w - 1) - 1 then ⟨cast w sec, n.tmod 1000000000⟩ else ⟨2 ^ (w - 1) - 1, 999999999⟩

/-- Absolute deadline `now + n` for the kernel: wait_ops_futex.hpp:297–303, wait_ops_freebsd_umtx.hpp:258–263.
`none`: seconds do not fit, the caller falls back to another method. -/
def absTimespec (w : Nat) (now : Timespec) (n : Int) : Option Timespec :=
  let nsec := now.nsec + n
  let sec := now.sec + nsec.tdiv 1000000000
  if sec ≤ 2 ^ (w - 1) - 1 then some ⟨cast w sec, nsec.tmod 1000000000⟩ else none

/-- The same with saturation: the pthread variant of `wait_state::wait_for`, src/lock_pool.cpp:493–504. -/
def absTimespecSat (w : Nat) (now : Timespec) (n : Int) : Timespec :=
  (absTimespec w now n).getD ⟨2 ^ (w - 1) - 1, 999999999⟩

/-- Time left until the deadline: src/lock_pool.cpp:476–478, 728–731. -/
def remaining (deadline now : Timespec) : Int :=
  (deadline.sec - now.sec) * 1000000000 + (deadline.nsec - now.nsec)

/-- The test whether the deadline has passed: src/lock_pool.cpp:473, 1226. -/
def reached (now deadline : Timespec) : Bool :=
  decide (now.sec > deadline.sec) || (decide (now.sec = deadline.sec) && decide (now.nsec ≥ deadline.nsec))

/-- Saturation of a positive number of units at `max`: wait_ops_darwin_ulock.hpp:132, wait_ops_dragonfly_umtx.hpp:89,
wait_ops_windows.hpp:100–101, src/lock_pool.cpp:903–906. -/
def clamp (max n : Int) : Int := if n ≤ max then n else max

/-! ### 64-bit arithmetic with overflow -/

instance (w x) : Decidable (Fits w x) := inferInstanceAs (Decidable (_ ∧ _))

/-- The result of a signed 64-bit operation whose mathematical result is `x`. -/
def i64 (x : Int) : Option Int := if Fits 64 x then some x else none

/-- `chrono::ceil` in 64 bits, chrono.hpp:44–51: the multiplication can overflow (the division cannot, `den > 0`;
the final addition is done only if there is a remainder). -/
def ceil? (std : Bool) (num den c : Int) : Option Int := do
  let _ ← i64 (c * num)
  i64 (ceil std num den c)

/-- Deadline computation of `wait_for` in wait_ops_futex.hpp:297–303 and wait_ops_freebsd_umtx.hpp:258–263. -/
def absTimespec? (std : Bool) (num den : Int) (w : Nat) (now : Timespec) (c : Int) : Option (Option Timespec) := do
  let n ← ceil? std num den c
  let nsec ← i64 (now.nsec + n)
  let _ ← i64 (now.sec + nsec.tdiv 1000000000)
  return absTimespec w now n

/-- The pthread variant, src/lock_pool.cpp:493–504. -/
def absTimespecSat? (w : Nat) (now : Timespec) (n : Int) : Option Timespec := do
  let nsec ← i64 (now.nsec + n)
  let _ ← i64 (now.sec + nsec.tdiv 1000000000)
  return absTimespecSat w now n

/-- `now + timeout` of the other implementations of `wait_for`: wait_ops_generic.hpp:225, 359,
wait_ops_emulated.hpp:211, wait_ops_windows.hpp:136, wait_ops_darwin_ulock.hpp:167, wait_ops_dragonfly_umtx.hpp:124,
wait_ops_freebsd_umtx.hpp:272, 346, wait_ops_futex.hpp:334.  Both operands are converted to the common duration
type first: the clock counts `now` ticks of `nnow` common units, the timeout `c` ticks of `nt` common units. -/
def deadline? (nnow nt now c : Int) : Option Int := do
  let a ← i64 (now * nnow)
  let b ← i64 (c * nt)
  i64 (a + b)

end Verif.Chrono
