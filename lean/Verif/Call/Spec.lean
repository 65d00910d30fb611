import Verif.Chrono.Spec

/-!
What the library asks of the kernel when a thread blocks on an object or wakes threads, as the documentation of the
system calls describes the requests, without the encoding in registers and memory.
-/

namespace Verif.Call

open Verif.Chrono

/-- How long to block. -/
inductive Limit where
  | forever
  | relative (d : Timespec)
  /-- until the POSIX clock with this id shows `d`; 0 is `CLOCK_REALTIME`, 1 is `CLOCK_MONOTONIC` -/
  | absolute (clock : Nat) (d : Timespec)
deriving DecidableEq, Repr

/-- Requests.  `shared`: threads of other processes take part; otherwise only those of the calling process. -/
inductive Req where
  /-- block if the four bytes at `addr` hold `expected` -/
  | wait (shared : Bool) (addr expected : Nat) (limit : Limit)
  /-- wake at most `count` threads blocked at `addr` -/
  | wake (shared : Bool) (addr count : Nat)
  /-- wake at most `wake` threads blocked at `addr`, and move at most `move` others to `addr2` -/
  | requeue (shared : Bool) (addr addr2 wake move : Nat)
deriving DecidableEq, Repr

/-- The kernel accepts only time limits that are normalised and not negative (otherwise `EINVAL`). -/
def ValidTime (d : Timespec) : Prop := 0 ≤ d.sec ∧ 0 ≤ d.nsec ∧ d.nsec < 1000000000

instance (d : Timespec) : Decidable (ValidTime d) := inferInstanceAs (Decidable (_ ∧ _ ∧ _))

/-- What became of a blocking call: success, or an error number. -/
inductive Outcome where
  | ok
  | err (e : Nat)
deriving DecidableEq, Repr

end Verif.Call
