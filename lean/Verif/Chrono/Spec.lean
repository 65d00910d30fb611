/-!
Vocabulary for statements about durations and instants.  All numbers are mathematical integers.
-/

namespace Verif.Chrono

/-- The values of a signed `w`-bit integer type. -/
def Fits (w : Nat) (x : Int) : Prop := -(2 ^ (w - 1) : Int) ≤ x ∧ x < 2 ^ (w - 1)

/-- `r` units are the duration of `c` ticks of `num / den` units each, rounded up. -/
def IsCeil (num den c r : Int) : Prop := c * num ≤ r * den ∧ (r - 1) * den < c * num

/-- A POSIX `timespec`. -/
structure Timespec where
  sec : Int
  nsec : Int
deriving DecidableEq, Repr

/-- The instant (or duration) in nanoseconds. -/
def Timespec.ns (t : Timespec) : Int := t.sec * 1000000000 + t.nsec

/-- The nanoseconds field is within its range; the kernel rejects anything else. -/
def Timespec.Normal (t : Timespec) : Prop := 0 ≤ t.nsec ∧ t.nsec < 1000000000

end Verif.Chrono
