import Verif.Call.Spec
import Verif.Chrono.Props

/-!
C73 for the back ends that pass the time limit as a number: Windows, Darwin and DragonFly.  One value of the number means
"no limit": `INFINITE` (2^32 − 1) on Windows, 0 on the others, so that a remaining time that is rounded or converted to
this value would block the thread for ever.
-/

namespace Verif.Call

open Verif.Chrono

/-- wait_ops_windows.hpp, wait_ops_darwin_ulock.hpp with `__ulock_wait` and with `__ulock_wait2`,
wait_ops_dragonfly_umtx.hpp. -/
inductive NumBackend where
  | windows | ulock | ulock2 | dragonfly
deriving DecidableEq, Repr

/-- Nanoseconds in a unit of the limit: the argument of `chrono::ceil` in wait_ops_windows.hpp:88,
wait_ops_darwin_ulock.hpp:113–117, wait_ops_dragonfly_umtx.hpp:78. -/
def NumBackend.unit : NumBackend → Int
  | .windows => 1000000
  | .ulock => 1000
  | .ulock2 => 1
  | .dragonfly => 1000

/-- The argument for a remaining time of `n` units, `n > 0`: wait_ops_windows.hpp:100–101 (`max_non_infinite_wait` is
2^32 − 2), wait_ops_darwin_ulock.hpp:125, 132, wait_ops_dragonfly_umtx.hpp:89.  Casts are modulo the width of the
parameter (32, 32, 64 bits; `int`). -/
def NumBackend.timed : NumBackend → Int → Int
  | .windows, n => if n ≤ 4294967294 then n % 4294967296 else 4294967294
  | .ulock, n => if n ≤ 4294967295 then n % 4294967296 else 4294967295
  | .ulock2, n => n % 18446744073709551616
  | .dragonfly, n => if n ≤ 2147483647 then cast 32 n else 2147483647

/-- The argument in `wait`: wait_ops_windows.hpp:66, wait_ops_darwin_ulock.hpp:88–90, wait_ops_dragonfly_umtx.hpp:56. -/
def NumBackend.untimed : NumBackend → Int
  | .windows => 4294967295
  | _ => 0

/-- The argument for the old value: the object itself on Windows (by address), zero-extended to 64 bits on Darwin,
`static_cast< int >` on DragonFly (lines as above). -/
def NumBackend.value : NumBackend → Nat → Int
  | .dragonfly, old => cast 32 old
  | _, old => old

/-- How long the kernel blocks for an argument, in nanoseconds; `none`: no limit.  From the documentation of
`WaitOnAddress`, wait_ops_darwin_ulock.hpp:39–43 and `umtx_sleep(2)`, which refuses negative limits. -/
def NumBackend.limit : NumBackend → Int → Option (Option Int)
  | .windows, a => if a = 4294967295 then some none else some (some (a * 1000000))
  | .ulock, a => if a = 0 then some none else some (some (a * 1000))
  | .ulock2, a => if a = 0 then some none else some (some a)
  | .dragonfly, a => if a < 0 then none else if a = 0 then some none else some (some (a * 1000))

/-- What the kernel compares the object with, the object having `bits` bits. -/
def NumBackend.compares (bits : Nat) (a : Int) : Nat := (a % 2 ^ bits).toNat

/-- C73: without a limit the thread blocks without a limit. -/
theorem C73_num_untimed (b : NumBackend) : b.limit b.untimed = some none := by cases b <;> decide

/-- C73: with a limit of `c` ticks of `num / den` units remaining, which the library has found to be positive when rounded
up (`hpos`; otherwise it does not call the kernel), the thread does not block for ever, not for longer than the remaining time rounded up to a unit, and exactly so long if the time is below a limit of at least
2^31 − 1 units. -/
theorem C73_num_timed (b : NumBackend) (std : Bool) (num den c : Int) (hd : 0 < den)
    (hfit : ceil std num den c < 2 ^ 63) (hpos : ¬ ceil std num den c ≤ 0) :
    ∃ ns, b.limit (b.timed (ceil std num den c)) = some (some ns) ∧
      0 < ns ∧ ns ≤ ceil std num den c * b.unit ∧
      (ceil std num den c < 2 ^ 31 → ns = ceil std num den c * b.unit ∧ c * num * b.unit ≤ ns * den) := by
  have hc := C30_ceil_not_shorter std num den c hd
  generalize ceil std num den c = n at *
  have key : 0 < b.unit → ∀ ns, ns = n * b.unit → c * num * b.unit ≤ ns * den := by
    intro hu ns h; subst h
    have := Int.mul_le_mul_of_nonneg_right hc (Int.le_of_lt hu)
    rw [Int.mul_right_comm n b.unit den]; exact this
  cases b
  · have k := key (by decide)
    simp only [NumBackend.timed, NumBackend.limit, NumBackend.unit] at *
    split
    · rw [if_neg (by omega), Int.emod_eq_of_lt (by omega) (by omega)]
      exact ⟨_, rfl, by omega, by omega, fun _ => ⟨rfl, k _ rfl⟩⟩
    · exact ⟨_, rfl, by omega, by omega, fun _ => by omega⟩
  · have k := key (by decide)
    simp only [NumBackend.timed, NumBackend.limit, NumBackend.unit] at *
    split
    · rw [if_neg (by omega), Int.emod_eq_of_lt (by omega) (by omega)]
      exact ⟨_, rfl, by omega, by omega, fun _ => ⟨rfl, k _ rfl⟩⟩
    · exact ⟨_, rfl, by omega, by omega, fun _ => by omega⟩
  · have e : NumBackend.ulock2.timed n = n := Int.emod_eq_of_lt (by omega) (by omega)
    have u1 : NumBackend.ulock2.unit = 1 := rfl
    rw [e]
    refine ⟨n, ?_, by omega, by rw [u1]; omega, fun _ => ⟨by rw [u1]; omega, key (by decide) _ (by rw [u1]; omega)⟩⟩
    simp only [NumBackend.limit]
    rw [if_neg (by omega)]
  · have k := key (by decide)
    simp only [NumBackend.timed, NumBackend.limit, NumBackend.unit] at *
    split
    · rw [show cast 32 n = n from cast_eq (by decide) (by unfold Fits; omega), if_neg (by omega), if_neg (by omega)]
      exact ⟨_, rfl, by omega, by omega, fun _ => ⟨rfl, k _ rfl⟩⟩
    · exact ⟨_, rfl, by omega, by omega, fun _ => by omega⟩

/-- C73: the kernel compares the object with the old value, also if its highest bit is set. -/
theorem C73_num_value (b : NumBackend) (bits : Nat) (old : Nat) (h : old < 2 ^ bits)
    (hb : b = .dragonfly → bits = 32) : NumBackend.compares bits (b.value old) = old := by
  have e : ((old : Int) % 2 ^ bits).toNat = old := by
    rw [Int.emod_eq_of_lt (by omega) (by exact_mod_cast h)]; rfl
  cases b <;> try exact e
  have := hb rfl; subst this
  simp only [NumBackend.compares, NumBackend.value, Chrono.cast, BitVec.toInt_ofInt]
  rw [Int.bmod_def]
  split <;> omega

/-- A wait of 1.5 ms, with ticks of a nanosecond: two milliseconds on Windows, exact on the others; and one of 60 days. -/
example : NumBackend.windows.limit (NumBackend.windows.timed (ceil true 1 1000000 1500000)) = some (some 2000000) ∧
    NumBackend.ulock.limit (NumBackend.ulock.timed (ceil true 1 1000 1500000)) = some (some 1500000) ∧
    NumBackend.windows.limit (NumBackend.windows.timed (60 * 86400000)) = some (some 4294967294000000) := by decide
example : NumBackend.compares 32 (NumBackend.dragonfly.value 4294967295) = 4294967295 := by decide

end Verif.Call
