import Verif.Chrono.Lemmas

/-!
Property theorems C30 (durations and deadlines are converted without losing time) and C31 (overflow).
-/

namespace Verif.Chrono

/-- C30: with `std::chrono::ceil` the conversion rounds up, for every tick count of either sign. -/
theorem C30_ceil_std (num den c : Int) (hd : 0 < den) : IsCeil num den c (ceil true num den c) := by
  obtain ⟨q, r, h1, h2, h3, h4, h5, h6, h7⟩ := tdiv_bounds (c * num) hd
  simp only [ceil, ceilStd, h1, IsCeil, if_true]
  rw [Int.mul_comm] at h3
  split
  · rw [Int.add_mul, Int.one_mul, show q + 1 - 1 = q by omega]; omega
  · rw [Int.sub_mul, Int.one_mul]; omega

/-- C30: with the fallback the conversion rounds up for every non-negative duration. -/
theorem C30_ceil_fallback (num den c : Int) (hn : 0 < num) (hd : 0 < den) (hc : 0 ≤ c) :
    IsCeil num den c (ceil false num den c) := by
  have hp : 0 ≤ c * num := Int.mul_nonneg hc (by omega)
  obtain ⟨q, r, h1, h2, h3, h4, h5, h6, h7⟩ := tdiv_bounds (c * num) hd
  have := h6 hp
  simp only [ceil, ceilFallback, h1, h2, IsCeil, Bool.false_eq_true, if_false]
  rw [Int.mul_comm] at h3
  split
  · rw [Int.add_mul, Int.one_mul, show q + 1 - 1 = q by omega]; omega
  · rw [Int.sub_mul, Int.one_mul, Int.add_zero]; omega

/-- C30: neither version ever converts a duration to a shorter one, and so a wait for the converted duration is not
too short. -/
theorem C30_ceil_not_shorter (std : Bool) (num den c : Int) (hd : 0 < den) :
    c * num ≤ ceil std num den c * den := by
  cases std with
  | true => exact (C30_ceil_std num den c hd).1
  | false =>
    obtain ⟨q, r, h1, h2, h3, h4, h5, h6, h7⟩ := tdiv_bounds (c * num) hd
    simp only [ceil, ceilFallback, h1, h2, Bool.false_eq_true, if_false]
    rw [Int.mul_comm] at h3
    split
    · rw [Int.add_mul, Int.one_mul]; omega
    · rw [Int.add_zero]; omega

/-- C30: if the converted remaining time is zero or negative then no time remains: the test by which the timed waits
report a timeout is never true too early. -/
theorem C30_no_early_timeout (std : Bool) (num den c : Int) (hn : 0 < num) (hd : 0 < den)
    (h : ceil std num den c ≤ 0) : c ≤ 0 := by
  have h1 := C30_ceil_not_shorter std num den c hd
  have h2 : ceil std num den c * den ≤ 0 := Int.mul_nonpos_of_nonpos_of_nonneg h (by omega)
  by_cases hc : c ≤ 0
  · exact hc
  · have : 0 < c * num := Int.mul_pos (by omega) hn
    omega

/-- Conversely no time remaining is recognised at once, with `std::chrono::ceil`, and with the fallback for clocks
whose tick is a whole number of units. -/
theorem C30_timeout_recognised (std : Bool) (num den c : Int) (hn : 0 < num) (hd : 0 < den) (hc : c ≤ 0)
    (hf : std = true ∨ den = 1) : ceil std num den c ≤ 0 := by
  have hp : c * num ≤ 0 := Int.mul_nonpos_of_nonpos_of_nonneg hc (by omega)
  rcases hf with rfl | rfl
  · have h := (C30_ceil_std num den c hd).2
    rcases Int.lt_or_le 0 (ceil true num den c) with h0 | h0
    · have : 0 ≤ (ceil true num den c - 1) * den := Int.mul_nonneg (by omega) (by omega)
      omega
    · exact h0
  · cases std with
    | true =>
      have h := (C30_ceil_std num 1 c hd).2
      omega
    | false => simp [ceil, ceilFallback]; omega

/-- The fallback is not the ceiling for negative durations that are not a whole number of units (it adds one to a
value already rounded up): -3/2 is converted to 0 and not to -1, and -1/2 to 1. -/
theorem C30_ceil_fallback_negative_violated :
    ¬ IsCeil 1 2 (-3) (ceil false 1 2 (-3)) ∧ ceil false 1 2 (-1) = 1 := by
  constructor
  · intro h; revert h; simp [IsCeil, ceil, ceilFallback]
  · decide

example : ceil true 1000000 1 3 = 3000000 ∧ ceil false 1 1000 1500 = 2 ∧ ceil true 1 1000 (-1500) = -1 := by decide

/-- C30: for every time point the `timespec` is normalised, and it denotes the same instant when the seconds fit
`time_t`. -/
theorem C30_to_timespec_partial (w : Nat) (hw : 0 < w) (epoch t : Int)
    (h1 : Fits w (t.tdiv 1000000000)) (h2 : Fits w (epoch + t.tdiv 1000000000)) :
    (toTimespec w epoch t).Normal ∧ (toTimespec w epoch t).ns = epoch * 1000000000 + t := by
  obtain ⟨q, r, e1, e2, e3, e4, e5, -, -⟩ := tdiv_bounds t (b := 1000000000) (by decide)
  rw [e1] at h1 h2
  simp only [toTimespec, e1, e2, cast_eq hw h1, cast_eq hw h2]
  split <;> simp only [Timespec.Normal, Timespec.ns] <;> omega

/-- With a 64-bit `time_t` and the clock's epoch within 2^62 seconds of the POSIX epoch the conversion is exact for
every 64-bit number of nanoseconds. -/
theorem C30_to_timespec_64 (epoch t : Int) (he : -(2 ^ 62) ≤ epoch ∧ epoch ≤ 2 ^ 62) (ht : Fits 64 t) :
    (toTimespec 64 epoch t).Normal ∧ (toTimespec 64 epoch t).ns = epoch * 1000000000 + t := by
  obtain ⟨q, r, e1, e2, e3, e4, e5, -, -⟩ := tdiv_bounds t (b := 1000000000) (by decide)
  apply C30_to_timespec_partial 64 (by decide)
  · rw [e1]; unfold Fits at *; omega
  · rw [e1]; unfold Fits at *; omega

/-- With a 32-bit `time_t` the conversion is wrong: there is a representable instant whose conversion denotes an
instant more than 200 years earlier, so that a wait for it times out at once. -/
theorem C30_to_timespec_32_violated :
    ∃ t, Fits 64 t ∧ (toTimespec 32 0 t).ns + 200 * 365 * 86400 * 1000000000 < t ∧ (toTimespec 32 0 t).sec ≥ 0 := by
  refine ⟨9223372036854775807, ?_, ?_, ?_⟩ <;> decide

/-- C30: a positive number of nanoseconds becomes a valid relative timeout; exact if the seconds fit, otherwise the
longest timeout there is. -/
theorem C30_rel_timespec (w : Nat) (hw : 0 < w) (n : Int) (hn : 0 ≤ n) :
    (relTimespec w n).Normal ∧ 0 ≤ (relTimespec w n).sec ∧ Fits w (relTimespec w n).sec ∧
    (relTimespec w n).ns ≤ n ∧
    (n < 2 ^ (w - 1) * 1000000000 → (relTimespec w n).ns = n) ∧
    (2 ^ (w - 1) * 1000000000 ≤ n → (relTimespec w n).ns = 2 ^ (w - 1) * 1000000000 - 1) := by
  obtain ⟨q, r, e1, e2, e3, e4, e5, e6, -⟩ := tdiv_bounds n (b := 1000000000) (by decide)
  have := e6 hn
  have hq : 0 ≤ q := by omega
  have hp : (0 : Int) < 2 ^ (w - 1) := Int.pow_pos (by decide)
  simp only [relTimespec, e1, e2]
  split
  · have hf : Fits w q := by unfold Fits; omega
    simp only [cast_eq hw hf, Timespec.Normal, Timespec.ns]
    refine ⟨by omega, hq, hf, by omega, by omega, by omega⟩
  · simp only [Timespec.Normal, Timespec.ns]
    refine ⟨by omega, by omega, ?_, by omega, by omega, by omega⟩
    unfold Fits; omega

example : relTimespec 64 3000000001 = ⟨3, 1⟩ ∧ relTimespec 32 (2 ^ 32 * 1000000000) = ⟨2147483647, 999999999⟩ := by
  decide

/-- C30: the absolute deadline of `wait_for` is exactly the given number of nanoseconds after the clock value read
at the start; it is valid for the kernel; and it is computed unless the seconds do not fit. -/
theorem C30_abs_timespec (w : Nat) (hw : 0 < w) (now : Timespec) (n : Int) (hn : 0 ≤ n) (hnow : now.Normal)
    (hs : Fits w now.sec) :
    (∀ d, absTimespec w now n = some d → d.Normal ∧ Fits w d.sec ∧ d.ns = now.ns + n) ∧
    (absTimespec w now n = none ↔ 2 ^ (w - 1) * 1000000000 ≤ now.ns + n) := by
  obtain ⟨q, r, e1, e2, e3, e4, e5, e6, -⟩ := tdiv_bounds (now.nsec + n) (b := 1000000000) (by decide)
  obtain ⟨hn1, hn2⟩ := hnow
  have hp : (0 : Int) < 2 ^ (w - 1) := Int.pow_pos (by decide)
  have := e6 (by omega)
  obtain ⟨hs1, hs2⟩ := hs
  by_cases h : now.sec + q ≤ 2 ^ (w - 1) - 1
  · have hf : Fits w (now.sec + q) := by unfold Fits; omega
    have e : absTimespec w now n = some ⟨now.sec + q, r⟩ := by
      simp only [absTimespec, e1, e2, cast_eq hw hf, if_pos h]
    rw [e]
    refine ⟨fun d hd => ?_, ?_⟩
    · cases hd
      exact ⟨⟨by omega, by omega⟩, hf, by simp only [Timespec.ns]; omega⟩
    · constructor
      · intro h; cases h
      · intro h; simp only [Timespec.ns] at h; omega
  · have e : absTimespec w now n = none := by
      simp only [absTimespec, e1, e2, if_neg h]
    rw [e]
    refine ⟨fun d hd => (nomatch hd), fun _ => ?_, fun _ => rfl⟩
    simp only [Timespec.ns]; omega

/-- C30: the saturated deadline of the pthread variant is never later than asked for by more than 0, and it is earlier
only when seconds do not fit; the callers then look at the clock again and wait on. -/
theorem C30_abs_timespec_sat (w : Nat) (hw : 0 < w) (now : Timespec) (n : Int) (hn : 0 ≤ n) (hnow : now.Normal)
    (hs : Fits w now.sec) :
    (absTimespecSat w now n).Normal ∧ Fits w (absTimespecSat w now n).sec ∧
    (absTimespecSat w now n).ns = if now.ns + n < 2 ^ (w - 1) * 1000000000 then now.ns + n
      else 2 ^ (w - 1) * 1000000000 - 1 := by
  have hp : (0 : Int) < 2 ^ (w - 1) := Int.pow_pos (by decide)
  obtain ⟨h1, h2⟩ := C30_abs_timespec w hw now n hn hnow hs
  unfold absTimespecSat
  cases h : absTimespec w now n with
  | none =>
    have := h2.1 h
    rw [if_neg (by omega), Option.getD_none]
    refine ⟨⟨?_, ?_⟩, ⟨?_, ?_⟩, ?_⟩ <;> simp only [Timespec.ns] <;> omega
  | some d =>
    obtain ⟨h3, h4, h5⟩ := h1 d h
    have : ¬ (2 ^ (w - 1) * 1000000000 ≤ now.ns + n) := fun hc => by rw [h2.2 hc] at h; cases h
    rw [Option.getD_some, if_pos (by omega)]
    exact ⟨h3, h4, h5⟩

/-- C30: the comparison of two normalised timespecs is the comparison of instants, and the computed remaining time is
their difference, so it is positive exactly when the deadline has not been reached. -/
theorem C30_reached (now d : Timespec) (h1 : now.Normal) (h2 : d.Normal) :
    (reached now d = true ↔ d.ns ≤ now.ns) ∧ remaining d now = d.ns - now.ns := by
  obtain ⟨a, b⟩ := h1
  obtain ⟨a', b'⟩ := h2
  constructor
  · simp only [reached, Bool.or_eq_true, Bool.and_eq_true, decide_eq_true_eq, Timespec.ns]
    omega
  · simp only [remaining, Timespec.ns]; omega

/-- C30: saturation of a positive number of units keeps it positive (zero would mean "no timeout" to the kernel) and
never lengthens it. -/
theorem C30_clamp (max n : Int) (hm : 0 < max) (hn : 0 < n) :
    0 < clamp max n ∧ clamp max n ≤ n ∧ clamp max n ≤ max ∧ (n ≤ max → clamp max n = n) := by
  unfold clamp; split <;> omega

/-! ### C31 -/

/-- Exactly when the deadline computation of `wait_for` in the futex and FreeBSD implementations is free of signed
overflow, for a non-negative timeout of `c` ticks of `num / den` nanoseconds. -/
theorem C31_futex_wait_for_iff (std : Bool) (num den c : Int) (w : Nat) (now : Timespec) (hn : 0 < num) (hd : 0 < den)
    (hc : 0 ≤ c) (hnow : now.Normal) (hs : 0 ≤ now.sec ∧ now.sec < 2 ^ 62) :
    (absTimespec? std num den w now c).isSome ↔
      c * num < 2 ^ 63 ∧ now.nsec + ceil std num den c < 2 ^ 63 := by
  have hp : 0 ≤ c * num := Int.mul_nonneg hc (by omega)
  obtain ⟨k1, k2⟩ := hnow
  have hce : 0 ≤ ceil std num den c ∧ ceil std num den c ≤ c * num := by
    have h : IsCeil num den c (ceil std num den c) := by
      cases std with
      | true => exact C30_ceil_std num den c hd
      | false => exact C30_ceil_fallback num den c hn hd hc
    obtain ⟨h1, h2⟩ := h
    have h3 : 0 ≤ ceil std num den c := by
      rcases Int.lt_or_le (ceil std num den c) 0 with h | h
      · have := Int.mul_neg_of_neg_of_pos h hd; omega
      · exact h
    refine ⟨h3, ?_⟩
    rcases Int.lt_or_le 0 (ceil std num den c) with h4 | h4
    · have : (ceil std num den c - 1) * 1 ≤ (ceil std num den c - 1) * den :=
        Int.mul_le_mul_of_nonneg_left (by omega) (by omega)
      omega
    · omega
  simp only [absTimespec?, ceil?, i64, bind, Option.bind, pure]
  by_cases h1 : c * num < 2 ^ 63
  · have f1 : Fits 64 (c * num) := by unfold Fits; omega
    have f2 : Fits 64 (ceil std num den c) := by unfold Fits; omega
    simp only [if_pos f1, if_pos f2]
    by_cases h2 : now.nsec + ceil std num den c < 2 ^ 63
    · have f3 : Fits 64 (now.nsec + ceil std num den c) := by unfold Fits; omega
      simp only [if_pos f3]
      obtain ⟨q, r, e1, e2, e3, e4, e5, e6, -⟩ :=
        tdiv_bounds (now.nsec + ceil std num den c) (b := 1000000000) (by decide)
      have f4 : Fits 64 (now.sec + q) := by unfold Fits; omega
      simp only [e1, if_pos f4]
      simp only [Option.isSome_some, h1, h2, and_self]
    · have f3 : ¬ Fits 64 (now.nsec + ceil std num den c) := by unfold Fits; omega
      simp only [if_neg f3]
      simp; omega
  · have f1 : ¬ Fits 64 (c * num) := by unfold Fits; omega
    simp only [if_neg f1]
    simp; omega

/-- C31, the provable part: no overflow for timeouts given in nanoseconds up to 2^63 - 10^9 (292 years). -/
theorem C31_futex_wait_for_partial (std : Bool) (c : Int) (w : Nat) (now : Timespec)
    (hc : 0 ≤ c) (hc2 : c ≤ 2 ^ 63 - 1000000000) (hnow : now.Normal) (hs : 0 ≤ now.sec ∧ now.sec < 2 ^ 62) :
    (absTimespec? std 1 1 w now c).isSome := by
  rw [C31_futex_wait_for_iff std 1 1 c w now (by decide) (by decide) hc hnow hs]
  have hce : ceil std 1 1 c = c := by
    have : ceil std 1 1 c = c + 0 := by cases std <;> simp [ceil, ceilStd, ceilFallback]
    omega
  rw [hce]
  obtain ⟨h1, h2⟩ := hnow
  omega

/-- C31 does not hold in full: there are non-negative timeouts representable in `std::chrono::nanoseconds` (for
example `nanoseconds::max()`) and clock values for which the computation overflows. -/
theorem C31_futex_wait_for_violated (std : Bool) (w : Nat) :
    ∃ c now, 0 ≤ c ∧ Fits 64 c ∧ now.Normal ∧ 0 ≤ now.sec ∧ now.sec < 2 ^ 62 ∧
      absTimespec? std 1 1 w now c = none := by
  refine ⟨9223372036854775807, ⟨1000, 1⟩, by decide, by decide, ⟨by decide, by decide⟩, by decide, by decide, ?_⟩
  cases std <;> rfl

/-- Exactly when `now + timeout` is free of signed overflow in the other implementations of `wait_for`. -/
theorem C31_deadline_iff (nnow nt now c : Int) (h1 : 0 < nnow) (h2 : 0 < nt) (hn : 0 ≤ now) (hc : 0 ≤ c) :
    (deadline? nnow nt now c).isSome ↔ now * nnow + c * nt < 2 ^ 63 := by
  have p1 : 0 ≤ now * nnow := Int.mul_nonneg hn (by omega)
  have p2 : 0 ≤ c * nt := Int.mul_nonneg hc (by omega)
  simp only [deadline?, i64, bind, Option.bind]
  by_cases h : now * nnow + c * nt < 2 ^ 63
  · have f1 : Fits 64 (now * nnow) := by unfold Fits; omega
    have f2 : Fits 64 (c * nt) := by unfold Fits; omega
    have f3 : Fits 64 (now * nnow + c * nt) := by unfold Fits; omega
    simp only [f1, f2, f3, if_true, Option.isSome_some, h]
  · by_cases f1 : Fits 64 (now * nnow) <;> by_cases f2 : Fits 64 (c * nt) <;>
      have f3 : ¬ Fits 64 (now * nnow + c * nt) := (by unfold Fits; omega) <;> simp [f1, f2, f3] <;> omega

/-- C31 does not hold for them either: `nanoseconds::max()` overflows as soon as the clock is not zero. -/
theorem C31_deadline_violated (now : Int) (h : 0 < now) :
    ∃ c, 0 ≤ c ∧ Fits 64 c ∧ deadline? 1 1 now c = none := by
  refine ⟨9223372036854775807, by decide, by decide, ?_⟩
  have := (C31_deadline_iff 1 1 now 9223372036854775807 (by decide) (by decide) (by omega) (by decide))
  cases hd : deadline? 1 1 now 9223372036854775807 with
  | none => rfl
  | some x => rw [hd] at this; simp at this; omega

/-- The pthread lock pool: the deadline computation overflows exactly when the nanoseconds do not fit. -/
theorem C31_pthread_wait_for_iff (w : Nat) (now : Timespec) (n : Int) (hn : 0 ≤ n) (hnow : now.Normal)
    (hs : 0 ≤ now.sec ∧ now.sec < 2 ^ 62) :
    (absTimespecSat? w now n).isSome ↔ now.nsec + n < 2 ^ 63 := by
  obtain ⟨k1, k2⟩ := hnow
  simp only [absTimespecSat?, i64, bind, Option.bind, pure]
  by_cases h2 : now.nsec + n < 2 ^ 63
  · have f3 : Fits 64 (now.nsec + n) := by unfold Fits; omega
    simp only [if_pos f3]
    obtain ⟨q, r, e1, e2, e3, e4, e5, e6, -⟩ := tdiv_bounds (now.nsec + n) (b := 1000000000) (by decide)
    have f4 : Fits 64 (now.sec + q) := by unfold Fits; omega
    simp only [e1, if_pos f4]
    simp only [Option.isSome_some, h2]
  · have f3 : ¬ Fits 64 (now.nsec + n) := by unfold Fits; omega
    simp only [if_neg f3]
    simp; omega

example : absTimespec? true 1000000 1 64 ⟨1000, 999999999⟩ 5 = some (some ⟨1001, 4999999⟩) := by decide

end Verif.Chrono
