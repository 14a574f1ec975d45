import Verif.Lemmas.Meeus
import Verif.Lemmas.Posix

/-!
# Properties C33 to C35: Gregorian dates and Julian days
-/

namespace Verif

/-! ## C33 -/

/-- C33, start of day, for the Gregorian leap rule: the JD of 1 January 1 is 1721423.5, it grows by
one from each day to the next (years up to a million, past or future), and converting back gives the
date. Missing from the full property: the way back after year 4713, which is wrong, see
`C33_late_years_negation`. -/
theorem C33_day_partial (y m d : ℤ) (hv : ValidG y m d) (h0 : -1000000 ≤ y) (h1 : y < 1000000) :
    jdFromGregorianExact ⟨1, 1, 1, []⟩ = .ok 1721423.5 ∧
    ∃ x, jdFromGregorianExact ⟨y, m, d, []⟩ = .ok x ∧
      jdFromGregorianExact ⟨(nextG y m d).1, (nextG y m d).2.1, (nextG y m d).2.2, []⟩ = .ok (x + 1) ∧
      (y ≤ 4713 → gregorianFromJdExact x = ⟨y, m, d, []⟩) := by
  refine ⟨by decide +kernel, (dayG y m d : ℚ) + 1721422.5, jdExact_day hv (by rw [abs_le]; omega), ?_, ?_⟩
  · have yr : (nextG y m d).1 = y ∨ (nextG y m d).1 = y + 1 := by
      unfold nextG
      split_ifs <;> simp
    have v := validG_next hv
    have e := dayG_next hv
    rw [jdExact_day v (by rw [abs_le]; omega), e]
    congr 1
    push_cast
    ring
  · intro hy
    have := gregorianFromJdExact_eq hv (t := 0) (j := 0) (by simp) le_rfl (by norm_num) h0 hy (Or.inl rfl)
    rw [add_zero] at this
    rw [this, add_zero]
    have d31 : 1 ≤ d ∧ d ≤ 31 := by
      obtain ⟨m1, m2, d1, d2⟩ := hv
      unfold specMonthLen at d2
      split_ifs at d2 <;> omega
    rw [pyRound_int d 12 (by rw [abs_le]; constructor <;> omega)]

/-- The last day of a leap year long ago. -/
example : ValidG (-204) 12 31 ∧ nextG (-204) 12 31 = (-203, 1, 1) := by decide +kernel

/-- C33, time of day, years 1 to 4713: the date comes back with the same day and the time of day
within 0.1 ms. Missing from the full property: equality of the time (binary64 JDs are 40 microseconds
apart), years outside 1 to 4713, and the last 0.1 ms of a day. -/
theorem C33_time_partial (y m d h mi : ℤ) (s : ℚ) (hv : ValidG y m d) (hy0 : 1 ≤ y) (hy1 : y ≤ 4713)
    (h0 : 0 ≤ h) (h1 : h ≤ 23) (mi0 : 0 ≤ mi) (mi1 : mi ≤ 59) (s0 : 0 ≤ s) (s1 : s ≤ 59.9999) :
    ∃ x f, jdFromGregorianExact ⟨y, m, d, [(h : ℚ), (mi : ℚ), s]⟩ = .ok x ∧
      gregorianFromJdExact x = ⟨y, m, f, []⟩ ∧
      ⌊f⌋ = d ∧ |86400 * (f - d) - (3600 * h + 60 * mi + s)| ≤ 1 / 10000 := by
  obtain ⟨j, j0, j1, e, er⟩ := jdExact_time hv hy0 hy1 h0 h1 mi0 mi1 s0 s1
  have := gregorianFromJdExact_eq hv (t := (j : ℚ) / 2 ^ 32) (j := j) rfl j0 j1 (by omega) hy1 (Or.inr hy0)
  refine ⟨_, _, e, this, ?_⟩
  have d31 : 1 ≤ d ∧ d ≤ 31 := by
    obtain ⟨m1, m2, d1, d2⟩ := hv
    unfold specMonthLen at d2
    split_ifs at d2 <;> omega
  have t0 : (0 : ℚ) ≤ (j : ℚ) / 2 ^ 32 := by positivity
  have dq0 : (1 : ℚ) ≤ d := by exact_mod_cast d31.1
  have dq1 : (d : ℚ) ≤ 31 := by exact_mod_cast d31.2
  have hq : (h : ℚ) ≤ 23 := by exact_mod_cast h1
  have mq : (mi : ℚ) ≤ 59 := by exact_mod_cast mi1
  norm_num at s1
  set t := (j : ℚ) / 2 ^ 32
  rw [abs_le] at er
  have pe := abs_le.mp (pyRound_err ((d : ℚ) + t) 12)
  rw [abs_of_nonneg (by linarith)] at pe
  have lo := pyRound_mono 12 (show (d : ℚ) ≤ d + t by linarith)
  rw [pyRound_int d 12 (by rw [abs_le]; constructor <;> omega)] at lo
  norm_num at pe
  constructor
  · rw [Int.floor_eq_iff]
    constructor <;> linarith
  · rw [abs_le]
    constructor <;> linarith

example : ValidG 2000 2 29 := by decide +kernel

/-- C33 is false after year 4713: 1 January 4715 comes back as day -333 of December. -/
theorem C33_late_years_negation :
    jdFromGregorianExact ⟨4715, 1, 1, []⟩ = .ok 3443175.5 ∧
    gregorianFromJdExact 3443175.5 = ⟨4715, 12, -333, []⟩ := by decide +kernel

/-- C33 is false for the 128 year rule (`alt=True`), because the validity check always uses the
Gregorian rule: 29 February 128 does not exist under the rule but is accepted and shares its JD with 1
March, and 29 February 100 exists but is refused. -/
theorem C33_alt_check_negation :
    ¬ SpecLeap128 128 ∧ SpecLeap128 100 ∧
    jdFromGregorianExact ⟨128, 2, 29, []⟩ true = jdFromGregorianExact ⟨128, 3, 1, []⟩ true ∧
    jdFromGregorianExact ⟨128, 3, 1, []⟩ true = .ok 1767868.5 ∧
    jdFromGregorianExact ⟨100, 2, 29, []⟩ true = .error .assertion := by decide +kernel

/-- C33 is also false on the way back with the 128 year rule: 31 December -128 becomes 30 November. -/
theorem C33_alt_back_negation :
    ∃ x, jdFromGregorianExact ⟨-128, 12, 31, []⟩ true = .ok x ∧
      gregorianFromJdExact x true = ⟨-128, 11, 30, []⟩ := ⟨1674671.5, by decide +kernel⟩

/-! ## C34 -/

/-- C34, the way from the JD: every date of the calendar in use (Julian until 4 October 1582, Gregorian
from 15 October 1582) within a million years has a JD that converts to it, and the next JD converts to the
next date. -/
theorem C34_from_jd (y m d : ℤ) (hv : ValidH y m d) (h0 : -1000000 ≤ y) (h1 : y < 1000000) :
    ∃ n : ℤ, gregorianFromJdMeeus ((n : ℚ) - 1 / 2) = ⟨y, m, d, []⟩ ∧
      gregorianFromJdMeeus ((n : ℚ) + 1 / 2) =
        ⟨(nextH y m d).1, (nextH y m d).2.1, (nextH y m d).2.2, []⟩ := by
  refine ⟨dayH y m d + 1720995, ?_, ?_⟩
  · rw [show ((dayH y m d + 1720995 : ℤ) : ℚ) - 1 / 2 = (dayH y m d : ℚ) + 1720994.5 by push_cast; ring]
    exact meeus_back_date hv (by rw [abs_le]; omega)
  · rw [show ((dayH y m d + 1720995 : ℤ) : ℚ) + 1 / 2 = ((dayH y m d + 1 : ℤ) : ℚ) + 1720994.5 by
      push_cast; ring, ← dayH_next hv]
    apply meeus_back_date (validH_next hv)
    rw [abs_le]
    unfold nextH
    split_ifs <;> simp only <;> omega

/-- The leap day of 1500, of the Julian calendar only. -/
example : ValidH 1500 2 29 ∧ nextH 1500 2 29 = (1500, 3, 1) ∧ nextH 1582 10 4 = (1582, 10, 15) := by
  decide +kernel

/-- C34, all whole days from the origin of the JD count (1 January 4713 BC) on: each one converts to a
date of the calendar in use, and the day after it to the date after it. -/
theorem C34_every_jd (n : ℕ) (hn : n ≤ 300000000) :
    ∃ y m d, ValidH y m d ∧ -4712 ≤ y ∧ gregorianFromJdMeeus ((n : ℚ) - 1 / 2) = ⟨y, m, d, []⟩ ∧
      gregorianFromJdMeeus ((n : ℚ) + 1 / 2) =
        ⟨(nextH y m d).1, (nextH y m d).2.1, (nextH y m d).2.2, []⟩ ∧
      (n = 0 → (y, m, d) = (-4712, 1, 1)) := by
  have key : ∀ n : ℕ, n ≤ 300000000 → ∃ y m d, ValidH y m d ∧ -4712 ≤ y ∧
      dayH y m d + 1720995 = n ∧ (n = 0 → (y, m, d) = (-4712, 1, 1)) := by
    intro n
    induction n with
    | zero =>
      intro _
      exact ⟨-4712, 1, 1, by decide +kernel, le_refl _, by decide +kernel, fun _ => rfl⟩
    | succ k ih =>
      intro hk
      obtain ⟨y, m, d, v, y0, e, -⟩ := ih (by omega)
      refine ⟨_, _, _, validH_next v, ?_, ?_, fun h => by omega⟩
      · unfold nextH
        split_ifs <;> simp only <;> omega
      · rw [dayH_next v]; push_cast; omega
  obtain ⟨y, m, d, v, y0, e, z⟩ := key n hn
  have hy : y < 1000000 := by
    by_contra hc
    obtain ⟨m1, m2, d1, -⟩ := v
    have mt : ∀ mo ∈ Finset.Icc (3 : ℤ) 14, -1000 ≤ mTab mo ∧ mTab mo ≤ 1000 := by decide +kernel
    have := mt (shM m) (by unfold shM; simp; split_ifs <;> omega)
    unfold dayH dayM mB at e
    have sy : y - 1 ≤ shY y m := by unfold shY; split_ifs <;> omega
    split_ifs at e <;> omega
  have eq1 : (n : ℚ) = ((dayH y m d + 1720995 : ℤ) : ℚ) := by rw [e]; push_cast; rfl
  refine ⟨y, m, d, v, y0, ?_, ?_, z⟩
  · rw [eq1, show ((dayH y m d + 1720995 : ℤ) : ℚ) - 1 / 2 = (dayH y m d : ℚ) + 1720994.5 by push_cast; ring]
    exact meeus_back_date v (by rw [abs_le]; omega)
  · rw [eq1, show ((dayH y m d + 1720995 : ℤ) : ℚ) + 1 / 2 = ((dayH y m d + 1 : ℤ) : ℚ) + 1720994.5 by
      push_cast; ring, ← dayH_next v]
    apply meeus_back_date (validH_next v)
    rw [abs_le]
    unfold nextH
    split_ifs <;> simp only <;> omega

/-- C34, the round trip, and one JD per day. Missing from the full property: the leap days of the
Julian calendar that the Gregorian rule does not know, which are refused, see
`C34_julian_leap_day_negation`. -/
theorem C34_round_trip_partial (y m d : ℤ) (hv : ValidH y m d) (hg : ValidG y m d) (h0 : -1000000 ≤ y)
    (h1 : y < 1000000) :
    ∃ x, jdFromGregorianMeeus ⟨y, m, d, []⟩ = .ok x ∧ gregorianFromJdMeeus x = ⟨y, m, d, []⟩ ∧
      (ValidG (nextH y m d).1 (nextH y m d).2.1 (nextH y m d).2.2 →
        jdFromGregorianMeeus ⟨(nextH y m d).1, (nextH y m d).2.1, (nextH y m d).2.2, []⟩ = .ok (x + 1)) := by
  have v := hv.2.2.2.2
  refine ⟨_, meeus_fwd hg (by rw [abs_le]; omega) v, meeus_back_date hv (by rw [abs_le]; omega), ?_⟩
  intro hn
  rw [meeus_fwd hn _ (validH_next hv).2.2.2.2, dayH_next hv]
  · congr 1
    push_cast
    ring
  · rw [abs_le]
    unfold nextH
    split_ifs <;> simp only <;> omega

example : ValidH 1582 10 4 ∧ ValidG 1582 10 4 ∧ ValidG 1582 10 15 ∧
    jdFromGregorianMeeus ⟨1582, 10, 4, []⟩ = .ok 2299159.5 := by decide +kernel

/-- C34 is false on the leap days of the Julian calendar in the century years: 29 February 1500 has a JD
but is refused. -/
theorem C34_julian_leap_day_negation :
    ValidH 1500 2 29 ∧ jdFromGregorianMeeus ⟨1500, 2, 29, []⟩ = .error .assertion ∧
    gregorianFromJdMeeus 2268991.5 = ⟨1500, 2, 29, []⟩ := by decide +kernel

/-- C34: the days 5 to 14 October 1582 are refused only at midnight; noon of 5 October is accepted
and shares its JD with noon of 15 October. -/
theorem C34_lost_days_negation :
    jdFromGregorianMeeus ⟨1582, 10, 5, []⟩ = .error .assertion ∧
    jdFromGregorianMeeus ⟨1582, 10, 5, [12]⟩ = .ok 2299161 ∧
    jdFromGregorianMeeus ⟨1582, 10, 15, [12]⟩ = .ok 2299161 := by decide +kernel

/-! ## C35 -/

/-- C35: the date and the time of a timestamp, on every day but 31 December, where the call fails. The
seconds are right to a microsecond. Missing from the full property: 31 December. -/
theorem C35_timestamp_partial (t : ℚ) (ht : IsF64 t) (h0 : 0 ≤ t) (h1 : t < 2 ^ 53) (y m d : ℤ)
    (hd : (y, m, d) = (fun g : ℤ × ℤ × ℤ => nextG g.1 g.2.1 g.2.2)^[⌊t / 86400⌋.toNat] (1970, 1, 1)) :
    (¬ (m = 12 ∧ d = 31) → ∃ (h mi : ℤ) (s : ℚ),
      posixTimestamp t = .ok ⟨y, m, d, [(h : ℚ), (mi : ℚ), s]⟩ ∧
      0 ≤ h ∧ h < 24 ∧ 0 ≤ mi ∧ mi < 60 ∧ 0 ≤ s ∧ s ≤ 60 ∧
      |86400 * (⌊t / 86400⌋ : ℚ) + 3600 * h + 60 * mi + s - t| ≤ 1 / 1000000) ∧
    (m = 12 ∧ d = 31 → posixTimestamp t = .error .assertion) := by
  have k0 : 0 ≤ ⌊t / 86400⌋ := Int.floor_nonneg.mpr (by positivity)
  obtain ⟨hv, hN⟩ := iterate_nextG ⌊t / 86400⌋.toNat hd
  rw [Int.toNat_of_nonneg k0] at hN
  obtain ⟨Y, e, a, y0, b, c⟩ := posix_date k0 hv hN
  obtain ⟨h, mi, s, f1, f2, f3, f4, r1, r2, r3, r4, r5, r6, r7⟩ := posix_time ht h0 h1
  have et : fl (t + fl (0 * 3600)) = t := by rw [zero_mul, fl_zero, add_zero]; exact ht
  unfold posixTimestamp
  simp only [et, f1, abs_of_nonneg k0, a, f2, f3, f4]
  constructor
  · intro hn
    obtain ⟨rfl, g⟩ := b hn
    refine ⟨h, mi, s, ?_, r1, r2, r3, r4, r5, r6, r7⟩
    rw [g]
    simp only
    rw [checkGregorian_hist (by simp only; omega), checkGregorian_ok hv r2 r4]
    rfl
  · intro hl
    rw [c hl]
    simp only
    have : checkGregorian ⟨Y, 1, ((0 : ℤ) : ℚ), [(h : ℚ), (mi : ℚ), s]⟩ true = .error .assertion := by
      unfold checkGregorian
      simp [pyAssert]
      rfl
    rw [this]
    rfl

/-- A quarter past the second on 28 February 1970. -/
example : IsF64 5022345.25 ∧ (1970, 2, 28) = (fun g : ℤ × ℤ × ℤ => nextG g.1 g.2.1 g.2.2)^[
    ⌊(5022345.25 : ℚ) / 86400⌋.toNat] (1970, 1, 1) := by unfold IsF64; decide +kernel

/-- C35 is false on 31 December: the first second of 31 December 1970 is refused. -/
theorem C35_december_31_negation :
    posixTimestamp 31449600 = .error .assertion ∧ posixTimestamp 31449599
      = .ok ⟨1970, 12, 30, [23, 59, 59]⟩ := by decide +kernel

end Verif
