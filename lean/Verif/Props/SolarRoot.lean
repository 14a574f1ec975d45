import Verif.Lemmas.SolarRoot
import Verif.Props.Solar

/-!
# C75: at the time found the sun is on the horizon

The coordinates of the sun are those of the library, interpolated between three days. The altitude and the hour angle are
stated here from the textbook.
-/

namespace Verif

open Real

/-- The hour angle of the sun, in radians, at the part `t` of the day that starts at `jd`: sidereal time at Greenwich, which
gains 0.98564736629 degrees a day, plus longitude less right ascension. -/
noncomputable def sunHourAngle (jd : ℚ) (lon t : ℝ) : ℝ :=
  (Solar.apparentSiderealTime (Solar.julianCenturies jd) + 360.98564736629 * t + lon -
    Solar.interpolatedAscension (Solar.julianCenturies jd) (t + (Solar.deltaT jd : ℝ) / 86400)) * (π / 180)

/-- The sine of the altitude of the sun, by the law of cosines of the sphere. -/
noncomputable def sinAltitude (jd : ℚ) (lat lon t : ℝ) : ℝ :=
  sin (lat * (π / 180)) *
    sin (Solar.interpolatedDeclination (Solar.julianCenturies jd) (t + (Solar.deltaT jd : ℝ) / 86400) * (π / 180)) +
  cos (lat * (π / 180)) *
    cos (Solar.interpolatedDeclination (Solar.julianCenturies jd) (t + (Solar.deltaT jd : ℝ) / 86400) * (π / 180)) *
    cos (sunHourAngle jd lon t)

theorem localHourAngle_turn (srt lon a : ℝ) : ∃ k : ℤ, Solar.localHourAngle srt lon a = srt + lon - a - 360 * k := by
  unfold Solar.localHourAngle
  obtain ⟨k, e, -, -⟩ := Solar.coterminal_spec (srt + lon - a)
  split_ifs
  · refine ⟨k + 1, ?_⟩
    rw [e]
    push_cast
    ring
  · exact ⟨k, e⟩

theorem dayHourAngle_turn (jd : ℚ) (lon t : ℝ) : Solar.cosDeg (Solar.dayHourAngle jd lon t) = cos (sunHourAngle jd lon t) ∧
    Solar.sinDeg (Solar.dayHourAngle jd lon t) = sin (sunHourAngle jd lon t) := by
  unfold Solar.dayHourAngle Solar.hourAngleAt
  obtain ⟨k, e⟩ := localHourAngle_turn
    (Solar.apparentSiderealTime (Solar.julianCenturies jd) + 360.98564736629 * t) lon
    (Solar.interpolatedAscension (Solar.julianCenturies jd) (t + (Solar.deltaT jd : ℝ) / 86400))
  rw [e, Solar.cosDeg_turn, Solar.sinDeg_turn]
  exact ⟨rfl, rfl⟩

theorem root_spec {jd : ℚ} {lat lon t : ℝ}
    (h : Solar.altitude (Solar.dayDeclination jd t) lat (Solar.dayHourAngle jd lon t) = -Solar.sunOffset) :
    sinAltitude jd lat lon t = sin (-0.8333 * (π / 180)) := by
  have e : Solar.altitude (Solar.dayDeclination jd t) lat (Solar.dayHourAngle jd lon t) =
      Solar.degrees (arcsin (sinAltitude jd lat lon t)) := by
    unfold Solar.altitude
    rw [(dayHourAngle_turn jd lon t).1]
    rfl
  rw [e] at h
  have h2 : arcsin (sinAltitude jd lat lon t) = Solar.radians (-Solar.sunOffset) := by
    rw [← h, Solar.radians_degrees]
  have h3 : Solar.radians (-Solar.sunOffset) = -0.8333 * (π / 180) := by
    unfold Solar.radians Solar.sunOffset
    ring
  rw [h3] at h2
  have hpi := pi_pos
  have b0 : -(π / 2) < arcsin (sinAltitude jd lat lon t) := by rw [h2]; linarith
  have b1 : arcsin (sinAltitude jd lat lon t) < π / 2 := by rw [h2]; linarith
  rw [neg_pi_div_two_lt_arcsin] at b0
  rw [arcsin_lt_pi_div_two] at b1
  rw [← h2, sin_arcsin b0.le b1.le]

theorem sin_side {x : ℝ} (h0 : 69 ≤ x) (h1 : x ≤ 113) : 0 < Solar.sinDeg x := by
  unfold Solar.sinDeg Solar.radians
  have hpi := pi_pos
  apply sin_pos_of_pos_of_lt_pi
  · positivity
  · have := mul_le_mul_of_nonneg_right h1 (show 0 ≤ π / 180 by positivity)
    linarith

/-- C75, sunset: within two and a half seconds of the time found there is a moment at which the centre of the sun is 0.8333
degrees below the horizon, in the west. -/
theorem C75_sunset {lat lon : ℚ} (hlat : |lat| ≤ 36) (hlon : |lon| ≤ 180) {D : ℤ} (h0 : eraFirst ≤ D) (h1 : D ≤ eraLast) :
    ∃ t : ℝ, |Solar.risingSetting (localMidnight lon D) lat lon Solar.sunOffset true - t| ≤ 2.4 / 86400 ∧
      sinAltitude (localMidnight lon D) lat lon t = sin (-0.8333 * (π / 180)) ∧
      0 < sin (sunHourAngle (localMidnight lon D) lon t) := by
  have hl : |(lat : ℝ)| ≤ 36 := by exact_mod_cast hlat
  obtain ⟨t, a, b, c, d⟩ := Solar.risingSetting_root (localMidnight_near hlon h0 h1) hl true
  refine ⟨t, a.trans (by norm_num), root_spec b, ?_⟩
  rw [← (dayHourAngle_turn _ _ t).2]
  simp only [if_true, one_mul] at c d
  exact sin_side c d

/-- C75, sunrise: the same in the east. -/
theorem C75_sunrise {lat lon : ℚ} (hlat : |lat| ≤ 36) (hlon : |lon| ≤ 180) {D : ℤ} (h0 : eraFirst ≤ D) (h1 : D ≤ eraLast) :
    ∃ t : ℝ, |Solar.risingSetting (localMidnight lon D) lat lon Solar.sunOffset false - t| ≤ 2.4 / 86400 ∧
      sinAltitude (localMidnight lon D) lat lon t = sin (-0.8333 * (π / 180)) ∧
      sin (sunHourAngle (localMidnight lon D) lon t) < 0 := by
  have hl : |(lat : ℝ)| ≤ 36 := by exact_mod_cast hlat
  obtain ⟨t, a, b, c, d⟩ := Solar.risingSetting_root (localMidnight_near hlon h0 h1) hl false
  refine ⟨t, a.trans (by norm_num), root_spec b, ?_⟩
  rw [← (dayHourAngle_turn _ _ t).2]
  simp only [Bool.false_eq_true, if_false, neg_one_mul] at c d
  have := sin_side c d
  unfold Solar.sinDeg at this ⊢
  rw [Solar.radians_neg, sin_neg] at this
  linarith

/-- The first day of the year 1 in Tehran. -/
example : ∃ t : ℝ, |Solar.risingSetting (localMidnight tehranLon 2394647) tehranLat tehranLon Solar.sunOffset true - t| ≤
      2.4 / 86400 ∧ sinAltitude (localMidnight tehranLon 2394647) tehranLat tehranLon t = sin (-0.8333 * (π / 180)) := by
  obtain ⟨t, a, b, -⟩ := C75_sunset (lat := tehranLat) (lon := tehranLon) (by decide +kernel) (by decide +kernel)
    (D := 2394647) (by decide) (by decide)
  exact ⟨t, a, b⟩

/-- A day south of the equator. -/
example : ∃ t : ℝ, |Solar.risingSetting (localMidnight 151 2461000) (-33 : ℚ) (151 : ℚ) Solar.sunOffset false - t| ≤
      2.4 / 86400 := by
  obtain ⟨t, a, -⟩ := C75_sunrise (lat := -33) (lon := 151) (by decide +kernel) (by decide +kernel) (D := 2461000) (by decide)
    (by decide)
  exact ⟨t, a⟩

end Verif
