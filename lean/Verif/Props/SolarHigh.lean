import Verif.Lemmas.SolarJune
import Verif.Lemmas.SolarOnly
import Verif.Props.SolarRoot
import Verif.Spec.Place

/-!
# C74 up to 60 degrees from the equator, and C113: a sunset is found only where the sun sets
-/

namespace Verif

open Real

/-- C74, sunset, up to 60 degrees from the equator: between 14:11 and 22:13 local mean time. -/
theorem C74_sunset_60 {lat lon : ℚ} (hlat : |lat| ≤ 60) (hlon : |lon| ≤ 180) {D : ℤ} (h0 : eraFirst ≤ D) (h1 : D ≤ eraLast) :
    clockTime 14 11 ≤ Solar.risingSetting (localMidnight lon D) lat lon Solar.sunOffset true ∧
    Solar.risingSetting (localMidnight lon D) lat lon Solar.sunOffset true ≤ clockTime 22 13 := by
  have hl : |(lat : ℝ)| ≤ 60 := by exact_mod_cast hlat
  obtain ⟨a, b⟩ := Solar.setting_bounds_high (localMidnight_near hlon h0 h1) hl
  unfold clockTime
  constructor <;> norm_num at * <;> linarith

/-- C74, sunrise, up to 60 degrees from the equator: between 1:47 and 9:49. -/
theorem C74_sunrise_60 {lat lon : ℚ} (hlat : |lat| ≤ 60) (hlon : |lon| ≤ 180) {D : ℤ} (h0 : eraFirst ≤ D) (h1 : D ≤ eraLast) :
    clockTime 1 47 ≤ Solar.risingSetting (localMidnight lon D) lat lon Solar.sunOffset false ∧
    Solar.risingSetting (localMidnight lon D) lat lon Solar.sunOffset false ≤ clockTime 9 49 := by
  have hl : |(lat : ℝ)| ≤ 60 := by exact_mod_cast hlat
  obtain ⟨a, b⟩ := Solar.rising_bounds_high (localMidnight_near hlon h0 h1) hl
  unfold clockTime
  constructor <;> norm_num at * <;> linarith

/-- C74, the hypothesis of the theorems about any place: up to 60 degrees from the equator an oracle within ten minutes of the
exact reading has all its sunsets in the afternoon, and away from midnight. -/
theorem C74_sunsets_60 {A : Astro} {lat lon : ℚ} (hlat : |lat| ≤ 60) (hlon : |lon| ≤ 180) (hA : NearExact A lat lon) :
    SunSets A lat lon ∧ ∀ D : ℤ, eraFirst ≤ D → D ≤ eraLast → 58 / 100 ≤ sunsetTime A lat lon D := by
  have key : ∀ D : ℤ, eraFirst ≤ D → D ≤ eraLast → 58 / 100 ≤ sunsetTime A lat lon D ∧ sunsetTime A lat lon D ≤ 99 / 100 := by
    intro D h0 h1
    obtain ⟨a, b⟩ := C74_sunset_60 hlat hlon h0 h1
    have c := abs_le.mp (hA D h0 h1)
    unfold sunsetTime
    unfold clockTime at a b
    have d0 : ((58 / 100 : ℚ) : ℝ) ≤ A.setFrac (localMidnight lon D) lat lon := by norm_num at a b c ⊢; linarith [c.1]
    have d1 : (A.setFrac (localMidnight lon D) lat lon : ℝ) ≤ ((99 / 100 : ℚ) : ℝ) := by norm_num at a b c ⊢; linarith [c.2]
    exact ⟨by exact_mod_cast d0, by exact_mod_cast d1⟩
  refine ⟨fun D h0 h1 => ?_, fun D h0 h1 => (key D h0 h1).1⟩
  obtain ⟨a, b⟩ := key D h0 h1
  exact ⟨by linarith, b⟩

/-! ## C113 -/

theorem sinAltitude_eq (jd : ℚ) (lat lon t : ℝ) : sinAltitude jd lat lon t =
    Solar.sinDeg lat * Solar.sinDeg (Solar.dayDeclination jd t) +
      Solar.cosDeg lat * Solar.cosDeg (Solar.dayDeclination jd t) * Solar.cosDeg (Solar.dayHourAngle jd lon t) := by
  rw [(dayHourAngle_turn jd lon t).1]
  rfl

theorem sinAltitude_continuous (jd : ℚ) (lat lon : ℝ) : Continuous (fun t => sinAltitude jd lat lon t) := by
  unfold sinAltitude sunHourAngle Solar.interpolatedDeclination Solar.interpolatedAscension Solar.interpolation
  simp only [Bool.false_eq_true, if_false, if_true]
  fun_prop

/-- Between two moments on either side of the horizon there is one on it. -/
theorem crossing_between {jd : ℚ} {lat lon c u v : ℝ} (hu : c < sinAltitude jd lat lon u) (hv : sinAltitude jd lat lon v < c) :
    ∃ t, min u v ≤ t ∧ t ≤ max u v ∧ sinAltitude jd lat lon t = c := by
  have cont := (sinAltitude_continuous jd lat lon).continuousOn (s := Set.uIcc u v)
  have := intermediate_value_uIcc cont
  have mem : c ∈ Set.uIcc (sinAltitude jd lat lon u) (sinAltitude jd lat lon v) := by
    rw [Set.mem_uIcc]
    right
    exact ⟨hv.le, hu.le⟩
  obtain ⟨t, ht, e⟩ := this mem
  exact ⟨t, ht.1, ht.2, e⟩

theorem crossing_near {jd : ℚ} {lat lon : ℝ} {D : ℤ} (h : Solar.AtMidnight jd lon D) (hl : |lat| ≤ 60) {s : ℝ}
    (hs : s = 1 ∨ s = -1) : ∃ t, Solar.NearHigh jd lat lon s t ∧ sinAltitude jd lat lon t = Solar.sinDeg (-Solar.sunOffset) := by
  set k := Solar.approxHourAngle (Solar.julianCenturies jd) lat Solar.sunOffset with hk
  have at4 : ∀ c : ℝ, s * (360 * (Solar.transit jd lon + s * ((k + c) / 360) - Solar.transit jd lon)) - k = c := by
    intro c
    rcases hs with rfl | rfl <;> ring
  have near4 : ∀ c : ℝ, |c| ≤ 4 → Solar.NearHigh jd lat lon s (Solar.transit jd lon + s * ((k + c) / 360)) := by
    intro c hc
    unfold Solar.NearHigh
    rw [← hk, at4]
    exact hc
  have up := (Solar.side_altitude h hl hs (near4 (-4) (by norm_num))).2 (at4 _)
  have dn := (Solar.side_altitude h hl hs (near4 4 (by norm_num))).1 (at4 _)
  rw [← sinAltitude_eq] at up dn
  obtain ⟨t, t0, t1, e⟩ := crossing_between up dn
  refine ⟨t, ?_, e⟩
  unfold Solar.NearHigh
  rw [← hk, abs_le]
  rcases hs with rfl | rfl
  · rw [min_eq_left (by linarith)] at t0
    rw [max_eq_right (by linarith)] at t1
    constructor <;> linarith
  · rw [min_eq_right (by linarith)] at t0
    rw [max_eq_left (by linarith)] at t1
    constructor <;> linarith

theorem sin_pos_high {jd : ℚ} {lat lon : ℝ} {D : ℤ} (h : Solar.AtMidnight jd lon D) (hl : |lat| ≤ 60) {s : ℝ}
    (hs : s = 1 ∨ s = -1) {t : ℝ} (ht : Solar.NearHigh jd lat lon s t) : 0 < s * sin (sunHourAngle jd lon t) := by
  obtain ⟨-, -, hsin, -, -, -⟩ := Solar.near_point_high h hl hs ht
  rw [← (dayHourAngle_turn jd lon t).2]
  have e : s * Solar.sinDeg (Solar.dayHourAngle jd lon t) = Solar.sinDeg (s * Solar.dayHourAngle jd lon t) := by
    rcases hs with rfl | rfl
    · rw [one_mul, one_mul]
    · unfold Solar.sinDeg
      rw [neg_one_mul, neg_one_mul, Solar.radians_neg, sin_neg]
  rw [e]
  exact lt_of_lt_of_le (by norm_num) hsin

/-- The time found is within 0.3 seconds of the crossing. -/
theorem found_near {jd : ℚ} {lat lon : ℝ} {D : ℤ} (h : Solar.AtMidnight jd lon D) (hl : |lat| ≤ 60) (b : Bool) {t : ℝ}
    (ht : Solar.NearHigh jd lat lon (if b then 1 else -1) t)
    (root : sinAltitude jd lat lon t = Solar.sinDeg (-Solar.sunOffset)) :
    |Solar.risingSetting jd lat lon Solar.sunOffset b - t| ≤ 0.3 / 86400 := by
  set s : ℝ := if b then 1 else -1 with hs'
  have hs : s = 1 ∨ s = -1 := by cases b <;> simp [hs']
  set m := Solar.transit jd lon + s * (Solar.approxHourAngle (Solar.julianCenturies jd) lat Solar.sunOffset / 360) with hm
  have e0 : s * (360 * (m - Solar.transit jd lon)) = Solar.approxHourAngle (Solar.julianCenturies jd) lat Solar.sunOffset := by
    rw [hm]
    rcases hs with h | h <;> rw [h] <;> ring
  have n1 : Solar.NearHigh jd lat lon s m := by
    unfold Solar.NearHigh
    rw [e0, sub_self, abs_zero]
    norm_num
  have b0 : |m - t| ≤ 4 / 360 := by
    unfold Solar.NearHigh at ht
    rw [← e0] at ht
    rw [abs_le] at *
    rcases hs with h | h <;> rw [h] at ht <;> constructor <;> linarith
  rw [sinAltitude_eq] at root
  have n2 := Solar.refine_near_high h hl hs 3 _ n1
  have n3 := Solar.refine_root_high h hl hs n1 ht root b0
  have e : Solar.risingSetting jd lat lon Solar.sunOffset b = Solar.mod1 (Solar.refineTime (Solar.julianCenturies jd)
      (Solar.apparentSiderealTime (Solar.julianCenturies jd)) (Solar.deltaT jd : ℝ) lat lon Solar.sunOffset 3 m) := by
    unfold Solar.risingSetting
    simp only [hm]
    cases b
    · simp only [hs', Bool.false_eq_true, if_false]
      rw [neg_one_mul, ← sub_eq_add_neg]
    · simp only [hs', if_true, one_mul]
  rw [e]
  obtain ⟨r0, r1, -, -⟩ := Solar.near_time_high h hl hs n2
  rw [Solar.mod1_eq (y := _) (k := 0) (by simp; rfl) (by norm_num at *; linarith) (by norm_num at *; linarith)]
  exact n3

theorem offset_sine : Solar.sinDeg (-Solar.sunOffset) = sin (-0.8333 * (π / 180)) := by
  unfold Solar.sinDeg Solar.radians Solar.sunOffset
  congr 1

/-- C75, sunset, up to 60 degrees from the equator: within 0.3 seconds of the time found there is a moment at which the centre of
the sun is 0.8333 degrees below the horizon, in the west. -/
theorem C75_sunset_60 {lat lon : ℚ} (hlat : |lat| ≤ 60) (hlon : |lon| ≤ 180) {D : ℤ} (h0 : eraFirst ≤ D) (h1 : D ≤ eraLast) :
    ∃ t : ℝ, |Solar.risingSetting (localMidnight lon D) lat lon Solar.sunOffset true - t| ≤ 0.3 / 86400 ∧
      sinAltitude (localMidnight lon D) lat lon t = sin (-0.8333 * (π / 180)) ∧
      0 < sin (sunHourAngle (localMidnight lon D) lon t) := by
  have hl : |(lat : ℝ)| ≤ 60 := by exact_mod_cast hlat
  have hm := localMidnight_near hlon h0 h1
  obtain ⟨t, n, e⟩ := crossing_near hm hl (s := 1) (Or.inl rfl)
  refine ⟨t, found_near hm hl true (by simpa only [if_true] using n) e, e.trans offset_sine, ?_⟩
  have := sin_pos_high hm hl (Or.inl rfl) n
  linarith

/-- C75, sunrise, up to 60 degrees from the equator: the same in the east. -/
theorem C75_sunrise_60 {lat lon : ℚ} (hlat : |lat| ≤ 60) (hlon : |lon| ≤ 180) {D : ℤ} (h0 : eraFirst ≤ D) (h1 : D ≤ eraLast) :
    ∃ t : ℝ, |Solar.risingSetting (localMidnight lon D) lat lon Solar.sunOffset false - t| ≤ 0.3 / 86400 ∧
      sinAltitude (localMidnight lon D) lat lon t = sin (-0.8333 * (π / 180)) ∧
      sin (sunHourAngle (localMidnight lon D) lon t) < 0 := by
  have hl : |(lat : ℝ)| ≤ 60 := by exact_mod_cast hlat
  have hm := localMidnight_near hlon h0 h1
  obtain ⟨t, n, e⟩ := crossing_near hm hl (s := -1) (Or.inr rfl)
  refine ⟨t, found_near hm hl false (by simpa only [Bool.false_eq_true, if_false] using n) e, e.trans offset_sine, ?_⟩
  have := sin_pos_high hm hl (Or.inr rfl) n
  linarith

/-- C75, the other way round, up to 60 degrees from the equator: every moment of the day at which the centre of the sun is 0.8333
degrees below the horizon is within 0.3 seconds of the sunset found, if the sun is then in the west, or of the sunrise found,
if it is in the east; and it is in one of the two. -/
theorem C75_only {lat lon : ℚ} (hlat : |lat| ≤ 60) (hlon : |lon| ≤ 180) {D : ℤ} (h0 : eraFirst ≤ D) (h1 : D ≤ eraLast) {t : ℝ}
    (t0 : 0 ≤ t) (t1 : t ≤ 1) (ht : sinAltitude (localMidnight lon D) lat lon t = sin (-0.8333 * (π / 180))) :
    (0 < sin (sunHourAngle (localMidnight lon D) lon t) ∧
      |Solar.risingSetting (localMidnight lon D) lat lon Solar.sunOffset true - t| ≤ 0.3 / 86400) ∨
    (sin (sunHourAngle (localMidnight lon D) lon t) < 0 ∧
      |Solar.risingSetting (localMidnight lon D) lat lon Solar.sunOffset false - t| ≤ 0.3 / 86400) := by
  have hl : |(lat : ℝ)| ≤ 60 := by exact_mod_cast hlat
  have hm := localMidnight_near hlon h0 h1
  rw [← offset_sine] at ht
  have root := ht
  rw [sinAltitude_eq] at root
  rcases Solar.root_near hm hl t0 t1 root with ⟨a, n⟩ | ⟨a, n⟩ <;> rw [(dayHourAngle_turn _ _ t).2] at a
  · exact Or.inl ⟨a, found_near hm hl true (by simpa only [if_true] using n) ht⟩
  · exact Or.inr ⟨a, found_near hm hl false (by simpa only [Bool.false_eq_true, if_false] using n) ht⟩

/-- Such moments exist in London on the longest day. -/
example : ∃ t : ℝ, 0 ≤ t ∧ t ≤ 1 ∧
    sinAltitude (localMidnight (-0.1) 2460848) (51.5 : ℚ) (-0.1 : ℚ) t = sin (-0.8333 * (π / 180)) := by
  obtain ⟨t, a, b, -⟩ := C75_sunset_60 (lat := 51.5) (lon := -0.1) (by decide +kernel) (by decide +kernel) (D := 2460848)
    (by decide) (by decide)
  obtain ⟨c, d⟩ := C74_sunset_60 (lat := 51.5) (lon := -0.1) (by decide +kernel) (by decide +kernel) (D := 2460848)
    (by decide) (by decide)
  unfold clockTime at c d
  push_cast at c d
  rw [abs_le] at a
  refine ⟨t, ?_, ?_, b⟩ <;> norm_num at * <;> linarith

/-- C113, up to 60 degrees from the equator: on every day of the era, within 0.3 seconds of the time found for the sunset the
sun does cross the horizon in the west, and within 0.3 seconds of that found for the sunrise it does in the east. -/
theorem C113_crossing_partial {lat lon : ℚ} (hlat : |lat| ≤ 60) (hlon : |lon| ≤ 180) {D : ℤ} (h0 : eraFirst ≤ D)
    (h1 : D ≤ eraLast) :
    (∃ t : ℝ, |Solar.risingSetting (localMidnight lon D) lat lon Solar.sunOffset true - t| ≤ 0.3 / 86400 ∧
      sinAltitude (localMidnight lon D) lat lon t = sin (-0.8333 * (π / 180)) ∧
      0 < sin (sunHourAngle (localMidnight lon D) lon t)) ∧
    (∃ t : ℝ, |Solar.risingSetting (localMidnight lon D) lat lon Solar.sunOffset false - t| ≤ 0.3 / 86400 ∧
      sinAltitude (localMidnight lon D) lat lon t = sin (-0.8333 * (π / 180)) ∧
      sin (sunHourAngle (localMidnight lon D) lon t) < 0) :=
  ⟨C75_sunset_60 hlat hlon h0 h1, C75_sunrise_60 hlat hlon h0 h1⟩

/-- C113 is false in the north: on 21 June 2025, anywhere from 66 degrees north up to the pole, the sun is up all day,
and `_rising_setting` still gives a time of sunset and one of sunrise. -/
theorem C113_midnight_sun_negation {lat lon : ℚ} (l0 : 66 ≤ lat) (l1 : lat < 90) (hlon : |lon| ≤ 180) :
    (∀ t : ℝ, 0 ≤ t → t ≤ 1 → sin (-0.8333 * (π / 180)) < sinAltitude (localMidnight lon 2460848) lat lon t) ∧
    ∀ b : Bool, 0 ≤ Solar.risingSetting (localMidnight lon 2460848) lat lon Solar.sunOffset b ∧
      Solar.risingSetting (localMidnight lon 2460848) lat lon Solar.sunOffset b < 1 := by
  have hm := localMidnight_near hlon (D := 2460848) (by decide) (by decide)
  obtain ⟨-, hd⟩ := Solar.midnight_tc hm
  have dd := abs_le.mp (Solar.time_shift hd)
  have l0' : (66 : ℝ) ≤ lat := by exact_mod_cast l0
  have l1' : (lat : ℝ) ≤ 90 := by exact_mod_cast l1.le
  have hpi := pi_pos
  constructor
  · intro t t0 t1
    obtain ⟨d0, d1⟩ := Solar.june_declination hm (n := t + (Solar.deltaT (localMidnight lon 2460848) : ℝ) / 86400) (by
      rw [abs_le]
      constructor <;> norm_num at * <;> linarith)
    rw [sinAltitude_eq]
    change 23.18 ≤ Solar.dayDeclination (localMidnight lon 2460848) t at d0
    change Solar.dayDeclination (localMidnight lon 2460848) t ≤ 23.63 at d1
    generalize Solar.dayDeclination (localMidnight lon 2460848) t = d at d0 d1
    have db := Solar.degree_bounds
    have cl : 0 ≤ Solar.cosDeg lat := by
      apply cos_nonneg_of_neg_pi_div_two_le_of_le <;> unfold Solar.radians <;> nlinarith
    have cd : 0 ≤ Solar.cosDeg d := by
      apply cos_nonneg_of_neg_pi_div_two_le_of_le <;> unfold Solar.radians <;> norm_num at * <;> nlinarith
    have cp := mul_nonneg cl cd
    have hH := neg_one_le_cos (Solar.radians (Solar.dayHourAngle (localMidnight lon 2460848) lon t))
    change -1 ≤ Solar.cosDeg (Solar.dayHourAngle (localMidnight lon 2460848) lon t) at hH
    have low := mul_le_mul_of_nonneg_left hH cp
    have sum : Solar.sinDeg lat * Solar.sinDeg d - Solar.cosDeg lat * Solar.cosDeg d = sin (Solar.radians (lat + d - 90)) := by
      unfold Solar.sinDeg Solar.cosDeg
      rw [Solar.radians_sub, Solar.radians_add, show Solar.radians 90 = π / 2 by unfold Solar.radians; ring, sin_sub_pi_div_two,
        cos_add]
      ring
    have gt : sin (-0.8333 * (π / 180)) < sin (Solar.radians (lat + d - 90)) := by
      apply sin_lt_sin_of_lt_of_le_pi_div_two <;> (try unfold Solar.radians) <;> norm_num at * <;> nlinarith
    linarith
  · intro b
    unfold Solar.risingSetting Solar.mod1
    simp only
    exact ⟨Int.fract_nonneg _, Int.fract_lt_one _⟩

/-- C113 is false in the south: on the same day, from 67.7 degrees south down to the pole, the sun is below the horizon all day, by more
than the 0.8333 degrees, and a time of sunset and one of sunrise are given. -/
theorem C113_polar_night_negation {lat lon : ℚ} (l0 : -90 < lat) (l1 : lat ≤ -67.7) (hlon : |lon| ≤ 180) :
    (∀ t : ℝ, 0 ≤ t → t ≤ 1 → sinAltitude (localMidnight lon 2460848) lat lon t < sin (-0.8333 * (π / 180))) ∧
    ∀ b : Bool, 0 ≤ Solar.risingSetting (localMidnight lon 2460848) lat lon Solar.sunOffset b ∧
      Solar.risingSetting (localMidnight lon 2460848) lat lon Solar.sunOffset b < 1 := by
  have hm := localMidnight_near hlon (D := 2460848) (by decide) (by decide)
  obtain ⟨-, hd⟩ := Solar.midnight_tc hm
  have dd := abs_le.mp (Solar.time_shift hd)
  have l0' : (-90 : ℝ) ≤ lat := by exact_mod_cast l0.le
  have l1' : (lat : ℝ) ≤ -67.7 := by
    have : (lat : ℝ) ≤ ((-67.7 : ℚ) : ℝ) := by exact_mod_cast l1
    norm_num at this ⊢
    exact this
  have hpi := pi_pos
  constructor
  · intro t t0 t1
    obtain ⟨d0, d1⟩ := Solar.june_declination hm (n := t + (Solar.deltaT (localMidnight lon 2460848) : ℝ) / 86400) (by
      rw [abs_le]
      constructor <;> norm_num at * <;> linarith)
    rw [sinAltitude_eq]
    change 23.18 ≤ Solar.dayDeclination (localMidnight lon 2460848) t at d0
    change Solar.dayDeclination (localMidnight lon 2460848) t ≤ 23.63 at d1
    generalize Solar.dayDeclination (localMidnight lon 2460848) t = d at d0 d1
    have cl : 0 ≤ Solar.cosDeg lat := by
      apply cos_nonneg_of_neg_pi_div_two_le_of_le <;> unfold Solar.radians <;> nlinarith
    have cd : 0 ≤ Solar.cosDeg d := by
      apply cos_nonneg_of_neg_pi_div_two_le_of_le <;> unfold Solar.radians <;> norm_num at * <;> nlinarith
    have cp := mul_nonneg cl cd
    have hH := cos_le_one (Solar.radians (Solar.dayHourAngle (localMidnight lon 2460848) lon t))
    change Solar.cosDeg (Solar.dayHourAngle (localMidnight lon 2460848) lon t) ≤ 1 at hH
    have low := mul_le_mul_of_nonneg_left hH cp
    have sum : Solar.sinDeg lat * Solar.sinDeg d + Solar.cosDeg lat * Solar.cosDeg d = sin (Solar.radians (lat - d + 90)) := by
      unfold Solar.sinDeg Solar.cosDeg
      rw [Solar.radians_add, Solar.radians_sub, show Solar.radians 90 = π / 2 by unfold Solar.radians; ring, sin_add_pi_div_two,
        cos_sub]
      ring
    have lt : sin (Solar.radians (lat - d + 90)) < sin (-0.8333 * (π / 180)) := by
      apply sin_lt_sin_of_lt_of_le_pi_div_two <;> (try unfold Solar.radians) <;> norm_num at * <;> nlinarith
    linarith
  · intro b
    unfold Solar.risingSetting Solar.mod1
    simp only
    exact ⟨Int.fract_nonneg _, Int.fract_lt_one _⟩

/-! ## The hypotheses are met -/

/-- Helsinki is a little too far north; Oslo is not. -/
example : Solar.risingSetting (localMidnight 10.75 2460848) (59.9 : ℚ) (10.75 : ℚ) Solar.sunOffset true ≤ clockTime 22 13 :=
  (C74_sunset_60 (lat := 59.9) (lon := 10.75) (by decide +kernel) (by decide +kernel) (by decide) (by decide)).2

example : clockTime 1 47 ≤ Solar.risingSetting (localMidnight (-0.1) 2460848) (51.5 : ℚ) (-0.1 : ℚ) Solar.sunOffset false :=
  (C74_sunrise_60 (lat := 51.5) (lon := -0.1) (by decide +kernel) (by decide +kernel) (by decide) (by decide)).1

example : ∃ A : Astro, NearExact A 51.5 (-0.1) ∧ SunSets A 51.5 (-0.1) := by
  obtain ⟨A, hA⟩ := nearExact_exists 51.5 (-0.1)
  exact ⟨A, hA, (C74_sunsets_60 (by decide +kernel) (by decide +kernel) hA).1⟩

/-- London, on the longest day. -/
example : ∃ t : ℝ, |Solar.risingSetting (localMidnight (-0.1) 2460848) (51.5 : ℚ) (-0.1 : ℚ) Solar.sunOffset true - t| ≤
      0.3 / 86400 ∧ sinAltitude (localMidnight (-0.1) 2460848) (51.5 : ℚ) (-0.1 : ℚ) t = sin (-0.8333 * (π / 180)) := by
  obtain ⟨t, a, b, -⟩ := C75_sunset_60 (lat := 51.5) (lon := -0.1) (by decide +kernel) (by decide +kernel) (D := 2460848)
    (by decide) (by decide)
  exact ⟨t, a, b⟩

/-- Wellington. -/
example : ∃ t : ℝ, |Solar.risingSetting (localMidnight 174.8 2461000) (-41.3 : ℚ) (174.8 : ℚ) Solar.sunOffset false - t| ≤
      0.3 / 86400 := by
  obtain ⟨t, a, -⟩ := C75_sunrise_60 (lat := -41.3) (lon := 174.8) (by decide +kernel) (by decide +kernel) (D := 2461000)
    (by decide) (by decide)
  exact ⟨t, a⟩

/-- Sydney. -/
example : ∃ t : ℝ, sinAltitude (localMidnight 151 2461000) (-33 : ℚ) (151 : ℚ) t = sin (-0.8333 * (π / 180)) := by
  obtain ⟨t, -, e, -⟩ := (C113_crossing_partial (lat := -33) (lon := 151) (by decide +kernel) (by decide +kernel) (D := 2461000)
    (by decide) (by decide)).1
  exact ⟨t, e⟩

/-- Tromsø, 69.65 degrees north. -/
example : sin (-0.8333 * (π / 180)) < sinAltitude (localMidnight 18.96 2460848) (69.65 : ℚ) (18.96 : ℚ) (1 / 2) :=
  (C113_midnight_sun_negation (lat := 69.65) (lon := 18.96) (by decide +kernel) (by decide +kernel) (by decide +kernel)).1 _
    (by norm_num) (by norm_num)

/-- McMurdo, 77.85 degrees south. -/
example : sinAltitude (localMidnight 166.67 2460848) (-77.85 : ℚ) (166.67 : ℚ) (1 / 2) < sin (-0.8333 * (π / 180)) :=
  (C113_polar_night_negation (lat := -77.85) (lon := 166.67) (by decide +kernel) (by decide +kernel) (by decide +kernel)).1 _
    (by norm_num) (by norm_num)

end Verif
