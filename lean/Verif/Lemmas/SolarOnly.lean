import Verif.Lemmas.SolarQuick

/-!
# The sun is on the horizon twice a day
-/

namespace Verif.Solar

open Real

/-- From noon to some degrees before the hour angle of the horizon the sun is above it, and from some degrees after it to
midnight below. -/
theorem horizon_side_day {f e d k H o : ℝ} (f1 : 0.5 ≤ cos f) (f2 : |sin f| ≤ 0.8661) (e1 : |sin e| ≤ 0.4053)
    (e2 : 0.914 ≤ cos e) (de : |d - e| ≤ 0.0083) (k1 : |cos k| ≤ 0.8002)
    (horizon : sin f * sin e + cos f * cos e * cos k = sin (-o)) (hk : |k - π / 2| ≤ 0.9662) (H0 : 0 ≤ H)
    (H1 : H ≤ 2 * π - k - 0.057) :
    (0.057 ≤ H - k → sin f * sin d + cos f * cos d * cos H < sin (-o)) ∧
    (H - k ≤ -0.057 → sin (-o) < sin f * sin d + cos f * cos d * cos H) := by
  set P := sin f * (sin d - sin e) + cos f * (cos d - cos e) * cos k with hP
  have q2 : |cos d - cos e| ≤ 0.00344 := by
    obtain ⟨t, t0, t1, q⟩ := cos_mean d e
    have te : |t - e| ≤ 0.0083 := by
      rw [abs_le] at de ⊢
      rcases min_le_iff.mp t0 with g | g <;> rcases le_max_iff.mp t1 with g' | g' <;> constructor <;> linarith
    have st : |sin t| ≤ 0.4137 := by
      have q3 : |sin t - sin e| ≤ 0.0083 := (abs_sin_sub_sin_le t e).trans te
      rw [abs_le] at q3 e1 ⊢
      constructor <;> linarith
    rw [q, abs_mul, abs_neg]
    have := mul_le_mul st de (abs_nonneg _) (by norm_num)
    linarith
  have d1 : 0.906 ≤ cos d := by
    have := (abs_le.mp q2).1
    linarith
  have hP1 : |P| ≤ 0.0131 := by
    have q1 : |sin d - sin e| ≤ 0.0083 := (abs_sin_sub_sin_le d e).trans de
    rw [hP]
    refine (abs_add_le _ _).trans ?_
    rw [abs_mul, abs_mul, abs_mul]
    have q4 := mul_le_mul f2 q1 (abs_nonneg _) (by norm_num)
    have q5 := mul_le_mul (abs_cos_le_one f) q2 (abs_nonneg _) (by norm_num)
    have q6 := mul_le_mul q5 k1 (abs_nonneg _) (by norm_num)
    linarith
  have hP2 := abs_le.mp hP1
  have hk2 := abs_le.mp hk
  have pi3 := pi_gt_d2
  have pi4 := pi_lt_d2
  have cc : 0 ≤ cos f * cos d := mul_nonneg (by linarith) (by linarith)
  have w0 : 0.5 * 0.906 ≤ cos f * cos d := mul_le_mul f1 d1 (by norm_num) (by linarith)
  have at_ : ∀ K : ℝ, |K - k| = 0.057 → ∃ z, 0.51 ≤ sin z ∧ cos K - cos k = -sin z * (K - k) := by
    intro K hK
    obtain ⟨z, z0, z1, ez⟩ := cos_mean K k
    refine ⟨z, ?_, ez⟩
    apply sin_near_right
    have hK2 := abs_le.mp hK.le
    rw [abs_le]
    rcases min_le_iff.mp z0 with g | g <;> rcases le_max_iff.mp z1 with g' | g' <;> constructor <;> linarith
  constructor
  · intro g
    obtain ⟨z, sz, ez⟩ := at_ (k + 0.057) (by rw [add_sub_cancel_left, abs_of_pos (by norm_num)])
    have mono : cos H ≤ cos (k + 0.057) := by
      by_cases hh : H ≤ π
      · exact cos_le_cos_of_nonneg_of_le_pi (by linarith) hh (by linarith)
      · rw [← cos_two_pi_sub]
        exact cos_le_cos_of_nonneg_of_le_pi (by linarith) (by linarith) (by linarith)
    have m1 := mul_le_mul_of_nonneg_left mono cc
    have eK : cos (k + 0.057) = cos k - 0.057 * sin z := by linarith
    have m2 := mul_le_mul w0 sz (by norm_num) cc
    rw [eK] at m1
    have e3 : sin f * sin d + cos f * cos d * (cos k - 0.057 * sin z) - sin (-o) = P - 0.057 * (cos f * cos d * sin z) := by
      rw [← horizon, hP]
      ring
    linarith
  · intro g
    obtain ⟨z, sz, ez⟩ := at_ (k - 0.057) (by rw [sub_sub_cancel_left, abs_neg, abs_of_pos (by norm_num)])
    have mono : cos (k - 0.057) ≤ cos H := cos_le_cos_of_nonneg_of_le_pi H0 (by linarith) (by linarith)
    have m1 := mul_le_mul_of_nonneg_left mono cc
    have eK : cos (k - 0.057) = cos k + 0.057 * sin z := by linarith
    have m2 := mul_le_mul w0 sz (by norm_num) cc
    rw [eK] at m1
    have e3 : sin f * sin d + cos f * cos d * (cos k + 0.057 * sin z) - sin (-o) = P + 0.057 * (cos f * cos d * sin z) := by
      rw [← horizon, hP]
      ring
    linarith

theorem interpolation_day {a b n : ℝ} (n1 : |n| ≤ 1.001) (c B : ℝ) (ha : |a - c| ≤ B) (hb : |b - c| ≤ B) :
    |n / 2 * (a + b + n * (b - a)) - c * n| ≤ 1.0021 * B := by
  have e : n / 2 * (a + b + n * (b - a)) - c * n =
      ((a - c) * (1 / 2 - n / 2) + (b - c) * (1 / 2 + n / 2)) * n := by ring
  have hB : 0 ≤ B := (abs_nonneg _).trans ha
  have w0 : |1 / 2 - n / 2| + |1 / 2 + n / 2| ≤ 1.001 := by
    have := abs_le.mp n1
    rcases abs_cases (1 / 2 - n / 2) with ⟨h, -⟩ | ⟨h, -⟩ <;> rcases abs_cases (1 / 2 + n / 2) with ⟨h', -⟩ | ⟨h', -⟩ <;>
      rw [h, h'] <;> norm_num at * <;> linarith
  have w1 : |(a - c) * (1 / 2 - n / 2) + (b - c) * (1 / 2 + n / 2)| ≤ 1.001 * B := by
    refine (abs_add_le _ _).trans ?_
    rw [abs_mul, abs_mul]
    have := mul_le_mul_of_nonneg_right ha (abs_nonneg (1 / 2 - n / 2))
    have := mul_le_mul_of_nonneg_right hb (abs_nonneg (1 / 2 + n / 2))
    have := mul_le_mul_of_nonneg_left w0 hB
    linarith
  rw [e, abs_mul]
  have := mul_le_mul w1 n1 (abs_nonneg _) (by positivity)
  linarith

/-- The hour angle and the declination during the day. -/
theorem day_angle {jd : ℚ} {lon : ℝ} {D : ℤ} (h : AtMidnight jd lon D) {t : ℝ} (t0 : 0 ≤ t) (t1 : t ≤ 1) :
    (∃ w, |w| ≤ 0.7335 ∧ cosDeg (dayHourAngle jd lon t) = cosDeg (360 * (t - transit jd lon) + w) ∧
      sinDeg (dayHourAngle jd lon t) = sinDeg (360 * (t - transit jd lon) + w)) ∧
    |radians (dayDeclination jd t) - radians (declination (julianCenturies jd))| ≤ 0.0083 := by
  obtain ⟨ht, hd⟩ := midnight_tc h
  obtain ⟨E, x, j, -, -, bx, e⟩ := transit_eq h
  have dd := abs_le.mp (time_shift hd)
  have bx := abs_le.mp bx
  obtain ⟨a, b, a0, a1, b0, b1, form⟩ := interpolatedAscension_form (t := julianCenturies jd) (by linarith)
  obtain ⟨p, q, hp, hq, dform⟩ := interpolatedDeclination_form (t := julianCenturies jd) (by linarith)
  set n := t + (deltaT jd : ℝ) / 86400 with hn
  have n1 : |n| ≤ 1.001 := by
    rw [abs_le]
    constructor <;> linarith
  constructor
  · have ic := abs_le.mp (interpolation_day (a := a) (b := b) n1 1.05 0.22 (by
      rw [abs_le]; constructor <;> linarith) (by
      rw [abs_le]; constructor <;> linarith))
    set y := n / 2 * (a + b + n * (b - a)) with hy
    refine ⟨x + 0.98564736629 * t - y, ?_, ?_⟩
    · rw [abs_le]
      constructor <;> linarith
    · unfold dayHourAngle hourAngleAt localHourAngle
      obtain ⟨k, ek, -, -⟩ := coterminal_spec (apparentSiderealTime (julianCenturies jd) + 360.98564736629 * t + lon -
        interpolatedAscension (julianCenturies jd) n)
      rw [form, ← hy] at ek
      have key : ∀ z : ℝ, (∃ i : ℤ, z = apparentSiderealTime (julianCenturies jd) + 360.98564736629 * t + lon -
          (rightAscension (julianCenturies jd) + y) - 360 * i) →
          cosDeg z = cosDeg (360 * (t - transit jd lon) + (x + 0.98564736629 * t - y)) ∧
          sinDeg z = sinDeg (360 * (t - transit jd lon) + (x + 0.98564736629 * t - y)) := by
        rintro z ⟨i, rfl⟩
        rw [cosDeg_turn, sinDeg_turn]
        have e2 : apparentSiderealTime (julianCenturies jd) + 360.98564736629 * t + lon -
            (rightAscension (julianCenturies jd) + y) =
            360 * (t - transit jd lon) + (x + 0.98564736629 * t - y) - 360 * ((-j : ℤ) : ℝ) := by
          push_cast
          linear_combination e
        rw [e2, cosDeg_turn, sinDeg_turn]
        exact ⟨rfl, rfl⟩
      simp only [← hn, form, ← hy]
      split_ifs
      · apply key
        refine ⟨k + 1, ?_⟩
        rw [ek]
        push_cast
        ring
      · exact key _ ⟨k, ek⟩
  · have ic := interpolation_day (a := p) (b := q) n1 0 0.4711 (by rwa [sub_zero]) (by rwa [sub_zero])
    rw [← radians_sub]
    have e3 : dayDeclination jd t - declination (julianCenturies jd) = n / 2 * (p + q + n * (q - p)) - 0 * n := by
      unfold dayDeclination
      rw [dform]
      ring
    rw [e3]
    exact (radians_bound ic).trans (by norm_num)

/-- At a moment of the day: the hour angle, with its sign, and on which side of the horizon the sun is when the hour angle is
not near that of the first estimate. -/
theorem side_day {jd : ℚ} {lat lon : ℝ} {D : ℤ} (h : AtMidnight jd lon D) (hl : |lat| ≤ 60) {t : ℝ} (t0 : 0 ≤ t) (t1 : t ≤ 1) :
    ∃ w, |w| ≤ 0.7335 ∧ sinDeg (dayHourAngle jd lon t) = sinDeg (360 * (t - transit jd lon) + w) ∧
    (3.2661 ≤ |360 * (t - transit jd lon) + w| - approxHourAngle (julianCenturies jd) lat sunOffset →
      sinDeg lat * sinDeg (dayDeclination jd t) + cosDeg lat * cosDeg (dayDeclination jd t) * cosDeg (dayHourAngle jd lon t) <
        sinDeg (-sunOffset)) ∧
    (|360 * (t - transit jd lon) + w| - approxHourAngle (julianCenturies jd) lat sunOffset ≤ -3.2661 →
      sinDeg (-sunOffset) <
        sinDeg lat * sinDeg (dayDeclination jd t) + cosDeg lat * cosDeg (dayDeclination jd t) * cosDeg (dayHourAngle jd lon t)) := by
  obtain ⟨ht, hd⟩ := midnight_tc h
  obtain ⟨E, -, -, tr, bE, -, -⟩ := transit_eq h
  obtain ⟨a0, a1, a2⟩ := hourAngle_bounds_high (tc := julianCenturies jd) (lat := lat) (by linarith) hl
  obtain ⟨c0, c1, c2⟩ := cosH0_bounds_high (tc := julianCenturies jd) (lat := lat) (by linarith) hl
  obtain ⟨l0, l1⟩ := lat_trig_high hl
  obtain ⟨d0, d1⟩ := declination_bounds (t := julianCenturies jd) (by linarith)
  obtain ⟨⟨w, bw, ec, es⟩, ddr⟩ := day_angle h t0 t1
  set u := 360 * (t - transit jd lon) with hu
  set k := approxHourAngle (julianCenturies jd) lat sunOffset with hk
  have bE := abs_le.mp bE
  have hw := bw
  have bw := abs_le.mp bw
  have db := degree_bounds
  have G1 : |u + w| ≤ 187 := by
    rw [hu, tr, abs_le]
    constructor <;> linarith
  have cosG : cosDeg (dayHourAngle jd lon t) = cosDeg |u + w| := by
    rw [ec]
    unfold cosDeg
    rw [← radians_abs, cos_abs]
  have r90 : π / 2 = radians 90 := by unfold radians; ring
  have key := horizon_side_day (f := radians lat) (e := radians (declination (julianCenturies jd)))
    (d := radians (dayDeclination jd t)) (k := radians k) (H := radians |u + w|) (o := radians sunOffset) l0 l1 d0 d1 ddr
    (by
      change |cosDeg _| ≤ _
      rw [a2, abs_le]
      constructor <;> linarith)
    (by
      rw [← radians_neg]
      change _ + _ * cosDeg _ = _
      rw [a2]
      exact c2)
    (by
      rw [r90, ← radians_sub]
      refine (radians_bound (B := 54) ?_).trans (by norm_num)
      rw [abs_le]
      constructor <;> linarith)
    (by
      rw [← radians_abs]
      exact abs_nonneg _)
    (by
      have e1 : 2 * π = radians 360 := by unfold radians; ring
      have e2 : 0.057 ≤ radians 4 := by
        unfold radians
        linarith
      have e3 : radians |u + w| ≤ radians (360 - k - 4) := radians_le (by linarith)
      rw [radians_sub, radians_sub] at e3
      linarith)
  rw [← radians_neg] at key
  refine ⟨w, hw, es, ?_⟩
  rw [cosG]
  constructor
  · intro g
    exact key.1 (by
      rw [← radians_sub]
      unfold radians
      have := mul_le_mul g db.1.le (by norm_num) (by linarith)
      linarith)
  · intro g
    exact key.2 (by
      rw [← radians_sub]
      unfold radians
      have := mul_le_mul (show 3.2661 ≤ -(|u + w| - k) by linarith) db.1.le (by norm_num) (by linarith)
      linarith)

/-- A moment of the day with the sun on the horizon is within four degrees of the first estimate for the sunset, if the sun is
then in the west, and for the sunrise, if in the east. -/
theorem root_near {jd : ℚ} {lat lon : ℝ} {D : ℤ} (h : AtMidnight jd lon D) (hl : |lat| ≤ 60) {t : ℝ} (t0 : 0 ≤ t) (t1 : t ≤ 1)
    (root : sinDeg lat * sinDeg (dayDeclination jd t) + cosDeg lat * cosDeg (dayDeclination jd t) *
      cosDeg (dayHourAngle jd lon t) = sinDeg (-sunOffset)) :
    (0 < sinDeg (dayHourAngle jd lon t) ∧ NearHigh jd lat lon 1 t) ∨
    (sinDeg (dayHourAngle jd lon t) < 0 ∧ NearHigh jd lat lon (-1) t) := by
  obtain ⟨ht, hd⟩ := midnight_tc h
  obtain ⟨a0, a1, a2⟩ := hourAngle_bounds_high (tc := julianCenturies jd) (lat := lat) (by linarith) hl
  obtain ⟨w, bw, es, k1, k2⟩ := side_day h hl t0 t1
  set u := 360 * (t - transit jd lon) with hu
  set k := approxHourAngle (julianCenturies jd) lat sunOffset with hk
  have bw := abs_le.mp bw
  have b1 : |u + w| - k < 3.2661 := by
    by_contra g
    exact absurd root (k1 (not_lt.mp g)).ne
  have b2 : -3.2661 < |u + w| - k := by
    by_contra g
    exact absurd root (k2 (not_lt.mp g)).ne'
  have pos : 0 < sinDeg |u + w| := by
    unfold sinDeg radians
    have hpi := pi_pos
    apply sin_pos_of_pos_of_lt_pi
    · have : 0 < |u + w| := by linarith
      positivity
    · have := mul_lt_mul_of_pos_right (show |u + w| < 180 by linarith) (show 0 < π / 180 by positivity)
      linarith
  rw [es]
  unfold NearHigh
  rw [← hu, ← hk]
  rcases abs_cases (u + w) with ⟨g, -⟩ | ⟨g, -⟩ <;> rw [g] at pos b1 b2
  · left
    refine ⟨pos, ?_⟩
    rw [abs_le]
    constructor <;> linarith
  · right
    constructor
    · unfold sinDeg at pos ⊢
      rw [radians_neg, sin_neg] at pos
      linarith
    · rw [abs_le]
      constructor <;> linarith

/-- At noon the sun is above the horizon, and at both ends of the day below. -/
theorem noon_midnight {jd : ℚ} {lat lon : ℝ} {D : ℤ} (h : AtMidnight jd lon D) (hl : |lat| ≤ 60) :
    (0.485 ≤ transit jd lon ∧ transit jd lon ≤ 0.515) ∧
    sinDeg (-sunOffset) < sinDeg lat * sinDeg (dayDeclination jd (transit jd lon)) +
      cosDeg lat * cosDeg (dayDeclination jd (transit jd lon)) * cosDeg (dayHourAngle jd lon (transit jd lon)) ∧
    ∀ t : ℝ, t = 0 ∨ t = 1 → sinDeg lat * sinDeg (dayDeclination jd t) +
      cosDeg lat * cosDeg (dayDeclination jd t) * cosDeg (dayHourAngle jd lon t) < sinDeg (-sunOffset) := by
  obtain ⟨ht, hd⟩ := midnight_tc h
  obtain ⟨E, -, -, tr, bE, -, -⟩ := transit_eq h
  obtain ⟨a0, a1, a2⟩ := hourAngle_bounds_high (tc := julianCenturies jd) (lat := lat) (by linarith) hl
  have bE := abs_le.mp bE
  have T0 : 0.485 ≤ transit jd lon := by rw [tr]; linarith
  have T1 : transit jd lon ≤ 0.515 := by rw [tr]; linarith
  refine ⟨⟨T0, T1⟩, ?_, ?_⟩
  · obtain ⟨w, bw, -, -, k2⟩ := side_day h hl (t := transit jd lon) (by linarith) (by linarith)
    apply k2
    rw [sub_self, mul_zero, zero_add]
    linarith
  · intro t g
    obtain ⟨w, bw, -, k1, -⟩ := side_day h hl (t := t) (by rcases g with rfl | rfl <;> norm_num)
      (by rcases g with rfl | rfl <;> norm_num)
    apply k1
    have bw := abs_le.mp bw
    rcases g with rfl | rfl
    · have := neg_le_abs (360 * (0 - transit jd lon) + w)
      linarith
    · have := le_abs_self (360 * (1 - transit jd lon) + w)
      linarith

end Verif.Solar
