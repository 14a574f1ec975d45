import Verif.Lemmas.SolarDay

/-!
# Rising and setting up to 60 degrees from the equator

The argument of `Verif/Lemmas/SolarDay.lean` with wider bounds.
-/

namespace Verif.Solar

open Real

theorem lat_trig_high {lat : ℝ} (h : |lat| ≤ 60) : 0.5 ≤ cosDeg lat ∧ |sinDeg lat| ≤ 0.8661 := by
  have h1 : 0.5 ≤ cosDeg lat := by
    unfold cosDeg
    rw [← cos_abs, radians_abs]
    have h2 : radians |lat| ≤ π / 3 := by
      refine (radians_le h).trans ?_
      unfold radians
      linarith
    have h3 : 0 ≤ radians |lat| := by
      unfold radians
      have := pi_pos
      positivity
    have h4 := cos_le_cos_of_nonneg_of_le_pi h3 (by linarith [pi_pos]) h2
    rw [cos_pi_div_three] at h4
    norm_num at *
    linarith
  refine ⟨h1, ?_⟩
  have h2 := sin_sq_add_cos_sq (radians lat)
  change sinDeg lat ^ 2 + cosDeg lat ^ 2 = 1 at h2
  apply abs_le_of_sq_le_sq _ (by norm_num)
  norm_num at *
  nlinarith

theorem cosH0_bounds_high {tc lat : ℝ} (ht : |tc| ≤ 20.1) (hl : |lat| ≤ 60) :
    -0.8002 ≤ cosH0 tc lat sunOffset ∧ cosH0 tc lat sunOffset ≤ 0.7365 ∧
    sinDeg lat * sinDeg (declination tc) + cosDeg lat * cosDeg (declination tc) * cosH0 tc lat sunOffset =
      sinDeg (-sunOffset) := by
  obtain ⟨l1, l2⟩ := lat_trig_high hl
  obtain ⟨d1, d2⟩ := declination_bounds ht
  obtain ⟨-, -, o1, o2⟩ := offset_bounds
  have p := mul_le_mul l2 d1 (abs_nonneg _) (by norm_num)
  rw [← abs_mul, abs_le] at p
  have q := mul_le_mul l1 d2 (by norm_num) (by linarith)
  have q0 : 0 < cosDeg lat * cosDeg (declination tc) := by norm_num at *; linarith
  unfold cosH0
  refine ⟨?_, ?_, ?_⟩
  · rw [le_div_iff₀ q0]
    norm_num at *
    linarith
  · rw [div_le_iff₀ q0]
    norm_num at *
    linarith
  · rw [mul_div_cancel₀ _ q0.ne']
    ring

theorem hourAngle_bounds_high {tc lat : ℝ} (ht : |tc| ≤ 20.1) (hl : |lat| ≤ 60) :
    42.2 ≤ approxHourAngle tc lat sunOffset ∧ approxHourAngle tc lat sunOffset ≤ 143.9 ∧
    cosDeg (approxHourAngle tc lat sunOffset) = cosH0 tc lat sunOffset := by
  obtain ⟨c1, c2, -⟩ := cosH0_bounds_high ht hl
  have e : approxHourAngle tc lat sunOffset = degrees (arccos (cosH0 tc lat sunOffset)) := by
    unfold approxHourAngle
    rw [if_neg]
    rintro (h | h) <;> norm_num at * <;> linarith
  rw [e]
  have pi0 := pi_gt_d6
  have pi1 := pi_lt_d6
  refine ⟨?_, ?_, ?_⟩
  · rw [le_degrees_iff, arccos_eq_pi_div_two_sub_arcsin]
    have h : arcsin (cosH0 tc lat sunOffset) ≤ radians 47.8 := by
      rw [arcsin_le_iff_le_sin' ⟨by unfold radians; norm_num at *; linarith, by unfold radians; norm_num at *; linarith⟩]
      have h1 : 0.8342 ≤ radians 47.8 := by unfold radians; norm_num at *; linarith
      have h2 : radians 47.8 ≤ 0.8343 := by unfold radians; norm_num at *; linarith
      have h3 := sin_ge_sub_cube (x := radians 47.8) (by norm_num at *; linarith)
      have h4 : radians 47.8 ^ 3 ≤ 0.8343 ^ 3 := pow_le_pow_left₀ (by norm_num at *; linarith) h2 3
      norm_num at *
      linarith
    unfold radians at *
    norm_num at *
    linarith
  · rw [degrees_le_iff, arccos_eq_pi_div_two_sub_arcsin]
    have h : -radians 53.9 ≤ arcsin (cosH0 tc lat sunOffset) := by
      rw [le_arcsin_iff_sin_le' ⟨by unfold radians; norm_num at *; linarith, by unfold radians; norm_num at *; linarith⟩,
        sin_neg]
      have h1 : 0.9407 ≤ radians 53.9 := by unfold radians; norm_num at *; linarith
      have h2 : radians 53.9 ≤ 0.9408 := by unfold radians; norm_num at *; linarith
      have h3 := sin_ge_sub_cube (x := radians 53.9) (by norm_num at *; linarith)
      have h4 : radians 53.9 ^ 3 ≤ 0.9408 ^ 3 := pow_le_pow_left₀ (by norm_num at *; linarith) h2 3
      norm_num at *
      linarith
    unfold radians at *
    norm_num at *
    linarith
  · rw [cosDeg, radians_degrees, cos_arccos (by norm_num at *; linarith) (by norm_num at *; linarith)]

theorem cos_near_zero_high {x : ℝ} (h0 : -(π / 2) ≤ x) (h1 : x ≤ π / 2) (h : |sin x| ≤ 0.107) : 0.994 ≤ cos x := by
  have h2 := cos_nonneg_of_neg_pi_div_two_le_of_le h0 h1
  have h3 := sin_sq_add_cos_sq x
  have h4 : sin x ^ 2 ≤ 0.107 ^ 2 := by
    rw [← sq_abs]
    exact pow_le_pow_left₀ (abs_nonneg _) h 2
  nlinarith

/-- A lower bound of the cosine, from that at half the angle. -/
theorem cos_ge_half {x B : ℝ} (h : |x| ≤ B) (hB : B ≤ 2) : 2 * (1 - B ^ 2 / 8) ^ 2 - 1 ≤ cos x := by
  have e : cos x = 2 * cos (x / 2) ^ 2 - 1 := by
    rw [← cos_two_mul, mul_div_cancel₀ _ (by norm_num : (2 : ℝ) ≠ 0)]
  have h1 := one_sub_sq_div_two_le_cos (x := x / 2)
  have h0 : 0 ≤ |x| := abs_nonneg x
  have h2 : x ^ 2 ≤ B ^ 2 := by
    rw [← sq_abs]
    exact pow_le_pow_left₀ h0 h 2
  have h3 : B ^ 2 ≤ 2 ^ 2 := pow_le_pow_left₀ (by linarith) hB 2
  have h4 : 1 - B ^ 2 / 8 ≤ cos (x / 2) := by linarith
  have h5 : 0 ≤ 1 - B ^ 2 / 8 := by linarith
  have h6 := pow_le_pow_left₀ h5 h4 2
  rw [e]
  linarith

/-- `newton_step` with wider bounds. -/
theorem newton_step_high {f e d k H o : ℝ} (f1 : 0.5 ≤ cos f) (f2 : |sin f| ≤ 0.8661) (e1 : |sin e| ≤ 0.4053)
    (d1 : 0.906 ≤ cos d) (de : |d - e| ≤ 0.0077) (k1 : |cos k| ≤ 0.8002)
    (horizon : sin f * sin e + cos f * cos e * cos k = sin (-o)) (o0 : 0 ≤ o) (o1 : o ≤ 0.0146)
    (hk : |H - k| ≤ 0.0824) (hs : 0.51 ≤ sin H) :
    |H + (arcsin (sin f * sin d + cos f * cos d * cos H) + o) / (cos d * cos f * sin H) - k| ≤ 0.0555 := by
  set S := sin f * sin d + cos f * cos d * cos H with hS
  set P := sin f * (sin d - sin e) + cos f * (cos d - cos e) * cos k with hP
  have f3 : cos f ≤ 1 := cos_le_one f
  have d3 : cos d ≤ 1 := cos_le_one d
  have hP1 : |P| ≤ 0.0093 := by
    have q1 : |sin d - sin e| ≤ 0.0077 := by
      obtain ⟨t, -, -, q⟩ := sin_mean d e
      rw [q, abs_mul]
      have := mul_le_mul (abs_cos_le_one t) de (abs_nonneg _) (by norm_num)
      linarith
    have q2 : |cos d - cos e| ≤ 0.00319 := by
      obtain ⟨t, t0, t1, q⟩ := cos_mean d e
      have te : |t - e| ≤ 0.0077 := by
        rw [abs_le] at de ⊢
        rcases min_le_iff.mp t0 with g | g <;> rcases le_max_iff.mp t1 with g' | g' <;> constructor <;> linarith
      have st : |sin t| ≤ 0.413 := by
        obtain ⟨u, -, -, q'⟩ := sin_mean t e
        have q3 : |sin t - sin e| ≤ 0.0077 := by
          rw [q', abs_mul]
          have := mul_le_mul (abs_cos_le_one u) te (abs_nonneg _) (by norm_num)
          linarith
        rw [abs_le] at q3 e1 ⊢
        constructor <;> norm_num at * <;> linarith
      rw [q, abs_mul, abs_neg]
      have := mul_le_mul st de (abs_nonneg _) (by norm_num)
      norm_num at *
      linarith
    rw [hP]
    refine (abs_add_le _ _).trans ?_
    rw [abs_mul, abs_mul, abs_mul]
    have q4 := mul_le_mul f2 q1 (abs_nonneg _) (by norm_num)
    have q5 := mul_le_mul (abs_cos_le_one f) q2 (abs_nonneg _) (by norm_num)
    have q6 := mul_le_mul q5 k1 (abs_nonneg _) (by norm_num)
    norm_num at *
    linarith
  obtain ⟨z, z0, z1, ez⟩ := cos_mean H k
  have zH : |sin H - sin z| ≤ 0.0824 := by
    obtain ⟨u, -, -, q'⟩ := sin_mean H z
    have hz : |H - z| ≤ 0.0824 := by
      rw [abs_le] at hk ⊢
      rcases min_le_iff.mp z0 with g | g <;> rcases le_max_iff.mp z1 with g' | g' <;> constructor <;> linarith
    rw [q', abs_mul]
    have := mul_le_mul (abs_cos_le_one u) hz (abs_nonneg _) (by norm_num)
    linarith
  have eS : S - sin (-o) = P + cos f * cos d * (-sin z * (H - k)) := by
    rw [← ez, ← horizon, hS, hP]
    ring
  have hcc : |cos f * cos d| ≤ 1 := by
    rw [abs_mul]
    exact mul_le_one₀ (abs_cos_le_one f) (abs_nonneg _) (abs_cos_le_one d)
  have so : |sin (-o)| ≤ 0.0146 := by
    rw [sin_neg, abs_neg]
    exact (abs_sin_le_abs).trans (by rw [abs_of_nonneg o0]; exact o1)
  have hS1 : |S| ≤ 0.107 := by
    have q1 : |cos f * cos d * (-sin z * (H - k))| ≤ 0.0824 := by
      rw [abs_mul]
      have q2 : |-sin z * (H - k)| ≤ 0.0824 := by
        rw [abs_mul, abs_neg]
        have := mul_le_mul (abs_sin_le_one z) hk (abs_nonneg _) (by norm_num)
        linarith
      have := mul_le_mul hcc q2 (abs_nonneg _) (by norm_num)
      linarith
    rw [abs_le] at *
    constructor <;> norm_num at * <;> linarith
  have hSr := abs_le.mp hS1
  have sA : sin (arcsin S) = S := sin_arcsin (by norm_num at *; linarith) (by norm_num at *; linarith)
  obtain ⟨x, x0, x1, ex⟩ := sin_mean (arcsin S) (-o)
  have pi3 := pi_gt_three
  obtain ⟨x2, x3, x4⟩ := sin_between (B := 0.107) (neg_pi_div_two_le_arcsin S) (arcsin_le_pi_div_two S) (by norm_num at *; linarith)
    (by linarith) x0 x1 (by rw [sA]; exact hS1) (so.trans (by norm_num))
  have cx := cos_near_zero_high x3 x4 x2
  have cx1 := cos_le_one x
  rw [sA, eS] at ex
  rw [sub_neg_eq_add] at ex
  have W0 : 0.906 * 0.5 ≤ cos d * cos f := mul_le_mul d1 f1 (by norm_num) (by linarith)
  have V0 : 0.994 * 0.51 ≤ cos x * sin H := mul_le_mul cx hs (by norm_num) (by linarith)
  have Wpos : 0 < cos d * cos f := lt_of_lt_of_le (by norm_num) W0
  have Vpos : 0 < cos x * sin H := lt_of_lt_of_le (by norm_num) V0
  have Hpos : 0 < sin H := lt_of_lt_of_le (by norm_num) hs
  have cpos : 0 < cos x := lt_of_lt_of_le (by norm_num) cx
  have main : H + (arcsin S + o) / (cos d * cos f * sin H) - k =
      P / ((cos d * cos f) * (cos x * sin H)) + ((H - k) * (cos x * sin H - sin z)) / (cos x * sin H) := by
    have e1 : arcsin S + o = (P + cos f * cos d * (-sin z * (H - k))) / cos x := by
      rw [eq_div_iff cpos.ne', ex]
      ring
    rw [e1]
    have := Wpos.ne'
    have := cpos.ne'
    have := Hpos.ne'
    have dne : cos d ≠ 0 := by intro g; rw [g] at d1; norm_num at d1
    have fne : cos f ≠ 0 := by intro g; rw [g] at f1; norm_num at f1
    field_simp
    ring
  have n1 : |P / ((cos d * cos f) * (cos x * sin H))| ≤ 0.0405 := by
    have q := mul_le_mul W0 V0 (by norm_num) Wpos.le
    rw [abs_div, abs_of_pos (mul_pos Wpos Vpos), div_le_iff₀ (mul_pos Wpos Vpos)]
    norm_num at *
    linarith
  have n2 : |((H - k) * (cos x * sin H - sin z)) / (cos x * sin H)| ≤ 0.0145 := by
    have q1 : |cos x * sin H - sin z| ≤ 0.0884 := by
      have e1 : cos x * sin H - sin z = (cos x - 1) * sin H + (sin H - sin z) := by ring
      rw [e1]
      refine (abs_add_le _ _).trans ?_
      rw [abs_mul]
      have q2 : |cos x - 1| ≤ 0.006 := by
        rw [abs_le]
        constructor <;> norm_num at * <;> linarith
      have := mul_le_mul q2 (abs_sin_le_one H) (abs_nonneg _) (by norm_num)
      norm_num at *
      linarith
    have q2 : |(H - k) * (cos x * sin H - sin z)| ≤ 0.0824 * 0.0884 := by
      rw [abs_mul]
      exact mul_le_mul hk q1 (abs_nonneg _) (by norm_num)
    rw [abs_div, abs_of_pos Vpos, div_le_iff₀ Vpos]
    norm_num at *
    linarith
  rw [main]
  refine (abs_add_le _ _).trans ?_
  norm_num at *
  linarith

/-- The hour angle as a function of the time, for more of the day. -/
theorem hourAngleAt_near {jd : ℚ} {lon : ℝ} {D : ℤ} (h : AtMidnight jd lon D) {m : ℝ} (m0 : 0.05 ≤ m) (m1 : m ≤ 0.93)
    (u0 : -179 ≤ 360 * (m - transit jd lon)) (u1 : 360 * (m - transit jd lon) ≤ 179) :
    |hourAngleAt (julianCenturies jd) (apparentSiderealTime (julianCenturies jd)) (deltaT jd : ℝ) lon m -
      360 * (m - transit jd lon)| ≤ 0.72 := by
  obtain ⟨ht, hd⟩ := midnight_tc h
  obtain ⟨E, x, k, -, -, bx, e⟩ := transit_eq h
  have dd := time_shift hd
  rw [abs_le] at dd bx
  obtain ⟨y, ey, y0, y1⟩ := interpolatedAscension_eq (t := julianCenturies jd) (n := m + (deltaT jd : ℝ) / 86400)
    (by linarith) (by norm_num at *; linarith) (by norm_num at *; linarith)
  have b : |x + 0.98564736629 * m - y| ≤ 0.72 := by
    rw [abs_le]
    constructor <;> norm_num at * <;> linarith
  have b' := abs_le.mp b
  have : hourAngleAt (julianCenturies jd) (apparentSiderealTime (julianCenturies jd)) (deltaT jd : ℝ) lon m =
      360 * (m - transit jd lon) + (x + 0.98564736629 * m - y) := by
    unfold hourAngleAt
    apply localHourAngle_eq (k := k)
    · rw [ey]
      linear_combination e
    · norm_num at *
      linarith
    · norm_num at *
      linarith
  rw [this, add_sub_cancel_left]
  exact b

/-- The times near that of the horizon; `s` is 1 for the setting and -1 for the rising. -/
def NearHigh (jd : ℚ) (lat lon s m : ℝ) : Prop :=
  |s * (360 * (m - transit jd lon)) - approxHourAngle (julianCenturies jd) lat sunOffset| ≤ 4

theorem near_time_high {jd : ℚ} {lat lon : ℝ} {D : ℤ} (h : AtMidnight jd lon D) (hl : |lat| ≤ 60) {s : ℝ}
    (hs : s = 1 ∨ s = -1) {m : ℝ} (hm : NearHigh jd lat lon s m) :
    0.05 ≤ m ∧ m ≤ 0.93 ∧ -179 ≤ 360 * (m - transit jd lon) ∧ 360 * (m - transit jd lon) ≤ 179 := by
  obtain ⟨ht, hd⟩ := midnight_tc h
  obtain ⟨E, -, -, tr, bE, -, -⟩ := transit_eq h
  obtain ⟨a0, a1, a2⟩ := hourAngle_bounds_high (tc := julianCenturies jd) (lat := lat) (by linarith) hl
  unfold NearHigh at hm
  rw [abs_le] at hm bE
  rcases hs with rfl | rfl <;> refine ⟨?_, ?_, ?_, ?_⟩ <;> norm_num at * <;> linarith

/-- The position of the sun at such a time. -/
theorem near_point_high {jd : ℚ} {lat lon : ℝ} {D : ℤ} (h : AtMidnight jd lon D) (hl : |lat| ≤ 60) {s : ℝ}
    (hs : s = 1 ∨ s = -1) {m : ℝ} (hm : NearHigh jd lat lon s m) :
    |s * dayHourAngle jd lon m - s * (360 * (m - transit jd lon))| ≤ 0.72 ∧
    |s * dayHourAngle jd lon m - approxHourAngle (julianCenturies jd) lat sunOffset| ≤ 4.72 ∧
    0.51 ≤ sinDeg (s * dayHourAngle jd lon m) ∧
    |radians (dayDeclination jd m) - radians (declination (julianCenturies jd))| ≤ 0.0077 ∧
    0.906 ≤ cosDeg (dayDeclination jd m) ∧
    s * (360 * correction jd lat lon m) =
      degrees ((arcsin (sinDeg lat * sinDeg (dayDeclination jd m) + cosDeg lat * cosDeg (dayDeclination jd m) *
        cosDeg (s * dayHourAngle jd lon m)) + radians sunOffset) /
        (cosDeg (dayDeclination jd m) * cosDeg lat * sinDeg (s * dayHourAngle jd lon m))) := by
  obtain ⟨ht, hd⟩ := midnight_tc h
  obtain ⟨m0, m1, u0, u1⟩ := near_time_high h hl hs hm
  obtain ⟨a0, a1, a2⟩ := hourAngle_bounds_high (tc := julianCenturies jd) (lat := lat) (by linarith) hl
  obtain ⟨d0, d1⟩ := declination_bounds (t := julianCenturies jd) (by linarith)
  obtain ⟨l0, l1⟩ := lat_trig_high hl
  have hH : |dayHourAngle jd lon m - 360 * (m - transit jd lon)| ≤ 0.72 := hourAngleAt_near h m0 m1 u0 u1
  have dd := time_shift hd
  rw [abs_le] at dd
  have dec := interpolatedDeclination_eq (t := julianCenturies jd) (n := m + (deltaT jd : ℝ) / 86400)
    (by linarith) (by norm_num at *; linarith) (by norm_num at *; linarith)
  have dec1 : |dayDeclination jd m - declination (julianCenturies jd)| ≤ 0.4382 := by
    refine dec.trans ?_
    norm_num at *
    linarith
  have sH : |s * dayHourAngle jd lon m - s * (360 * (m - transit jd lon))| ≤ 0.72 := by
    rcases hs with rfl | rfl
    · rwa [one_mul, one_mul]
    · rw [← mul_sub, abs_mul]
      simpa using hH
  unfold NearHigh at hm
  have sHk : |s * dayHourAngle jd lon m - approxHourAngle (julianCenturies jd) lat sunOffset| ≤ 4.72 := by
    rw [abs_le] at sH hm ⊢
    constructor <;> norm_num at * <;> linarith
  have sin_s : s * sinDeg (dayHourAngle jd lon m) = sinDeg (s * dayHourAngle jd lon m) := by
    rcases hs with rfl | rfl
    · rw [one_mul, one_mul]
    · unfold sinDeg
      rw [neg_one_mul, neg_one_mul, radians_neg, sin_neg]
  have cos_s : cosDeg (dayHourAngle jd lon m) = cosDeg (s * dayHourAngle jd lon m) := by
    rcases hs with rfl | rfl
    · rw [one_mul]
    · unfold cosDeg
      rw [neg_one_mul, radians_neg, cos_neg]
  have hsin : 0.51 ≤ sinDeg (s * dayHourAngle jd lon m) := by
    have e : sinDeg (s * dayHourAngle jd lon m) = cos (radians (s * dayHourAngle jd lon m - 90)) := by
      unfold sinDeg
      rw [radians_sub, show radians 90 = π / 2 by unfold radians; ring, cos_sub_pi_div_two]
    rw [e]
    have b1 : |s * dayHourAngle jd lon m - 90| ≤ 58.62 := by
      rw [abs_le] at sHk ⊢
      constructor <;> norm_num at * <;> linarith
    have b2 := radians_bound b1
    exact le_trans (by norm_num) (cos_ge_half b2 (by norm_num))
  have dcos : 0.906 ≤ cosDeg (dayDeclination jd m) := by
    have := cosDeg_lip (dayDeclination jd m) (declination (julianCenturies jd))
    rw [abs_le] at this
    norm_num at *
    linarith
  refine ⟨sH, sHk, hsin, ?_, dcos, ?_⟩
  · rw [← radians_sub]
    exact (radians_bound dec1).trans (by norm_num)
  · unfold correction riseSetCorrection
    simp only
    change s * (360 * ((altitude (dayDeclination jd m) lat (dayHourAngle jd lon m) + sunOffset) /
      (360 * cosDeg (dayDeclination jd m) * cosDeg lat * sinDeg (dayHourAngle jd lon m)))) = _
    unfold altitude
    rw [cos_s]
    generalize arcsin (sinDeg lat * sinDeg (dayDeclination jd m) + cosDeg lat * cosDeg (dayDeclination jd m) *
      cosDeg (s * dayHourAngle jd lon m)) = w
    have e1 : degrees w + sunOffset = degrees (w + radians sunOffset) := by rw [degrees_add, degrees_radians]
    rw [e1]
    rw [← sin_s] at hsin ⊢
    have n1 : sinDeg (dayHourAngle jd lon m) ≠ 0 := by
      intro g
      rw [g] at hsin
      norm_num at hsin
    have n2 : cosDeg (dayDeclination jd m) ≠ 0 := by
      intro g
      rw [g] at dcos
      norm_num at dcos
    have n3 : cosDeg lat ≠ 0 := by
      intro g
      rw [g] at l0
      norm_num at l0
    unfold degrees
    have := pi_ne_zero
    rcases hs with rfl | rfl <;> field_simp

/-- One correction keeps the time near that of the horizon. -/
theorem correction_step_high {jd : ℚ} {lat lon : ℝ} {D : ℤ} (h : AtMidnight jd lon D) (hl : |lat| ≤ 60) {s : ℝ}
    (hs : s = 1 ∨ s = -1) {m : ℝ} (hm : NearHigh jd lat lon s m) :
    NearHigh jd lat lon s (m + correction jd lat lon m) := by
  obtain ⟨ht, hd⟩ := midnight_tc h
  obtain ⟨a0, a1, a2⟩ := hourAngle_bounds_high (tc := julianCenturies jd) (lat := lat) (by linarith) hl
  obtain ⟨c0, c1, c2⟩ := cosH0_bounds_high (tc := julianCenturies jd) (lat := lat) (by linarith) hl
  obtain ⟨l0, l1⟩ := lat_trig_high hl
  obtain ⟨d0, d1⟩ := declination_bounds (t := julianCenturies jd) (by linarith)
  obtain ⟨o0, o1, -, -⟩ := offset_bounds
  obtain ⟨sH, sHk, hsin, ddr, dcos, corr⟩ := near_point_high h hl hs hm
  have step := newton_step_high (f := radians lat) (e := radians (declination (julianCenturies jd)))
    (d := radians (dayDeclination jd m)) (k := radians (approxHourAngle (julianCenturies jd) lat sunOffset))
    (H := radians (s * dayHourAngle jd lon m)) (o := radians sunOffset) l0 l1 d0 dcos ddr
    (by
      change |cosDeg _| ≤ _
      rw [a2, abs_le]
      constructor <;> norm_num at * <;> linarith)
    (by
      rw [← radians_neg]
      change _ + _ * cosDeg _ = _
      rw [a2]
      exact c2)
    (by norm_num at *; linarith) o1
    (by
      rw [← radians_sub]
      exact (radians_bound sHk).trans (by norm_num))
    hsin
  have fin : |s * dayHourAngle jd lon m + s * (360 * correction jd lat lon m) -
      approxHourAngle (julianCenturies jd) lat sunOffset| ≤ 3.2 := by
    rw [corr]
    rw [← degrees_radians (approxHourAngle (julianCenturies jd) lat sunOffset)]
    have : s * dayHourAngle jd lon m = degrees (radians (s * dayHourAngle jd lon m)) := (degrees_radians _).symm
    conv_lhs =>
      enter [1, 1, 1]
      rw [this]
    rw [← degrees_add, ← degrees_sub, degrees_abs]
    apply degrees_le _ (by norm_num)
    exact step.trans (by norm_num)
  unfold NearHigh
  have split : s * (360 * (m + correction jd lat lon m - transit jd lon)) -
      approxHourAngle (julianCenturies jd) lat sunOffset =
      (s * dayHourAngle jd lon m + s * (360 * correction jd lat lon m) -
        approxHourAngle (julianCenturies jd) lat sunOffset) -
      (s * dayHourAngle jd lon m - s * (360 * (m - transit jd lon))) := by ring
  rw [split]
  refine (abs_sub _ _).trans ?_
  norm_num at *
  linarith

theorem refine_near_high {jd : ℚ} {lat lon : ℝ} {D : ℤ} (h : AtMidnight jd lon D) (hl : |lat| ≤ 60) {s : ℝ}
    (hs : s = 1 ∨ s = -1) (n : ℕ) (m : ℝ) (hm : NearHigh jd lat lon s m) :
    NearHigh jd lat lon s (refineTime (julianCenturies jd) (apparentSiderealTime (julianCenturies jd)) (deltaT jd : ℝ) lat lon
      sunOffset n m) := by
  induction n generalizing m with
  | zero => exact hm
  | succ n ih =>
    have := correction_step_high h hl hs hm
    unfold refineTime
    simp only
    split_ifs
    · exact this
    · exact ih _ this

/-- The times of the setting and of the rising, as fractions of the day. -/
theorem setting_bounds_high {jd : ℚ} {lat lon : ℝ} {D : ℤ} (h : AtMidnight jd lon D) (hl : |lat| ≤ 60) :
    212.9 / 360 ≤ risingSetting jd lat lon sunOffset true ∧ risingSetting jd lat lon sunOffset true ≤ 333.2 / 360 := by
  obtain ⟨ht, -⟩ := midnight_tc h
  obtain ⟨E, -, -, tr, bE, -, -⟩ := transit_eq h
  obtain ⟨a0, a1, -⟩ := hourAngle_bounds_high (tc := julianCenturies jd) (lat := lat) (by linarith) hl
  have b := refine_near_high h hl (s := 1) (Or.inl rfl) 3
    (transit jd lon + approxHourAngle (julianCenturies jd) lat sunOffset / 360) (by
      unfold NearHigh
      rw [add_sub_cancel_left, one_mul, mul_div_cancel₀ _ (by norm_num : (360 : ℝ) ≠ 0), sub_self, abs_zero]
      norm_num)
  have e : risingSetting jd lat lon sunOffset true = mod1 (refineTime (julianCenturies jd)
      (apparentSiderealTime (julianCenturies jd)) (deltaT jd : ℝ) lat lon sunOffset 3
      (transit jd lon + approxHourAngle (julianCenturies jd) lat sunOffset / 360)) := rfl
  rw [e]
  unfold NearHigh at b
  generalize refineTime _ _ _ _ _ _ _ _ = r at b ⊢
  rw [tr] at b
  rw [abs_le] at b bE
  rw [mod1_eq (y := r) (k := 0) (by simp) (by norm_num at *; linarith) (by norm_num at *; linarith)]
  constructor <;> norm_num at * <;> linarith

theorem rising_bounds_high {jd : ℚ} {lat lon : ℝ} {D : ℤ} (h : AtMidnight jd lon D) (hl : |lat| ≤ 60) :
    26.8 / 360 ≤ risingSetting jd lat lon sunOffset false ∧ risingSetting jd lat lon sunOffset false ≤ 147.1 / 360 := by
  obtain ⟨ht, -⟩ := midnight_tc h
  obtain ⟨E, -, -, tr, bE, -, -⟩ := transit_eq h
  obtain ⟨a0, a1, -⟩ := hourAngle_bounds_high (tc := julianCenturies jd) (lat := lat) (by linarith) hl
  have b := refine_near_high h hl (s := -1) (Or.inr rfl) 3
    (transit jd lon - approxHourAngle (julianCenturies jd) lat sunOffset / 360) (by
      unfold NearHigh
      rw [show (-1 : ℝ) * (360 * (transit jd lon - approxHourAngle (julianCenturies jd) lat sunOffset / 360 - transit jd lon)) -
        approxHourAngle (julianCenturies jd) lat sunOffset = 0 by ring, abs_zero]
      norm_num)
  have e : risingSetting jd lat lon sunOffset false = mod1 (refineTime (julianCenturies jd)
      (apparentSiderealTime (julianCenturies jd)) (deltaT jd : ℝ) lat lon sunOffset 3
      (transit jd lon - approxHourAngle (julianCenturies jd) lat sunOffset / 360)) := rfl
  rw [e]
  unfold NearHigh at b
  generalize refineTime _ _ _ _ _ _ _ _ = r at b ⊢
  rw [tr] at b
  rw [abs_le] at b bE
  rw [mod1_eq (y := r) (k := 0) (by simp) (by norm_num at *; linarith) (by norm_num at *; linarith)]
  constructor <;> norm_num at * <;> linarith

end Verif.Solar
