import Verif.Lemmas.SolarHigh

/-!
# The sun crosses the horizon, or does not
-/

namespace Verif.Solar

open Real

theorem sin_near_right {z : ℝ} (h : |z - π / 2| ≤ 1.0232) : 0.51 ≤ sin z := by
  have e : sin z = cos (z - π / 2) := by rw [cos_sub_pi_div_two]
  rw [e]
  exact le_trans (by norm_num) (cos_ge_half h (by norm_num))

/-- Some degrees after the hour angle of the horizon the sun is below it, some degrees before above. -/
theorem horizon_side {f e d k H o : ℝ} (f1 : 0.5 ≤ cos f) (f2 : |sin f| ≤ 0.8661) (e1 : |sin e| ≤ 0.4053)
    (d1 : 0.906 ≤ cos d) (de : |d - e| ≤ 0.0077) (k1 : |cos k| ≤ 0.8002)
    (horizon : sin f * sin e + cos f * cos e * cos k = sin (-o)) (hH : |H - π / 2| ≤ 1.0232) (hk : |k - π / 2| ≤ 1.0232) :
    (0.057 ≤ H - k → sin f * sin d + cos f * cos d * cos H < sin (-o)) ∧
    (H - k ≤ -0.057 → sin (-o) < sin f * sin d + cos f * cos d * cos H) := by
  set P := sin f * (sin d - sin e) + cos f * (cos d - cos e) * cos k with hP
  have hP1 : |P| ≤ 0.0131 := by
    have q1 : |sin d - sin e| ≤ 0.0077 := (abs_sin_sub_sin_le d e).trans de
    have q2 : |cos d - cos e| ≤ 0.00319 := by
      obtain ⟨t, t0, t1, q⟩ := cos_mean d e
      have te : |t - e| ≤ 0.0077 := by
        rw [abs_le] at de ⊢
        rcases min_le_iff.mp t0 with g | g <;> rcases le_max_iff.mp t1 with g' | g' <;> constructor <;> linarith
      have st : |sin t| ≤ 0.413 := by
        have q3 : |sin t - sin e| ≤ 0.0077 := (abs_sin_sub_sin_le t e).trans te
        rw [abs_le] at q3 e1 ⊢
        constructor <;> norm_num at * <;> linarith
      rw [q, abs_mul, abs_neg]
      have := mul_le_mul st de (abs_nonneg _) (by norm_num)
      norm_num at *
      linarith
    rw [hP]
    refine (abs_add_le _ _).trans ?_
    rw [abs_mul, abs_mul, abs_mul]
    have q4 := mul_le_mul f2 q1 (abs_nonneg _) (by norm_num)
    have q5 := mul_le_mul (abs_cos_le_one f) q2 (abs_nonneg _) (by norm_num)
    have q6 := mul_le_mul q5 k1 (abs_nonneg _) (by norm_num)
    norm_num at *
    linarith
  obtain ⟨z, z0, z1, ez⟩ := cos_mean H k
  have sz : 0.51 ≤ sin z := by
    apply sin_near_right
    rw [abs_le] at hH hk ⊢
    rcases min_le_iff.mp z0 with g | g <;> rcases le_max_iff.mp z1 with g' | g' <;> constructor <;> linarith
  have eS : sin f * sin d + cos f * cos d * cos H - sin (-o) = P - cos f * cos d * sin z * (H - k) := by
    have : cos H = cos k + -sin z * (H - k) := by linarith
    rw [← horizon, hP, this]
    ring
  have w : 0.5 * 0.906 * 0.51 ≤ cos f * cos d * sin z :=
    mul_le_mul (mul_le_mul f1 d1 (by norm_num) (by linarith)) sz (by norm_num) (mul_nonneg (by linarith) (by linarith))
  have hP2 := abs_le.mp hP1
  constructor
  · intro g
    have := mul_le_mul w g (by norm_num) (by linarith)
    norm_num at *
    linarith
  · intro g
    have := mul_le_mul w (show 0.057 ≤ k - H by linarith) (by norm_num) (by linarith)
    have e2 : cos f * cos d * sin z * (H - k) = -(cos f * cos d * sin z * (k - H)) := by ring
    rw [e2] at eS
    norm_num at *
    linarith

/-- `s` times the hour angle four degrees on either side of the first estimate. -/
theorem side_altitude {jd : ℚ} {lat lon : ℝ} {D : ℤ} (h : AtMidnight jd lon D) (hl : |lat| ≤ 60) {s : ℝ}
    (hs : s = 1 ∨ s = -1) {m : ℝ} (hm : NearHigh jd lat lon s m) :
    (s * (360 * (m - transit jd lon)) - approxHourAngle (julianCenturies jd) lat sunOffset = 4 →
      sinDeg lat * sinDeg (dayDeclination jd m) + cosDeg lat * cosDeg (dayDeclination jd m) * cosDeg (dayHourAngle jd lon m) <
        sinDeg (-sunOffset)) ∧
    (s * (360 * (m - transit jd lon)) - approxHourAngle (julianCenturies jd) lat sunOffset = -4 →
      sinDeg (-sunOffset) <
      sinDeg lat * sinDeg (dayDeclination jd m) + cosDeg lat * cosDeg (dayDeclination jd m) * cosDeg (dayHourAngle jd lon m)) := by
  obtain ⟨ht, hd⟩ := midnight_tc h
  obtain ⟨a0, a1, a2⟩ := hourAngle_bounds_high (tc := julianCenturies jd) (lat := lat) (by linarith) hl
  obtain ⟨c0, c1, c2⟩ := cosH0_bounds_high (tc := julianCenturies jd) (lat := lat) (by linarith) hl
  obtain ⟨l0, l1⟩ := lat_trig_high hl
  obtain ⟨d0, d1⟩ := declination_bounds (t := julianCenturies jd) (by linarith)
  obtain ⟨sH, sHk, -, ddr, dcos, -⟩ := near_point_high h hl hs hm
  have cos_s : cosDeg (dayHourAngle jd lon m) = cosDeg (s * dayHourAngle jd lon m) := by
    rcases hs with rfl | rfl
    · rw [one_mul]
    · unfold cosDeg
      rw [neg_one_mul, radians_neg, cos_neg]
  have r90 : π / 2 = radians 90 := by unfold radians; ring
  rw [abs_le] at sH sHk
  have key := horizon_side (f := radians lat) (e := radians (declination (julianCenturies jd)))
    (d := radians (dayDeclination jd m)) (k := radians (approxHourAngle (julianCenturies jd) lat sunOffset))
    (H := radians (s * dayHourAngle jd lon m)) (o := radians sunOffset) l0 l1 d0 dcos ddr
    (by
      change |cosDeg _| ≤ _
      rw [a2, abs_le]
      constructor <;> norm_num at * <;> linarith)
    (by
      rw [← radians_neg]
      change _ + _ * cosDeg _ = _
      rw [a2]
      exact c2)
    (by
      rw [r90, ← radians_sub]
      refine (radians_bound (B := 58.62) ?_).trans (by norm_num)
      rw [abs_le]
      constructor <;> norm_num at * <;> linarith)
    (by
      rw [r90, ← radians_sub]
      refine (radians_bound (B := 58.62) ?_).trans (by norm_num)
      rw [abs_le]
      constructor <;> norm_num at * <;> linarith)
  rw [cos_s]
  have db := degree_bounds
  rw [← radians_sub, ← radians_neg] at key
  constructor
  · intro g
    apply key.1
    unfold radians
    have q : 3.28 ≤ s * dayHourAngle jd lon m - approxHourAngle (julianCenturies jd) lat sunOffset := by
      norm_num at *; linarith
    have := mul_le_mul q db.1.le (by norm_num) (by norm_num at *; linarith)
    norm_num at *
    linarith
  · intro g
    apply key.2
    unfold radians
    have q : 3.28 ≤ -(s * dayHourAngle jd lon m - approxHourAngle (julianCenturies jd) lat sunOffset) := by
      norm_num at *; linarith
    have := mul_le_mul q db.1.le (by norm_num) (by norm_num at *; linarith)
    norm_num at *
    linarith

end Verif.Solar
