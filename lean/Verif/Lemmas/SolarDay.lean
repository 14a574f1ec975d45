import Verif.Lemmas.SolarNewton

/-!
# Rising and setting over the day
-/

namespace Verif.Solar

open Real

/-! ## The hour angle of the horizon -/

theorem lat_trig {lat : ℝ} (h : |lat| ≤ 36) : 0.809 ≤ cosDeg lat ∧ |sinDeg lat| ≤ 0.588 := by
  have h1 : 0.809 ≤ cosDeg lat := by
    unfold cosDeg
    rw [← cos_abs, radians_abs]
    have h2 : radians |lat| ≤ π / 5 := by
      refine (radians_le h).trans ?_
      unfold radians
      linarith
    have h3 : 0 ≤ radians |lat| := by
      unfold radians
      have := pi_pos
      positivity
    have h4 := cos_le_cos_of_nonneg_of_le_pi h3 (by linarith [pi_pos]) h2
    rw [cos_pi_div_five] at h4
    have h5 : (2.236 : ℝ) ≤ √5 := le_sqrt_of_sq_le (by norm_num)
    norm_num at *
    linarith
  refine ⟨h1, ?_⟩
  have h2 := sin_sq_add_cos_sq (radians lat)
  change sinDeg lat ^ 2 + cosDeg lat ^ 2 = 1 at h2
  apply abs_le_of_sq_le_sq _ (by norm_num)
  norm_num at *
  nlinarith

theorem offset_bounds : 0.0145 ≤ radians sunOffset ∧ radians sunOffset ≤ 0.0146 ∧ sinDeg (-sunOffset) ≤ -0.01449 ∧
    -0.0146 ≤ sinDeg (-sunOffset) := by
  have h0 : 0.0145 ≤ radians sunOffset := by
    unfold radians sunOffset
    have := degree_bounds.1
    norm_num at *
    linarith
  have h1 : radians sunOffset ≤ 0.0146 := by
    unfold radians sunOffset
    have := degree_bounds.2
    norm_num at *
    linarith
  refine ⟨h0, h1, ?_, ?_⟩
  · unfold sinDeg
    rw [radians_neg, sin_neg]
    have h2 := sin_ge_sub_cube (x := radians sunOffset) (by linarith)
    have h3 : radians sunOffset ^ 3 ≤ 0.0146 ^ 3 := pow_le_pow_left₀ (by linarith) h1 3
    norm_num at *
    linarith
  · unfold sinDeg
    rw [radians_neg, sin_neg]
    have := sin_le (x := radians sunOffset) (by linarith)
    linarith

theorem cosH0_bounds {tc lat : ℝ} (ht : |tc| ≤ 20.1) (hl : |lat| ≤ 36) :
    -0.3421 ≤ cosH0 tc lat sunOffset ∧ cosH0 tc lat sunOffset ≤ 0.3028 ∧
    sinDeg lat * sinDeg (declination tc) + cosDeg lat * cosDeg (declination tc) * cosH0 tc lat sunOffset =
      sinDeg (-sunOffset) := by
  obtain ⟨l1, l2⟩ := lat_trig hl
  obtain ⟨d1, d2⟩ := declination_bounds ht
  obtain ⟨-, -, o1, o2⟩ := offset_bounds
  have p := mul_le_mul l2 d1 (abs_nonneg _) (by norm_num)
  rw [← abs_mul, abs_le] at p
  have q := mul_le_mul l1 d2 (by norm_num) (by linarith)
  have q0 : 0 < cosDeg lat * cosDeg (declination tc) := by norm_num at *; linarith
  unfold cosH0
  refine ⟨?_, ?_, ?_⟩
  · rw [le_div_iff₀ q0]
    norm_num at *
    linarith
  · rw [div_le_iff₀ q0]
    norm_num at *
    linarith
  · rw [mul_div_cancel₀ _ q0.ne']
    ring

theorem hourAngle_bounds {tc lat : ℝ} (ht : |tc| ≤ 20.1) (hl : |lat| ≤ 36) :
    72 ≤ approxHourAngle tc lat sunOffset ∧ approxHourAngle tc lat sunOffset ≤ 110.1 ∧
    cosDeg (approxHourAngle tc lat sunOffset) = cosH0 tc lat sunOffset := by
  obtain ⟨c1, c2, -⟩ := cosH0_bounds ht hl
  have e : approxHourAngle tc lat sunOffset = degrees (arccos (cosH0 tc lat sunOffset)) := by
    unfold approxHourAngle
    rw [if_neg]
    rintro (h | h) <;> norm_num at * <;> linarith
  rw [e]
  have pi0 := pi_gt_d6
  have pi1 := pi_lt_d6
  refine ⟨?_, ?_, ?_⟩
  · rw [le_degrees_iff, arccos_eq_pi_div_two_sub_arcsin]
    have h : arcsin (cosH0 tc lat sunOffset) ≤ radians 18 := by
      rw [arcsin_le_iff_le_sin' ⟨by unfold radians; linarith, by unfold radians; linarith⟩]
      have h1 : 0.31415 ≤ radians 18 := by unfold radians; norm_num at *; linarith
      have h2 : radians 18 ≤ 0.31416 := by unfold radians; norm_num at *; linarith
      have h3 := sin_ge_sub_cube (x := radians 18) (by norm_num at *; linarith)
      have h4 : radians 18 ^ 3 ≤ 0.31416 ^ 3 := pow_le_pow_left₀ (by norm_num at *; linarith) h2 3
      norm_num at *
      linarith
    unfold radians at *
    linarith
  · rw [degrees_le_iff, arccos_eq_pi_div_two_sub_arcsin]
    have h : -radians 20.1 ≤ arcsin (cosH0 tc lat sunOffset) := by
      rw [le_arcsin_iff_sin_le' ⟨by unfold radians; norm_num at *; linarith, by unfold radians; norm_num at *; linarith⟩,
        sin_neg]
      have h1 : 0.3508 ≤ radians 20.1 := by unfold radians; norm_num at *; linarith
      have h2 : radians 20.1 ≤ 0.35082 := by unfold radians; norm_num at *; linarith
      have h3 := sin_ge_sub_cube (x := radians 20.1) (by norm_num at *; linarith)
      have h4 : radians 20.1 ^ 3 ≤ 0.35082 ^ 3 := pow_le_pow_left₀ (by norm_num at *; linarith) h2 3
      norm_num at *
      linarith
    unfold radians at *
    norm_num at *
    linarith
  · rw [cosDeg, radians_degrees, cos_arccos (by norm_num at *; linarith) (by norm_num at *; linarith)]

/-! ## The transit -/

theorem localHourAngle_eq {srt lon a z : ℝ} {k : ℤ} (h : srt + lon - a = z + 360 * k) (z0 : -180 < z) (z1 : z ≤ 180) :
    localHourAngle srt lon a = z := by
  unfold localHourAngle
  by_cases hz : 0 ≤ z
  · rw [coterminal_eq h hz (by linarith), if_neg (by linarith)]
  · have : srt + lon - a = (z + 360) + 360 * ((k - 1 : ℤ) : ℝ) := by
      rw [h]
      push_cast
      ring
    rw [coterminal_eq this (by linarith) (by linarith), if_pos (by linarith)]
    ring

/-- The moment `jd` is the local midnight that begins the day `D`, but for an error of a tenth of a second. -/
def AtMidnight (jd : ℚ) (lon : ℝ) (D : ℤ) : Prop :=
  1721000 ≤ D ∧ D ≤ 2820000 ∧ |lon| ≤ 180 ∧ |(jd : ℝ) - (D - 1 / 2 - lon / 360)| ≤ 0.000001

theorem midnight_tc {jd : ℚ} {lon : ℝ} {D : ℤ} (h : AtMidnight jd lon D) :
    |julianCenturies jd| ≤ 20.01 ∧ |((deltaT jd : ℚ) : ℝ)| ≤ 0.3125 := by
  obtain ⟨D0, D1, hl, hj⟩ := h
  have D0' : (1721000 : ℝ) ≤ D := by exact_mod_cast D0
  have D1' : (D : ℝ) ≤ 2820000 := by exact_mod_cast D1
  rw [abs_le] at hl hj
  have j0 : (1720998 : ℝ) ≤ jd := by norm_num at *; linarith
  have j1 : (jd : ℝ) ≤ 2820002 := by norm_num at *; linarith
  refine ⟨?_, deltaT_abs (by exact_mod_cast j0) (by exact_mod_cast j1)⟩
  unfold julianCenturies
  rw [abs_le]
  constructor
  · rw [le_div_iff₀ (by norm_num)]
    norm_num at *
    linarith
  · rw [div_le_iff₀ (by norm_num)]
    norm_num at *
    linarith

theorem transit_eq {jd : ℚ} {lon : ℝ} {D : ℤ} (h : AtMidnight jd lon D) :
    ∃ E x : ℝ, ∃ k : ℤ, transit jd lon = (180 + E) / 360 ∧ |E| ≤ 5.3 ∧ |x| ≤ 0.4484 ∧
      apparentSiderealTime (julianCenturies jd) + lon =
        rightAscension (julianCenturies jd) + x - 360 * transit jd lon + 360 * k := by
  obtain ⟨ht, hd⟩ := midnight_tc h
  obtain ⟨D0, D1, hl, hj⟩ := h
  set tc := julianCenturies jd with htc
  have ejd : (jd : ℝ) = 2451545 + 36525 * tc := by
    rw [htc]
    unfold julianCenturies
    ring
  obtain ⟨x, j1, e1, b1, -⟩ := ascension_change (t := tc) (h := (deltaT jd : ℝ) / 36525) (by linarith) (by
    rw [abs_div, abs_of_pos (show (0 : ℝ) < 36525 by norm_num)]
    apply div_le_div_of_nonneg_right _ (by norm_num)
    linarith)
  obtain ⟨y, j2, e2, b2⟩ := ascension_reduction (t := tc) (by linarith)
  have bx : |x| ≤ 0.4484 := by
    refine b1.trans ?_
    rw [abs_div, abs_of_pos (show (0 : ℝ) < 36525 by norm_num)]
    have := abs_nonneg (deltaT jd : ℝ)
    rw [div_le_iff₀ (by norm_num)]
    norm_num at *
    linarith
  set nu := nutationLongitude tc * cosDeg (trueObliquity tc) with hnu
  have bn : |nu| ≤ 0.0056 := by
    rw [hnu, abs_mul]
    have := mul_le_mul (nutationLongitude_abs (tc := tc) (by linarith)) (abs_cosDeg (trueObliquity tc)) (abs_nonneg _) (by norm_num)
    linarith
  obtain ⟨k1, g1, -, -⟩ := coterminal_spec (280.46061837 + 360.98564736629 * (tc * 36525) + 0.000387933 * tc ^ 2 - tc ^ 3 / 38710000)
  obtain ⟨k2, g2, -, -⟩ := coterminal_spec (meanSiderealTime tc + nu)
  have g1' : meanSiderealTime tc = _ := g1
  have g2' : apparentSiderealTime tc = _ := g2
  rw [g1'] at g2'
  set e := (jd : ℝ) - (D - 1 / 2 - lon / 360) with he
  have elon : lon = 360 * D - 180 - 360 * (2451545 + 36525 * tc) + 360 * e := by
    rw [he, ejd]
    ring
  have q2 : |0.0000847330 * tc ^ 2| ≤ 0.034 := by
    rw [abs_mul, abs_of_pos (show (0 : ℝ) < 0.0000847330 by norm_num), abs_pow]
    have : |tc| ^ 2 ≤ 20.01 ^ 2 := pow_le_pow_left₀ (abs_nonneg _) ht 2
    norm_num at *
    linarith
  have q3 : |tc ^ 3 / 38710000| ≤ 0.0003 := by
    rw [abs_div, abs_of_pos (show (0 : ℝ) < 38710000 by norm_num), abs_pow, div_le_iff₀ (by norm_num)]
    have : |tc| ^ 3 ≤ 20.01 ^ 3 := pow_le_pow_left₀ (abs_nonneg _) ht 3
    norm_num at *
    linarith
  set E := 0.00584163 + (36000.76983 - 0.98564736629 * 36525) * tc - 0.0000847330 * tc ^ 2 + tc ^ 3 / 38710000 - 360 * e +
    y + x - nu with hE
  have bE : |E| ≤ 5.3 := by
    rw [hE]
    rw [abs_le] at *
    constructor <;> norm_num at * <;> linarith
  have comm : (deltaT jd : ℝ) / 36525 + tc = tc + (deltaT jd : ℝ) / 36525 := add_comm _ _
  have target : rightAscension (tc + (deltaT jd : ℝ) / 36525) - lon - apparentSiderealTime tc =
      180 + E + 360 * ((j1 + j2 + k1 + k2 - D + 2451545 : ℤ) : ℝ) := by
    rw [e1, e2, g2', hE]
    unfold rawLongitude
    push_cast
    linear_combination -elon
  have bE' := abs_le.mp bE
  have tr : transit jd lon = (180 + E) / 360 := by
    unfold transit
    simp only
    rw [← htc, comm, target]
    apply mod1_eq (k := j1 + j2 + k1 + k2 - D + 2451545)
    · ring
    · norm_num at *
      linarith
    · norm_num at *
      linarith
  refine ⟨E, x, j1 - (j1 + j2 + k1 + k2 - D + 2451545), tr, bE, bx, ?_⟩
  rw [tr]
  rw [e1] at target
  push_cast at target ⊢
  linarith

/-! ## The corrections -/

theorem time_shift {x : ℝ} (hd : |x| ≤ 0.3125) : |x / 86400| ≤ 0.000004 := by
  rw [abs_div, abs_of_pos (show (0 : ℝ) < 86400 by norm_num), div_le_iff₀ (by norm_num)]
  norm_num at *
  linarith

/-- The hour angle as a function of the time. -/
theorem hourAngleAt_form {jd : ℚ} {lon : ℝ} {D : ℤ} (h : AtMidnight jd lon D) :
    ∃ x a b : ℝ, 0.83 ≤ a ∧ a ≤ 1.27 ∧ 0.83 ≤ b ∧ b ≤ 1.27 ∧ ∀ m : ℝ, 0.1 ≤ m → m ≤ 0.84 →
      -179 ≤ 360 * (m - transit jd lon) → 360 * (m - transit jd lon) ≤ 179 →
      hourAngleAt (julianCenturies jd) (apparentSiderealTime (julianCenturies jd)) (deltaT jd : ℝ) lon m =
        360 * (m - transit jd lon) + (x + 0.98564736629 * m - (m + (deltaT jd : ℝ) / 86400) / 2 *
          (a + b + (m + (deltaT jd : ℝ) / 86400) * (b - a))) ∧
      |x + 0.98564736629 * m - (m + (deltaT jd : ℝ) / 86400) / 2 *
          (a + b + (m + (deltaT jd : ℝ) / 86400) * (b - a))| ≤ 0.69 := by
  obtain ⟨ht, hd⟩ := midnight_tc h
  obtain ⟨E, x, k, -, -, bx, e⟩ := transit_eq h
  have dd := time_shift hd
  rw [abs_le] at dd bx
  obtain ⟨a, b, a0, a1, b0, b1, form⟩ := interpolatedAscension_form (t := julianCenturies jd) (by linarith)
  refine ⟨x, a, b, a0, a1, b0, b1, ?_⟩
  intro m m0 m1 u0 u1
  obtain ⟨y, ey, y0, y1⟩ := interpolatedAscension_eq (t := julianCenturies jd) (n := m + (deltaT jd : ℝ) / 86400)
    (by linarith) (by norm_num at *; linarith) (by norm_num at *; linarith)
  have ey' : (m + (deltaT jd : ℝ) / 86400) / 2 * (a + b + (m + (deltaT jd : ℝ) / 86400) * (b - a)) = y := by
    have := form (m + (deltaT jd : ℝ) / 86400)
    rw [ey] at this
    linarith
  rw [ey']
  have b : |x + 0.98564736629 * m - y| ≤ 0.69 := by
    rw [abs_le]
    constructor <;> norm_num at * <;> linarith
  have b' := abs_le.mp b
  refine ⟨?_, b⟩
  unfold hourAngleAt
  apply localHourAngle_eq (k := k)
  · rw [ey]
    linear_combination e
  · norm_num at *
    linarith
  · norm_num at *
    linarith

/-- The times near that of the horizon; `s` is 1 for the setting and -1 for the rising. -/
def Near (jd : ℚ) (lat lon s m : ℝ) : Prop :=
  |s * (360 * (m - transit jd lon)) - approxHourAngle (julianCenturies jd) lat sunOffset| ≤ 2

/-- `riseSetCorrection` for the day. -/
noncomputable def correction (jd : ℚ) (lat lon m : ℝ) : ℝ :=
  riseSetCorrection (julianCenturies jd) (apparentSiderealTime (julianCenturies jd)) (deltaT jd : ℝ) lat lon m sunOffset

/-- The declination for the day. -/
noncomputable def dayDeclination (jd : ℚ) (m : ℝ) : ℝ :=
  interpolatedDeclination (julianCenturies jd) (m + (deltaT jd : ℝ) / 86400)

/-- The hour angle for the day. -/
noncomputable def dayHourAngle (jd : ℚ) (lon m : ℝ) : ℝ :=
  hourAngleAt (julianCenturies jd) (apparentSiderealTime (julianCenturies jd)) (deltaT jd : ℝ) lon m

theorem radians_bound {x B : ℝ} (hx : |x| ≤ B) : |radians x| ≤ 0.0174534 * B := by
  rw [radians_abs]
  unfold radians
  have := degree_bounds.2
  have := degree_bounds.1
  have := abs_nonneg x
  nlinarith

theorem near_time {jd : ℚ} {lat lon : ℝ} {D : ℤ} (h : AtMidnight jd lon D) (hl : |lat| ≤ 36) {s : ℝ}
    (hs : s = 1 ∨ s = -1) {m : ℝ} (hm : Near jd lat lon s m) :
    0.1 ≤ m ∧ m ≤ 0.84 ∧ -179 ≤ 360 * (m - transit jd lon) ∧ 360 * (m - transit jd lon) ≤ 179 := by
  obtain ⟨ht, hd⟩ := midnight_tc h
  obtain ⟨E, -, -, tr, bE, -, -⟩ := transit_eq h
  obtain ⟨a0, a1, a2⟩ := hourAngle_bounds (tc := julianCenturies jd) (lat := lat) (by linarith) hl
  unfold Near at hm
  rw [abs_le] at hm bE
  rcases hs with rfl | rfl <;> refine ⟨?_, ?_, ?_, ?_⟩ <;> norm_num at * <;> linarith

/-- The position of the sun at such a time. -/
theorem near_point {jd : ℚ} {lat lon : ℝ} {D : ℤ} (h : AtMidnight jd lon D) (hl : |lat| ≤ 36) {s : ℝ}
    (hs : s = 1 ∨ s = -1) {m : ℝ} (hm : Near jd lat lon s m) :
    |s * dayHourAngle jd lon m - s * (360 * (m - transit jd lon))| ≤ 0.69 ∧
    |s * dayHourAngle jd lon m - approxHourAngle (julianCenturies jd) lat sunOffset| ≤ 2.69 ∧
    0.92 ≤ sinDeg (s * dayHourAngle jd lon m) ∧
    |radians (dayDeclination jd m) - radians (declination (julianCenturies jd))| ≤ 0.007 ∧
    0.9 ≤ cosDeg (dayDeclination jd m) ∧
    s * (360 * correction jd lat lon m) =
      degrees ((arcsin (sinDeg lat * sinDeg (dayDeclination jd m) + cosDeg lat * cosDeg (dayDeclination jd m) *
        cosDeg (s * dayHourAngle jd lon m)) + radians sunOffset) /
        (cosDeg (dayDeclination jd m) * cosDeg lat * sinDeg (s * dayHourAngle jd lon m))) := by
  obtain ⟨ht, hd⟩ := midnight_tc h
  obtain ⟨m0, m1, u0, u1⟩ := near_time h hl hs hm
  obtain ⟨a0, a1, a2⟩ := hourAngle_bounds (tc := julianCenturies jd) (lat := lat) (by linarith) hl
  obtain ⟨d0, d1⟩ := declination_bounds (t := julianCenturies jd) (by linarith)
  obtain ⟨l0, l1⟩ := lat_trig hl
  obtain ⟨x, a, b, -, -, -, -, form⟩ := hourAngleAt_form h
  have hH : |dayHourAngle jd lon m - 360 * (m - transit jd lon)| ≤ 0.69 := by
    obtain ⟨e, b⟩ := form m m0 m1 u0 u1
    unfold dayHourAngle
    rw [e, add_sub_cancel_left]
    exact b
  have dd := time_shift hd
  rw [abs_le] at dd
  have dec := interpolatedDeclination_eq (t := julianCenturies jd) (n := m + (deltaT jd : ℝ) / 86400)
    (by linarith) (by norm_num at *; linarith) (by norm_num at *; linarith)
  have dec1 : |dayDeclination jd m - declination (julianCenturies jd)| ≤ 0.396 := by
    refine dec.trans ?_
    norm_num at *
    linarith
  have sH : |s * dayHourAngle jd lon m - s * (360 * (m - transit jd lon))| ≤ 0.69 := by
    rcases hs with rfl | rfl
    · rwa [one_mul, one_mul]
    · rw [← mul_sub, abs_mul]
      simpa using hH
  unfold Near at hm
  have sHk : |s * dayHourAngle jd lon m - approxHourAngle (julianCenturies jd) lat sunOffset| ≤ 2.69 := by
    rw [abs_le] at sH hm ⊢
    constructor <;> norm_num at * <;> linarith
  have sin_s : s * sinDeg (dayHourAngle jd lon m) = sinDeg (s * dayHourAngle jd lon m) := by
    rcases hs with rfl | rfl
    · rw [one_mul, one_mul]
    · unfold sinDeg
      rw [neg_one_mul, neg_one_mul, radians_neg, sin_neg]
  have cos_s : cosDeg (dayHourAngle jd lon m) = cosDeg (s * dayHourAngle jd lon m) := by
    rcases hs with rfl | rfl
    · rw [one_mul]
    · unfold cosDeg
      rw [neg_one_mul, radians_neg, cos_neg]
  have hsin : 0.92 ≤ sinDeg (s * dayHourAngle jd lon m) := by
    have e : sinDeg (s * dayHourAngle jd lon m) = cos (radians (s * dayHourAngle jd lon m - 90)) := by
      unfold sinDeg
      rw [radians_sub, show radians 90 = π / 2 by unfold radians; ring, cos_sub_pi_div_two]
    rw [e]
    have b1 : |s * dayHourAngle jd lon m - 90| ≤ 22.8 := by
      rw [abs_le] at sHk ⊢
      constructor <;> norm_num at * <;> linarith
    have b2 := radians_bound b1
    have b3 : radians (s * dayHourAngle jd lon m - 90) ^ 2 ≤ (0.0174534 * 22.8) ^ 2 := by
      rw [← sq_abs]
      exact pow_le_pow_left₀ (abs_nonneg _) b2 2
    have b4 := one_sub_sq_div_two_le_cos (x := radians (s * dayHourAngle jd lon m - 90))
    norm_num at *
    linarith
  have dcos : 0.9 ≤ cosDeg (dayDeclination jd m) := by
    have := cosDeg_lip (dayDeclination jd m) (declination (julianCenturies jd))
    rw [abs_le] at this
    norm_num at *
    linarith
  refine ⟨sH, sHk, hsin, ?_, dcos, ?_⟩
  · rw [← radians_sub]
    exact (radians_bound dec1).trans (by norm_num)
  · unfold correction riseSetCorrection
    simp only
    change s * (360 * ((altitude (dayDeclination jd m) lat (dayHourAngle jd lon m) + sunOffset) /
      (360 * cosDeg (dayDeclination jd m) * cosDeg lat * sinDeg (dayHourAngle jd lon m)))) = _
    unfold altitude
    rw [cos_s]
    generalize arcsin (sinDeg lat * sinDeg (dayDeclination jd m) + cosDeg lat * cosDeg (dayDeclination jd m) *
      cosDeg (s * dayHourAngle jd lon m)) = w
    have e1 : degrees w + sunOffset = degrees (w + radians sunOffset) := by rw [degrees_add, degrees_radians]
    rw [e1]
    rw [← sin_s] at hsin ⊢
    have n1 : sinDeg (dayHourAngle jd lon m) ≠ 0 := by
      intro g
      rw [g] at hsin
      norm_num at hsin
    have n2 : cosDeg (dayDeclination jd m) ≠ 0 := by
      intro g
      rw [g] at dcos
      norm_num at dcos
    have n3 : cosDeg lat ≠ 0 := by
      intro g
      rw [g] at l0
      norm_num at l0
    unfold degrees
    have := pi_ne_zero
    rcases hs with rfl | rfl <;> field_simp

/-- One correction keeps the time near that of the horizon. -/
theorem correction_step {jd : ℚ} {lat lon : ℝ} {D : ℤ} (h : AtMidnight jd lon D) (hl : |lat| ≤ 36) {s : ℝ}
    (hs : s = 1 ∨ s = -1) {m : ℝ} (hm : Near jd lat lon s m) : Near jd lat lon s (m + correction jd lat lon m) := by
  obtain ⟨ht, hd⟩ := midnight_tc h
  obtain ⟨a0, a1, a2⟩ := hourAngle_bounds (tc := julianCenturies jd) (lat := lat) (by linarith) hl
  obtain ⟨c0, c1, c2⟩ := cosH0_bounds (tc := julianCenturies jd) (lat := lat) (by linarith) hl
  obtain ⟨l0, l1⟩ := lat_trig hl
  obtain ⟨d0, d1⟩ := declination_bounds (t := julianCenturies jd) (by linarith)
  obtain ⟨o0, o1, -, -⟩ := offset_bounds
  obtain ⟨sH, sHk, hsin, ddr, dcos, corr⟩ := near_point h hl hs hm
  have step := newton_step (f := radians lat) (e := radians (declination (julianCenturies jd)))
    (d := radians (dayDeclination jd m)) (k := radians (approxHourAngle (julianCenturies jd) lat sunOffset))
    (H := radians (s * dayHourAngle jd lon m)) (o := radians sunOffset) l0 l1 d0 dcos ddr
    (by
      change |cosDeg _| ≤ _
      rw [a2, abs_le]
      constructor <;> norm_num at * <;> linarith)
    (by
      rw [← radians_neg]
      change _ + _ * cosDeg _ = _
      rw [a2]
      exact c2)
    (by norm_num at *; linarith) o1
    (by
      rw [← radians_sub]
      exact (radians_bound sHk).trans (by norm_num))
    hsin
  have fin : |s * dayHourAngle jd lon m + s * (360 * correction jd lat lon m) -
      approxHourAngle (julianCenturies jd) lat sunOffset| ≤ 0.72 := by
    rw [corr]
    rw [← degrees_radians (approxHourAngle (julianCenturies jd) lat sunOffset)]
    have : s * dayHourAngle jd lon m = degrees (radians (s * dayHourAngle jd lon m)) := (degrees_radians _).symm
    conv_lhs =>
      enter [1, 1, 1]
      rw [this]
    rw [← degrees_add, ← degrees_sub, degrees_abs]
    apply degrees_le _ (by norm_num)
    exact step.trans (by norm_num)
  unfold Near
  have split : s * (360 * (m + correction jd lat lon m - transit jd lon)) -
      approxHourAngle (julianCenturies jd) lat sunOffset =
      (s * dayHourAngle jd lon m + s * (360 * correction jd lat lon m) -
        approxHourAngle (julianCenturies jd) lat sunOffset) -
      (s * dayHourAngle jd lon m - s * (360 * (m - transit jd lon))) := by ring
  rw [split]
  refine (abs_sub _ _).trans ?_
  norm_num at *
  linarith

theorem refine_near {jd : ℚ} {lat lon : ℝ} {D : ℤ} (h : AtMidnight jd lon D) (hl : |lat| ≤ 36) {s : ℝ}
    (hs : s = 1 ∨ s = -1) (n : ℕ) (m : ℝ) (hm : Near jd lat lon s m) :
    Near jd lat lon s (refineTime (julianCenturies jd) (apparentSiderealTime (julianCenturies jd)) (deltaT jd : ℝ) lat lon
      sunOffset n m) := by
  induction n generalizing m with
  | zero => exact hm
  | succ n ih =>
    have := correction_step h hl hs hm
    unfold refineTime
    simp only
    split_ifs
    · exact this
    · exact ih _ this

/-- The times of the setting and of the rising, as fractions of the day. -/
theorem setting_bounds {jd : ℚ} {lat lon : ℝ} {D : ℤ} (h : AtMidnight jd lon D) (hl : |lat| ≤ 36) :
    244.7 / 360 ≤ risingSetting jd lat lon sunOffset true ∧ risingSetting jd lat lon sunOffset true ≤ 297.4 / 360 := by
  obtain ⟨ht, -⟩ := midnight_tc h
  obtain ⟨E, -, -, tr, bE, -, -⟩ := transit_eq h
  obtain ⟨a0, a1, -⟩ := hourAngle_bounds (tc := julianCenturies jd) (lat := lat) (by linarith) hl
  have b := refine_near h hl (s := 1) (Or.inl rfl) 3
    (transit jd lon + approxHourAngle (julianCenturies jd) lat sunOffset / 360) (by
      unfold Near
      rw [add_sub_cancel_left, one_mul, mul_div_cancel₀ _ (by norm_num : (360 : ℝ) ≠ 0), sub_self, abs_zero]
      norm_num)
  have e : risingSetting jd lat lon sunOffset true = mod1 (refineTime (julianCenturies jd)
      (apparentSiderealTime (julianCenturies jd)) (deltaT jd : ℝ) lat lon sunOffset 3
      (transit jd lon + approxHourAngle (julianCenturies jd) lat sunOffset / 360)) := rfl
  rw [e]
  unfold Near at b
  generalize refineTime _ _ _ _ _ _ _ _ = r at b ⊢
  rw [tr] at b
  rw [abs_le] at b bE
  rw [mod1_eq (y := r) (k := 0) (by simp) (by norm_num at *; linarith) (by norm_num at *; linarith)]
  constructor <;> norm_num at * <;> linarith

theorem rising_bounds {jd : ℚ} {lat lon : ℝ} {D : ℤ} (h : AtMidnight jd lon D) (hl : |lat| ≤ 36) :
    62.6 / 360 ≤ risingSetting jd lat lon sunOffset false ∧ risingSetting jd lat lon sunOffset false ≤ 115.3 / 360 := by
  obtain ⟨ht, -⟩ := midnight_tc h
  obtain ⟨E, -, -, tr, bE, -, -⟩ := transit_eq h
  obtain ⟨a0, a1, -⟩ := hourAngle_bounds (tc := julianCenturies jd) (lat := lat) (by linarith) hl
  have b := refine_near h hl (s := -1) (Or.inr rfl) 3
    (transit jd lon - approxHourAngle (julianCenturies jd) lat sunOffset / 360) (by
      unfold Near
      rw [show (-1 : ℝ) * (360 * (transit jd lon - approxHourAngle (julianCenturies jd) lat sunOffset / 360 - transit jd lon)) -
        approxHourAngle (julianCenturies jd) lat sunOffset = 0 by ring, abs_zero]
      norm_num)
  have e : risingSetting jd lat lon sunOffset false = mod1 (refineTime (julianCenturies jd)
      (apparentSiderealTime (julianCenturies jd)) (deltaT jd : ℝ) lat lon sunOffset 3
      (transit jd lon - approxHourAngle (julianCenturies jd) lat sunOffset / 360)) := rfl
  rw [e]
  unfold Near at b
  generalize refineTime _ _ _ _ _ _ _ _ = r at b ⊢
  rw [tr] at b
  rw [abs_le] at b bE
  rw [mod1_eq (y := r) (k := 0) (by simp) (by norm_num at *; linarith) (by norm_num at *; linarith)]
  constructor <;> norm_num at * <;> linarith

end Verif.Solar
