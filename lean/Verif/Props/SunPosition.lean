import Verif.Lemmas.SunBasic

/-!
# C91 and C92: the apparent longitude and latitude of the sun with the long tables

Over exact real numbers, for the moments within 2100 Julian years of J2000. The formulas of Meeus, Astronomical
Algorithms, chapter 25, are written down here in degrees; they share the tables and the raw series of the planet with the
model.
-/

namespace Verif.Sun

open Real Verif.Solar

/-! ## The formulas of Meeus -/

/-- Daily variation of the longitude of the sun in arcseconds (page 168): the amplitudes are arcseconds. -/
noncomputable def meeusMotion (tm : ℝ) : ℝ :=
  3548.193 + (aberA.map fun r => (r.1 : ℝ) * sinDeg (r.2.1 + r.2.2 * tm)).sum +
    tm * (aberB.map fun r => (r.1 : ℝ) * sinDeg (r.2.1 + r.2.2 * tm)).sum +
    tm ^ 2 * (aberC.map fun r => (r.1 : ℝ) * sinDeg (r.2.1 + r.2.2 * tm)).sum

/-- Aberration in degrees (formula 25.11). -/
noncomputable def meeusAberration (tm : ℝ) : ℝ := -0.005775518 * radiusRaw tm * meeusMotion tm / 3600

/-- Nutation in longitude in degrees: the coefficients are in units of 0.0001 arcsecond. -/
noncomputable def meeusNutation (T : ℝ) : ℝ :=
  (nutTable.map (fun r => ((r.psi : ℝ) + r.psiT * T) * sinDeg (r.angle T))).sum * 0.0001 / 3600

/-- Apparent longitude of the sun in degrees: the heliocentric longitude of the earth, half a turn, the reduction to FK5,
nutation and aberration. -/
noncomputable def meeusLongitude (jde : ℝ) : ℝ :=
  degrees (helioLongitudeRaw ((jde - 2451545) / 365250)) + 180 - 0.09033 / 3600 +
    meeusNutation ((jde - 2451545) / 36525) + meeusAberration ((jde - 2451545) / 365250)

theorem meeusNutation_eq (T : ℝ) : meeusNutation T = nutationLongitude T := by
  unfold meeusNutation nutationLongitude
  ring

theorem meeusMotion_eq (tm : ℝ) : meeusMotion tm = 3548.193 + motion tm := by
  unfold meeusMotion motion sineSum
  ring

/-! ## Aberration -/

theorem aberration_bounds {tm : ℝ} (h : |tm| ≤ 2.1) :
    -0.0058078 ≤ aberration tm true ∧ aberration tm true ≤ -0.005578 := by
  obtain ⟨r0, r1⟩ := radius_bounds h
  have m := abs_le.1 (degree_motion h)
  rw [aberration_eq]
  have e := abs_le.1 (round12_err (-0.005775518 * radius tm * (3548.193 + π / 180 * motion tm) / 3600))
  generalize radius tm = r at *
  generalize π / 180 * motion tm = q at *
  have k1 : 0.98074 * (3548.193 - 2.4697) ≤ r * (3548.193 + q) :=
    mul_le_mul r0 (by linarith [m.1]) (by norm_num) (by linarith)
  have k2 : r * (3548.193 + q) ≤ 1.01954 * (3548.193 + 2.4697) :=
    mul_le_mul r1 (by linarith [m.2]) (by norm_num at m ⊢; linarith [m.1]) (by norm_num)
  have f : -0.005775518 * r * (3548.193 + q) / 3600 = -(0.005775518 / 3600) * (r * (3548.193 + q)) := by ring
  rw [f] at e ⊢
  norm_num at *
  constructor <;> linarith

theorem aberration_diff {tm : ℝ} (h : |tm| ≤ 2.1) :
    |aberration tm true - meeusAberration tm - 0.005775518 / 3600 * radiusRaw tm * ((1 - π / 180) * motion tm)| ≤ 1e-11 := by
  have e1 := abs_le.1 (round12_err (-0.005775518 * radius tm * (3548.193 + π / 180 * motion tm) / 3600))
  have e2 := round12_err (radiusRaw tm)
  have m := abs_le.1 (degree_motion h)
  rw [aberration_eq]
  unfold meeusAberration
  rw [meeusMotion_eq]
  have f : -0.005775518 * radius tm * (3548.193 + π / 180 * motion tm) / 3600 =
      -0.005775518 * radiusRaw tm * (3548.193 + π / 180 * motion tm) / 3600 -
        (0.005775518 / 3600) * ((radius tm - radiusRaw tm) * (3548.193 + π / 180 * motion tm)) := by ring
  have g := mul_bound e2 (show |3548.193 + π / 180 * motion tm| ≤ 3551 by
    rw [abs_le]; norm_num at m ⊢; constructor <;> linarith)
  change _ ≤ (radius tm - radiusRaw tm) * (3548.193 + π / 180 * motion tm) ∧
    (radius tm - radiusRaw tm) * (3548.193 + π / 180 * motion tm) ≤ _ at g
  rw [f] at e1 ⊢
  generalize (radius tm - radiusRaw tm) * (3548.193 + π / 180 * motion tm) = w at *
  rw [abs_le]
  norm_num at *
  constructor <;> linarith

/-- C91, aberration: within 0.00023 degree (0.83 arcsecond) of the formula of Meeus. Missing from the full property:
equality, which is false (next theorem). -/
theorem C91_aberration_partial (tm : ℝ) (h : |tm| ≤ 2.1) : |aberration tm true - meeusAberration tm| ≤ 0.00023 := by
  have d := abs_le.1 (aberration_diff h)
  obtain ⟨r0, r1⟩ := radiusRaw_bounds h
  have m := motion_abs h
  have dg := degree_bounds
  have a : |(1 - π / 180) * motion tm| ≤ 139.04 := by
    rw [abs_mul, abs_of_pos (by norm_num at dg ⊢; linarith)]
    have : (1 - π / 180) * |motion tm| ≤ 0.9825468 * 141.5 :=
      mul_le_mul (by norm_num at dg ⊢; linarith) m (abs_nonneg _) (by norm_num)
    norm_num at this ⊢; linarith
  have b := mul_bound (show |radiusRaw tm| ≤ 1.01953 by rw [abs_le]; norm_num at *; constructor <;> linarith) a
  have f : 0.005775518 / 3600 * radiusRaw tm * ((1 - π / 180) * motion tm) =
    0.005775518 / 3600 * (radiusRaw tm * ((1 - π / 180) * motion tm)) := by ring
  rw [f] at d
  generalize radiusRaw tm * ((1 - π / 180) * motion tm) = w at *
  rw [abs_le]
  norm_num at *
  constructor <;> linarith

example : |(-2 : ℝ)| ≤ 2.1 := by norm_num [abs_le]

/-- C91 is false for the aberration: the amplitudes are converted to radians though they are arcseconds. Whenever the
sun moves fastest, the aberration of the library is too small by more than 0.00014 degree (half an arcsecond). -/
theorem C91_aberration_negation (tm : ℝ) (h : |tm| ≤ 2.1) (hp : sinDeg (87.5287 + 359993.7286 * tm) = 1) :
    meeusAberration tm + 0.00014 < aberration tm true := by
  obtain ⟨p2, -, -⟩ := pow_bound h
  have d := abs_le.1 (aberration_diff h)
  obtain ⟨r0, r1⟩ := radiusRaw_bounds h
  have dg := degree_bounds
  have b0 := abs_le.1 (sineSum_le amp_A' tm)
  have b1 := mul_bound h (sineSum_le amp_B tm)
  have b2 := mul_bound p2 (sineSum_le amp_C tm)
  have e0 : sineSum aberA tm = 118.568 + sineSum aberA.tail tm := by
    have : sineSum aberA tm = ((118.568 : ℚ) : ℝ) * sinDeg (((87.5287 : ℚ) : ℝ) + ((359993.7286 : ℚ) : ℝ) * tm) +
      sineSum aberA.tail tm := by simp [sineSum, aberA]
    rw [this]
    push_cast
    rw [hp, mul_one]
  have m : 95.6 ≤ motion tm := by
    unfold motion
    rw [e0]
    push_cast at b0 b1 b2
    norm_num at b0 b1 b2 ⊢
    linarith
  have a : 93.9 ≤ (1 - π / 180) * motion tm := by
    have : 0.9825466 * 95.6 ≤ (1 - π / 180) * motion tm :=
      mul_le_mul (by norm_num at dg ⊢; linarith) m (by norm_num) (by norm_num at dg ⊢; linarith)
    norm_num at this ⊢; linarith
  have b : 0.98075 * 93.9 ≤ radiusRaw tm * ((1 - π / 180) * motion tm) :=
    mul_le_mul r0 a (by norm_num) (by norm_num at r0 ⊢; linarith)
  have f : 0.005775518 / 3600 * radiusRaw tm * ((1 - π / 180) * motion tm) =
    0.005775518 / 3600 * (radiusRaw tm * ((1 - π / 180) * motion tm)) := by ring
  rw [f] at d
  generalize radiusRaw tm * ((1 - π / 180) * motion tm) = w at *
  norm_num at *
  linarith

example : ∃ tm : ℝ, |tm| ≤ 2.1 ∧ sinDeg (87.5287 + 359993.7286 * tm) = 1 := by
  refine ⟨(90 - 87.5287) / 359993.7286, by rw [abs_le]; norm_num, ?_⟩
  have : (87.5287 : ℝ) + 359993.7286 * ((90 - 87.5287) / 359993.7286) = 90 := by norm_num
  rw [this]
  unfold sinDeg radians
  rw [show (90 : ℝ) * (π / 180) = π / 2 by ring, sin_pi_div_two]

/-! ## Longitude -/

/-- The library's longitude is behind the one of Meeus, by the corrections taken 180 / π times. -/
theorem longitude_diff (jde : ℝ) (h : |jde - 2451545| ≤ 767025) :
    ∃ k : ℤ, -0.65 ≤ apparentLongitude jde true - (meeusLongitude jde + 360 * k) ∧
      apparentLongitude jde true - (meeusLongitude jde + 360 * k) ≤ -0.0037 := by
  have ht : |julianMillennia jde| ≤ 2.1 := by
    unfold julianMillennia
    rw [abs_div, abs_of_pos (show (0 : ℝ) < 365250 by norm_num), div_le_iff₀ (by norm_num)]
    norm_num at h ⊢
    exact h
  have hc : |julianMillennia jde * 10| ≤ 21 := by
    rw [abs_mul, abs_of_pos (show (0 : ℝ) < 10 by norm_num)]
    norm_num at ht ⊢
    linarith
  have eT : (jde - 2451545) / 36525 = julianMillennia jde * 10 := by unfold julianMillennia; ring
  obtain ⟨k, ek, -, -⟩ := coterminal_spec (degrees (longitudeSum (julianMillennia jde)))
  have er := abs_le.1 (round12_err (coterminal (degrees (longitudeSum (julianMillennia jde)))))
  have eh := abs_le.1 (round12_err (helioLongitudeRaw (julianMillennia jde)))
  have na := abs_le.1 (nutation_small hc)
  obtain ⟨a0, a1⟩ := aberration_bounds ht
  have ad := abs_le.1 (C91_aberration_partial _ ht)
  have pi0 := Real.pi_pos
  have q0 : (57.29 : ℝ) < 180 / π := by rw [lt_div_iff₀ pi0]; have := pi_lt_d6; norm_num at this ⊢; linarith
  have q1 : 180 / π < (57.3 : ℝ) := by rw [div_lt_iff₀ pi0]; have := pi_gt_d6; norm_num at this ⊢; linarith
  refine ⟨-k, ?_⟩
  have e1 : degrees (longitudeSum (julianMillennia jde)) = degrees (helioLongitudeRaw (julianMillennia jde)) + 180 -
      2.5091666666666666e-05 + 180 / π * (helioLongitude (julianMillennia jde) - helioLongitudeRaw (julianMillennia jde)) +
      180 / π * (nutationLongitude (julianMillennia jde * 10) + aberration (julianMillennia jde) true) := by
    unfold longitudeSum degrees radians
    field_simp
    ring
  have e2 : meeusLongitude jde = degrees (helioLongitudeRaw (julianMillennia jde)) + 180 - 0.09033 / 3600 +
      nutationLongitude (julianMillennia jde * 10) + meeusAberration (julianMillennia jde) := by
    unfold meeusLongitude
    rw [eT, meeusNutation_eq]
    rfl
  have e3 : apparentLongitude jde true = round12 (coterminal (degrees (longitudeSum (julianMillennia jde)))) := rfl
  rw [e3, e2]
  rw [ek, e1] at er
  rw [ek, e1]
  change -5e-13 ≤ helioLongitude (julianMillennia jde) - helioLongitudeRaw (julianMillennia jde) ∧
    helioLongitude (julianMillennia jde) - helioLongitudeRaw (julianMillennia jde) ≤ 5e-13 at eh
  generalize helioLongitude (julianMillennia jde) - helioLongitudeRaw (julianMillennia jde) = w at *
  generalize nutationLongitude (julianMillennia jde * 10) = n at *
  generalize aberration (julianMillennia jde) true = a at *
  generalize meeusAberration (julianMillennia jde) = am at *
  have g1 : |180 / π * w| ≤ 57.3 * 5e-13 := by
    rw [abs_mul, abs_of_pos (by positivity)]
    exact mul_le_mul q1.le (abs_le.2 eh) (abs_nonneg _) (by norm_num)
  have g1' := abs_le.1 g1
  have s0 : -0.0113134 ≤ n + a := by norm_num at *; linarith
  have s1 : n + a ≤ -0.0000724 := by norm_num at *; linarith
  have g2 : 180 / π * (n + a) - (n + a) ≤ -0.004074 := by
    have : (180 / π - 57.29) * (n + a) ≤ 0 := mul_nonpos_of_nonneg_of_nonpos (by linarith) (by norm_num at s1; linarith)
    norm_num at *
    linarith
  have g3 : -0.637 ≤ 180 / π * (n + a) - (n + a) := by
    have : (180 / π - 57.3) * (n + a) ≥ 0 := mul_nonneg_of_nonpos_of_nonpos (by linarith) (by norm_num at s1; linarith)
    norm_num at *
    linarith
  generalize 180 / π * (n + a) = v at *
  generalize 180 / π * w = u at *
  generalize degrees (helioLongitudeRaw (julianMillennia jde)) = L at *
  push_cast
  norm_num at *
  constructor <;> linarith

/-- C91, longitude: within 0.65 degree of the apparent longitude of Meeus. Missing from the full property: agreement
with that formula, which is false (next theorem). -/
theorem C91_longitude_partial (jde : ℝ) (h : |jde - 2451545| ≤ 767025) :
    ∃ k : ℤ, |apparentLongitude jde true - (meeusLongitude jde + 360 * k)| ≤ 0.65 := by
  obtain ⟨k, h0, h1⟩ := longitude_diff jde h
  exact ⟨k, abs_le.2 ⟨h0, by norm_num at *; linarith⟩⟩

example : |(2448908.5 : ℝ) - 2451545| ≤ 767025 := by norm_num [abs_le]

/-- C91 is false for the longitude, at every moment: the nutation and the aberration are degrees and are added to
radians, so that both count 180 / π times. The result is never nearer than 0.0037 degree (13 arcseconds) to the
formula. -/
theorem C91_longitude_negation (jde : ℝ) (h : |jde - 2451545| ≤ 767025) (k : ℤ) :
    0.0037 ≤ |apparentLongitude jde true - (meeusLongitude jde + 360 * k)| := by
  obtain ⟨j, h0, h1⟩ := longitude_diff jde h
  by_contra hc
  rw [not_le, abs_lt] at hc
  have e : ((j - k : ℤ) : ℝ) * 360 = (apparentLongitude jde true - (meeusLongitude jde + 360 * k)) -
      (apparentLongitude jde true - (meeusLongitude jde + 360 * j)) := by push_cast; ring
  have a1 : ((j - k : ℤ) : ℝ) < 1 := by norm_num at *; linarith
  have a2 : (-1 : ℝ) < ((j - k : ℤ) : ℝ) := by norm_num at *; linarith
  have b1 : j - k < 1 := by exact_mod_cast a1
  have b2 : -1 < j - k := by exact_mod_cast a2
  have : j = k := by omega
  subst this
  norm_num at *
  linarith

example : |(2448908.5 : ℝ) - 2451545| ≤ 767025 := by norm_num [abs_le]

/-! ## Latitude -/

/-- Apparent latitude of the sun in degrees (page 166). -/
noncomputable def meeusLatitude (jde : ℝ) : ℝ :=
  -degrees (helioLatitudeRaw ((jde - 2451545) / 365250)) +
    0.03916 / 3600 * (cosDeg (meeusLongitude jde - 1.397 * ((jde - 2451545) / 36525) -
        0.00031 * ((jde - 2451545) / 36525) ^ 2) -
      sinDeg (meeusLongitude jde - 1.397 * ((jde - 2451545) / 36525) - 0.00031 * ((jde - 2451545) / 36525) ^ 2))

theorem cos_sub_sin_abs (x : ℝ) : |cos x - sin x| ≤ 1.4143 := by
  rw [← abs_of_pos (show (0 : ℝ) < 1.4143 by norm_num), ← sq_le_sq]
  have := sin_sq_add_cos_sq x
  norm_num
  nlinarith [sq_nonneg (cos x + sin x)]

/-- Without the reduction to FK5 the latitude is at most 1.2 arcseconds, and the reduction is at most 0.06. -/
theorem latitude_parts (jde : ℝ) (h : |jde - 2451545| ≤ 767025) :
    |degrees (helioLatitudeRaw (julianMillennia jde))| ≤ 0.00033 ∧
    |degrees (latitudeSum jde) + degrees (helioLatitudeRaw (julianMillennia jde))| ≤ 0.0000154 ∧
    |meeusLatitude jde + degrees (helioLatitudeRaw (julianMillennia jde))| ≤ 0.0000154 := by
  have ht : |julianMillennia jde| ≤ 2.1 := by
    unfold julianMillennia
    rw [abs_div, abs_of_pos (show (0 : ℝ) < 365250 by norm_num), div_le_iff₀ (by norm_num)]
    norm_num at h ⊢
    exact h
  have pi0 := Real.pi_pos
  have q1 : 180 / π < (57.3 : ℝ) := by rw [div_lt_iff₀ pi0]; have := pi_gt_d6; norm_num at this ⊢; linarith
  have q0 : 0 < 180 / π := by positivity
  refine ⟨?_, ?_, ?_⟩
  · unfold degrees
    have b0 := abs_le.1 (series_le amp_B0 (julianMillennia jde))
    have b1 := mul_bound ht (series_le amp_B1 (julianMillennia jde))
    have : |helioLatitudeRaw (julianMillennia jde)| ≤ 570 / 10 ^ 8 := by
      have e : helioLatitudeRaw (julianMillennia jde) =
          (series tableB0 (julianMillennia jde) + julianMillennia jde * series tableB1 (julianMillennia jde)) / 10 ^ 8 := by
        unfold helioLatitudeRaw
        simp only [Solar.poly]
        ring
      rw [e, abs_div, abs_of_pos (show (0 : ℝ) < 10 ^ 8 by norm_num)]
      apply div_le_div_of_nonneg_right _ (by norm_num)
      push_cast at b0 b1
      rw [abs_le]
      norm_num at b0 b1 ⊢
      constructor <;> linarith
    rw [abs_mul, abs_of_pos q0]
    calc |helioLatitudeRaw (julianMillennia jde)| * (180 / π) ≤ 570 / 10 ^ 8 * 57.3 :=
          mul_le_mul this q1.le q0.le (by norm_num)
      _ ≤ _ := by norm_num
  · have e : degrees (latitudeSum jde) + degrees (helioLatitudeRaw (julianMillennia jde)) =
        180 / π * (-(round12 (helioLatitudeRaw (julianMillennia jde)) - helioLatitudeRaw (julianMillennia jde))) +
        0.000010877777777777778 * (cos (latitudeAngle jde) - sin (latitudeAngle jde)) := by
      unfold latitudeSum degrees radians helioLatitude
      field_simp
      ring
    rw [e]
    have r := round12_err (helioLatitudeRaw (julianMillennia jde))
    have c := cos_sub_sin_abs (latitudeAngle jde)
    refine (abs_add_le _ _).trans ?_
    rw [abs_mul, abs_mul, abs_neg, abs_of_pos q0]
    have k1 : 180 / π * |round12 (helioLatitudeRaw (julianMillennia jde)) - helioLatitudeRaw (julianMillennia jde)| ≤
      57.3 * 5e-13 := mul_le_mul q1.le r (abs_nonneg _) (by norm_num)
    generalize |cos (latitudeAngle jde) - sin (latitudeAngle jde)| = x at *
    norm_num [abs_of_pos] at *
    linarith
  · unfold meeusLatitude cosDeg sinDeg
    have c := cos_sub_sin_abs (radians (meeusLongitude jde - 1.397 * ((jde - 2451545) / 36525) -
        0.00031 * ((jde - 2451545) / 36525) ^ 2))
    generalize radians (meeusLongitude jde - 1.397 * ((jde - 2451545) / 36525) -
        0.00031 * ((jde - 2451545) / 36525) ^ 2) = x at *
    have e : -degrees (helioLatitudeRaw ((jde - 2451545) / 365250)) + 0.03916 / 3600 * (cos x - sin x) +
        degrees (helioLatitudeRaw (julianMillennia jde)) = 0.03916 / 3600 * (cos x - sin x) := by
      unfold julianMillennia
      ring
    rw [e, abs_mul]
    norm_num [abs_of_pos] at *
    linarith

/-- C92: but for whole turns the latitude is within 0.000031 degree (0.12 arcsecond) of the formula of Meeus. Missing
from the full property: that it lies between -90 and 90, where it is false (below), and equality with the formula (the
angle of the reduction to FK5 mixes radians and degrees). -/
theorem C92_latitude_partial (jde : ℝ) (h : |jde - 2451545| ≤ 767025) :
    ∃ k : ℤ, |apparentLatitude jde true - (meeusLatitude jde + 360 * k)| ≤ 0.000031 := by
  obtain ⟨-, h1, h2⟩ := latitude_parts jde h
  obtain ⟨k, ek, -, -⟩ := coterminal_spec (degrees (latitudeSum jde))
  have er := abs_le.1 (round12_err (coterminal (degrees (latitudeSum jde))))
  have e3 : apparentLatitude jde true = round12 (coterminal (degrees (latitudeSum jde))) := rfl
  refine ⟨-k, ?_⟩
  rw [e3]
  rw [ek] at er ⊢
  rw [abs_le] at *
  push_cast
  norm_num at *
  constructor <;> linarith

example : |(2448908.5 : ℝ) - 2451545| ≤ 767025 := by norm_num [abs_le]

/-- C92 is false: when the sun is south of the ecliptic by more than 0.12 arcsecond the latitude returned is more than
359.999 degrees. -/
theorem C92_range_negation (jde : ℝ) (h : |jde - 2451545| ≤ 767025) (hs : meeusLatitude jde < -0.000032) :
    359.999 < apparentLatitude jde true := by
  obtain ⟨h0, h1, h2⟩ := latitude_parts jde h
  have er := abs_le.1 (round12_err (coterminal (degrees (latitudeSum jde))))
  have e3 : apparentLatitude jde true = round12 (coterminal (degrees (latitudeSum jde))) := rfl
  rw [abs_le] at h0 h1 h2
  have ec : coterminal (degrees (latitudeSum jde)) = degrees (latitudeSum jde) + 360 :=
    coterminal_eq (k := -1) (by push_cast; ring) (by norm_num at *; linarith) (by norm_num at *; linarith)
  rw [e3]
  rw [ec] at er ⊢
  norm_num at *
  linarith

/-- Half a period of the first term after J2000 the sun is south of the ecliptic. -/
example : ∃ jde : ℝ, |jde - 2451545| ≤ 767025 ∧ meeusLatitude jde < -0.000032 := by
  have p0 := pi_gt_d6
  have p1 := pi_lt_d6
  obtain ⟨t, ht⟩ : ∃ t : ℝ, t = π / 84334.662 := ⟨_, rfl⟩
  have t0 : 0.0000372 < t := by rw [ht, lt_div_iff₀ (by norm_num)]; norm_num at *; linarith
  have t1 : t < 0.0000373 := by rw [ht, div_lt_iff₀ (by norm_num)]; norm_num at *; linarith
  have et : 84334.662 * t = π := by rw [ht]; norm_num; field_simp
  refine ⟨2451545 + 365250 * t, by rw [abs_le]; norm_num at *; constructor <;> linarith, ?_⟩
  have hj : |(2451545 + 365250 * t) - 2451545| ≤ 767025 := by rw [abs_le]; norm_num at *; constructor <;> linarith
  obtain ⟨-, -, h2⟩ := latitude_parts _ hj
  have ej : julianMillennia (2451545 + 365250 * t) = t := by unfold julianMillennia; ring
  rw [ej] at h2
  have c1 : 0.99 ≤ cos (3.199 + 84334.662 * t) := by
    rw [et, cos_add_pi, ← cos_sub_pi]
    have := one_sub_sq_div_two_le_cos (x := 3.199 - π)
    have : (3.199 - π) ^ 2 ≤ 0.01 := by
      have : |3.199 - π| ≤ 0.1 := by rw [abs_le]; norm_num at *; constructor <;> linarith
      rw [← sq_abs]
      calc |3.199 - π| ^ 2 ≤ 0.1 ^ 2 := pow_le_pow_left₀ (abs_nonneg _) this 2
        _ = 0.01 := by norm_num
    norm_num at *
    linarith
  have c2 : 0 ≤ cos (5.422 + 5507.553 * t) := by
    rw [← cos_sub_two_pi]
    apply cos_nonneg_of_neg_pi_div_two_le_of_le <;> (norm_num at *; linarith)
  have e : series tableB0 t = 280 * cos (3.199 + 84334.662 * t) + 102 * cos (5.422 + 5507.553 * t) +
      series (tableB0.drop 2) t := by
    simp only [series, tableB0, List.map_cons, List.sum_cons, List.drop_succ_cons, List.drop_zero]
    push_cast
    ring
  have b0 := abs_le.1 (series_le (show amp (tableB0.drop 2) ≤ 156 by decide +kernel) t)
  have b1 := mul_bound (show |t| ≤ 0.0000373 by rw [abs_le]; norm_num at *; constructor <;> linarith)
    (series_le amp_B1 t)
  have f : helioLatitudeRaw t = (series tableB0 t + t * series tableB1 t) / 10 ^ 8 := by
    unfold helioLatitudeRaw
    simp only [Solar.poly]
    ring
  have g : 121 / 10 ^ 8 ≤ helioLatitudeRaw t := by
    rw [f]
    apply div_le_div_of_nonneg_right _ (by norm_num)
    rw [e]
    push_cast at b0 b1
    norm_num at *
    linarith
  have q0 : (57.29 : ℝ) < 180 / π := by rw [lt_div_iff₀ pi_pos]; norm_num at *; linarith
  have hd : 57.29 * (121 / 10 ^ 8) ≤ degrees (helioLatitudeRaw t) := by
    unfold degrees
    rw [mul_comm (helioLatitudeRaw t)]
    exact mul_le_mul q0.le g (by norm_num) (by positivity)
  have := abs_le.1 h2
  norm_num at *
  linarith

end Verif.Sun
