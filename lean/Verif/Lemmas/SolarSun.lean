import Verif.Lemmas.SolarBasic

/-!
# Lemmas: bounds on the position of the sun
-/

namespace Verif.Solar

open Real

theorem poly_abs {x X : ℝ} (h : |x| ≤ X) (l : List ℝ) : |poly x l| ≤ poly X (l.map (fun a => |a|)) := by
  induction l with
  | nil => simp [poly]
  | cons a l ih =>
    simp only [poly, List.map_cons]
    refine (abs_add_le _ _).trans ?_
    rw [abs_mul]
    have := mul_le_mul h ih (abs_nonneg _) ((abs_nonneg _).trans h)
    linarith

/-! ## The obliquity -/

theorem meanObliquity_bounds {tc : ℝ} (h : |tc| ≤ 20.1) : |meanObliquity tc - 23.44| ≤ 0.27 := by
  unfold meanObliquity
  have hu : |tc / 100| ≤ 0.201 := by
    rw [abs_div, abs_of_pos (show (0 : ℝ) < 100 by norm_num), div_le_iff₀ (by norm_num)]
    linarith
  have key := poly_abs hu [-1.3002583333333335, -0.00043055555555555555, 0.5553472222222222,
    -0.014272222222222223, -0.06935277777777778, -0.010847222222222222, 0.001977777777777778, 0.007741666666666667,
    0.0016083333333333334, 0.0006805555555555556]
  have k2 : poly 0.201 (([-1.3002583333333335, -0.00043055555555555555, 0.5553472222222222,
    -0.014272222222222223, -0.06935277777777778, -0.010847222222222222, 0.001977777777777778, 0.007741666666666667,
    0.0016083333333333334, 0.0006805555555555556] : List ℝ).map (fun a => |a|)) ≤ 1.33 := by
    simp only [List.map_cons, List.map_nil, poly]
    norm_num [abs_of_pos, abs_of_neg]
  have k3 := key.trans k2
  rw [poly, abs_le]
  generalize poly (tc / 100) _ = q at *
  have k4 : |tc / 100 * q| ≤ 0.201 * 1.33 := by
    rw [abs_mul]
    exact mul_le_mul hu k3 (abs_nonneg _) (by norm_num)
  rw [abs_le] at k4
  constructor <;> norm_num at * <;> linarith

theorem apparentObliquity_bounds {tc : ℝ} (h : |tc| ≤ 20.1) : |apparentObliquity tc - 23.44| ≤ 0.28 := by
  unfold apparentObliquity trueObliquity
  have h1 := meanObliquity_bounds h
  have h2 := nutationObliquity_abs (tc := tc) (by linarith)
  have h3 := abs_cosDeg (moonNode tc)
  rw [abs_le] at *
  constructor <;> norm_num at * <;> linarith

theorem obliquity_change {t h : ℝ} (ht : |t| ≤ 20.05) (hh : |h| ≤ 1 / 36525) :
    |apparentObliquity (t + h) - apparentObliquity t| ≤ 0.0118 := by
  unfold apparentObliquity trueObliquity
  have hth : |t + h| ≤ 20.1 := by
    refine (abs_add_le _ _).trans ?_
    norm_num at *
    linarith
  have a1 := nutationObliquity_abs (tc := t) (by linarith)
  have a2 := nutationObliquity_abs (tc := t + h) (by linarith)
  have a3 := abs_cosDeg (moonNode t)
  have a4 := abs_cosDeg (moonNode (t + h))
  have a5 : |meanObliquity (t + h) - meanObliquity t| ≤ 0.0003 := by
    unfold meanObliquity
    set u := t / 100 with hu
    set v := h / 100 with hv
    have e : (t + h) / 100 = u + v := by rw [hu, hv]; ring
    have hu1 : |u| ≤ 0.201 := by
      rw [hu, abs_div, abs_of_pos (show (0 : ℝ) < 100 by norm_num), div_le_iff₀ (by norm_num)]
      linarith
    have hv1 : |v| ≤ 0.000001 := by
      rw [hv, abs_div, abs_of_pos (show (0 : ℝ) < 100 by norm_num), div_le_iff₀ (by norm_num)]
      norm_num at *
      linarith
    rw [e]
    have diff : ∀ (l : List ℝ), |poly (u + v) l - poly u l| ≤ 0.000001 * (poly 1 (l.map (fun a => |a|)) * l.length) := by
      intro l
      induction l with
      | nil => simp [poly]
      | cons a l ih =>
        simp only [poly, List.map_cons, List.length_cons]
        have e2 : a + (u + v) * poly (u + v) l - (a + u * poly u l) =
            u * (poly (u + v) l - poly u l) + v * poly (u + v) l := by ring
        have b1 : |poly (u + v) l| ≤ poly 1 (l.map (fun a => |a|)) := by
          apply poly_abs
          refine (abs_add_le _ _).trans ?_
          norm_num at *
          linarith
        have b2 : |u * (poly (u + v) l - poly u l)| ≤ 1 * (0.000001 * (poly 1 (l.map (fun a => |a|)) * l.length)) := by
          rw [abs_mul]
          exact mul_le_mul (by norm_num at *; linarith) ih (abs_nonneg _) (by norm_num)
        have b3 : |v * poly (u + v) l| ≤ 0.000001 * poly 1 (l.map (fun a => |a|)) := by
          rw [abs_mul]
          exact mul_le_mul hv1 b1 (abs_nonneg _) (by norm_num)
        rw [e2]
        refine (abs_add_le _ _).trans ?_
        have b4 := abs_nonneg a
        have b5 : (0 : ℝ) ≤ poly 1 (l.map (fun a => |a|)) := (abs_nonneg _).trans b1
        push_cast
        have b6 : 0 ≤ |a| * (l.length + 1 : ℝ) := by positivity
        nlinarith
    refine (diff _).trans ?_
    simp only [List.map_cons, List.map_nil, poly, List.length_cons, List.length_nil]
    norm_num [abs_of_pos, abs_of_neg]
  rw [abs_le] at *
  constructor <;> norm_num at * <;> linarith

/-- Sine and cosine of an angle near the obliquity. -/
theorem obliquity_trig {e : ℝ} (h : |e - 23.44| ≤ 0.28) : 0.9142 ≤ cosDeg e ∧ |sinDeg e| ≤ 0.4053 := by
  have h0 : |radians e| ≤ 0.414 := by
    rw [radians_abs]
    have : |e| ≤ 23.72 := by
      rw [abs_le] at *
      constructor <;> norm_num at * <;> linarith
    unfold radians
    have := degree_bounds.2
    have := degree_bounds.1
    have := abs_nonneg e
    norm_num at *
    nlinarith
  have h1 : 0.9142 ≤ cosDeg e := by
    unfold cosDeg
    have := one_sub_sq_div_two_le_cos (x := radians e)
    have h2 : radians e ^ 2 ≤ 0.414 ^ 2 := by
      rw [← sq_abs]
      exact pow_le_pow_left₀ (abs_nonneg _) h0 2
    norm_num at *
    linarith
  refine ⟨h1, ?_⟩
  apply abs_le_of_sq_le_sq _ (by norm_num)
  have h3 : sinDeg e ^ 2 + cosDeg e ^ 2 = 1 := sin_sq_add_cos_sq _
  norm_num at *
  nlinarith

/-! ## The longitude -/

/-- The mean longitude without the reduction to one turn. -/
noncomputable def rawLongitude (t : ℝ) : ℝ := 280.46646 + t * (36000.76983 + t * 0.0003032)

/-- The difference between the apparent and the mean longitude. -/
noncomputable def sunShift (t : ℝ) : ℝ := equationOfCenter t - 0.00569 - 0.00478 * sinDeg (moonNode t)

theorem longitude_eq (t : ℝ) : ∃ k : ℤ, sunApparentLongitude t = rawLongitude t + sunShift t - 360 * k := by
  unfold sunApparentLongitude sunTrueLongitude sunMeanLongitude
  obtain ⟨k, e, -, -⟩ := coterminal_spec (poly t [280.46646, 36000.76983, 0.0003032])
  refine ⟨k, ?_⟩
  rw [e]
  unfold rawLongitude sunShift
  simp only [poly]
  ring

theorem center_coefficient {t : ℝ} (h : |t| ≤ 20.1) : |1.914602 - 0.004817 * t - 0.000014 * t ^ 2| ≤ 2.018 := by
  have h2 : t ^ 2 ≤ 20.1 ^ 2 := by
    rw [← sq_abs]
    exact pow_le_pow_left₀ (abs_nonneg _) h 2
  have h3 := sq_nonneg t
  rw [abs_le] at *
  constructor <;> norm_num at * <;> linarith

theorem center_coefficient2 {t : ℝ} (h : |t| ≤ 20.1) : |0.019993 - 0.000101 * t| ≤ 0.0221 := by
  rw [abs_le] at *
  constructor <;> norm_num at * <;> linarith

theorem sunShift_abs {t : ℝ} (h : |t| ≤ 20.1) : |sunShift t| ≤ 2.06 := by
  unfold sunShift equationOfCenter
  have a1 : |(1.914602 - 0.004817 * t - 0.000014 * t ^ 2) * sinDeg (sunMeanAnomaly t)| ≤ 2.018 * 1 := by
    rw [abs_mul]
    exact mul_le_mul (center_coefficient h) (abs_sinDeg _) (abs_nonneg _) (by norm_num)
  have a2 : |(0.019993 - 0.000101 * t) * sinDeg (2 * sunMeanAnomaly t)| ≤ 0.0221 * 1 := by
    rw [abs_mul]
    exact mul_le_mul (center_coefficient2 h) (abs_sinDeg _) (abs_nonneg _) (by norm_num)
  have a3 := abs_sinDeg (3 * sunMeanAnomaly t)
  have a4 := abs_sinDeg (moonNode t)
  rw [abs_le] at *
  constructor <;> norm_num at * <;> linarith

/-- The mean anomaly of the sun without the reduction to one turn. -/
noncomputable def rawAnomaly (t : ℝ) : ℝ := poly t [357.52772, 35999.05034, -0.0001603, -1 / 300000]

theorem anomaly_sin (t : ℝ) (n : ℤ) : sinDeg (n * sunMeanAnomaly t) = sinDeg (n * rawAnomaly t) := by
  unfold sunMeanAnomaly
  obtain ⟨k, e, -, -⟩ := coterminal_spec (poly t [357.52772, 35999.05034, -0.0001603, -1 / 300000])
  rw [e, show (n : ℝ) * (poly t [357.52772, 35999.05034, -0.0001603, -1 / 300000] - 360 * k) =
    n * rawAnomaly t - 360 * ((n * k : ℤ) : ℝ) by unfold rawAnomaly; push_cast; ring, sinDeg_turn]

theorem anomaly_change {t h : ℝ} (ht : |t| ≤ 20.05) (hh : |h| ≤ 1 / 36525) :
    |rawAnomaly (t + h) - rawAnomaly t| ≤ 0.98565 := by
  have e : rawAnomaly (t + h) - rawAnomaly t =
      h * (35999.05034 + (-0.0001603 * (2 * t + h) + (-1 / 300000) * (3 * t * (t + h) + h * h))) := by
    unfold rawAnomaly
    simp only [poly]
    ring
  rw [e, abs_mul]
  have h1 : |h| ≤ 0.0001 := by norm_num at *; linarith
  have b1 : |t * (t + h)| ≤ 20.05 * 20.06 := by
    rw [abs_mul]
    refine mul_le_mul ht ((abs_add_le _ _).trans ?_) (abs_nonneg _) (by norm_num)
    norm_num at *
    linarith
  have b2 : |h * h| ≤ 0.0001 * 0.0001 := by
    rw [abs_mul]
    exact mul_le_mul h1 h1 (abs_nonneg _) (by norm_num)
  have b3 : |35999.05034 + (-0.0001603 * (2 * t + h) + (-1 / 300000) * (3 * t * (t + h) + h * h))| ≤ 35999.1 := by
    rw [abs_le] at *
    constructor <;> norm_num at * <;> nlinarith
  calc |h| * _ ≤ 1 / 36525 * 35999.1 := mul_le_mul hh b3 (abs_nonneg _) (by norm_num)
    _ ≤ 0.98565 := by norm_num

theorem shift_change {t h : ℝ} (ht : |t| ≤ 20.05) (hh : |h| ≤ 1 / 36525) : |sunShift (t + h) - sunShift t| ≤ 0.046 := by
  unfold sunShift equationOfCenter
  have s1 : ∀ t, sinDeg (sunMeanAnomaly t) = sinDeg (rawAnomaly t) := fun t => by
    have := anomaly_sin t 1
    push_cast at this
    rwa [one_mul, one_mul] at this
  have s2 : ∀ t, sinDeg (2 * sunMeanAnomaly t) = sinDeg (2 * rawAnomaly t) := fun t => by exact_mod_cast anomaly_sin t 2
  have s3 : ∀ t, sinDeg (3 * sunMeanAnomaly t) = sinDeg (3 * rawAnomaly t) := fun t => by exact_mod_cast anomaly_sin t 3
  simp only [s1, s2, s3]
  have hm := anomaly_change ht hh
  have d1 := sinDeg_lip (rawAnomaly (t + h)) (rawAnomaly t)
  have d2 := sinDeg_lip (2 * rawAnomaly (t + h)) (2 * rawAnomaly t)
  have d3 := sinDeg_lip (3 * rawAnomaly (t + h)) (3 * rawAnomaly t)
  rw [← mul_sub, abs_mul, abs_of_pos (show (0 : ℝ) < 2 by norm_num)] at d2
  rw [← mul_sub, abs_mul, abs_of_pos (show (0 : ℝ) < 3 by norm_num)] at d3
  have c1 := center_coefficient (t := t) (by linarith)
  have c2 := center_coefficient2 (t := t) (by linarith)
  have n1 := abs_sinDeg (moonNode t)
  have n2 := abs_sinDeg (moonNode (t + h))
  have o1 := abs_sinDeg (rawAnomaly (t + h))
  have o2 := abs_sinDeg (2 * rawAnomaly (t + h))
  generalize sinDeg (rawAnomaly (t + h)) = x1 at *
  generalize sinDeg (rawAnomaly t) = y1 at *
  generalize sinDeg (2 * rawAnomaly (t + h)) = x2 at *
  generalize sinDeg (2 * rawAnomaly t) = y2 at *
  generalize sinDeg (3 * rawAnomaly (t + h)) = x3 at *
  generalize sinDeg (3 * rawAnomaly t) = y3 at *
  generalize |rawAnomaly (t + h) - rawAnomaly t| = w at *
  have h1 : |h| ≤ 0.00003 := by norm_num at *; linarith
  have g1 : |(1.914602 - 0.004817 * t - 0.000014 * t ^ 2) * (x1 - y1)| ≤ 2.018 * 0.01721 := by
    rw [abs_mul]
    exact mul_le_mul c1 (by norm_num at *; linarith) (abs_nonneg _) (by norm_num)
  have g2 : |(0.019993 - 0.000101 * t) * (x2 - y2)| ≤ 0.0221 * 0.0345 := by
    rw [abs_mul]
    exact mul_le_mul c2 (by norm_num at *; linarith) (abs_nonneg _) (by norm_num)
  have g3 : |h * x1| ≤ 0.00003 * 1 := by
    rw [abs_mul]
    exact mul_le_mul h1 o1 (abs_nonneg _) (by norm_num)
  have g4 : |h * x2| ≤ 0.00003 * 1 := by
    rw [abs_mul]
    exact mul_le_mul h1 o2 (abs_nonneg _) (by norm_num)
  have g5 : |(2 * t + h) * (h * x1)| ≤ 41 * (0.00003 * 1) := by
    rw [abs_mul]
    refine mul_le_mul ?_ g3 (abs_nonneg _) (by norm_num)
    refine (abs_add_le _ _).trans ?_
    rw [abs_mul, abs_of_pos (show (0 : ℝ) < 2 by norm_num)]
    norm_num at *
    linarith
  have e : (1.914602 - 0.004817 * (t + h) - 0.000014 * (t + h) ^ 2) * x1 + (0.019993 - 0.000101 * (t + h)) * x2 +
        0.000290 * x3 - 0.00569 - 0.00478 * sinDeg (moonNode (t + h)) -
      ((1.914602 - 0.004817 * t - 0.000014 * t ^ 2) * y1 + (0.019993 - 0.000101 * t) * y2 +
        0.000290 * y3 - 0.00569 - 0.00478 * sinDeg (moonNode t)) =
      (1.914602 - 0.004817 * t - 0.000014 * t ^ 2) * (x1 - y1) + (0.019993 - 0.000101 * t) * (x2 - y2) +
        0.000290 * (x3 - y3) - 0.004817 * (h * x1) - 0.000101 * (h * x2) - 0.000014 * ((2 * t + h) * (h * x1)) -
        0.00478 * sinDeg (moonNode (t + h)) + 0.00478 * sinDeg (moonNode t) := by ring
  rw [e]
  generalize (1.914602 - 0.004817 * t - 0.000014 * t ^ 2) * (x1 - y1) = q1 at *
  generalize (0.019993 - 0.000101 * t) * (x2 - y2) = q2 at *
  generalize h * x1 = q3 at *
  generalize h * x2 = q4 at *
  generalize (2 * t + h) * q3 = q5 at *
  have g6 : |x3 - y3| ≤ 0.06 := by norm_num at *; linarith
  rw [abs_le] at g1 g2 g3 g4 g5 g6 n1 n2 ⊢
  constructor <;> norm_num at * <;> linarith

/-- The longitude moves by nearly a degree a day. -/
theorem longitude_change {t h : ℝ} (ht : |t| ≤ 20.05) (hh : |h| ≤ 1 / 36525) :
    |rawLongitude (t + h) + sunShift (t + h) - (rawLongitude t + sunShift t) - 36000.76983 * h| ≤ 0.0461 := by
  have h1 := shift_change ht hh
  have e : rawLongitude (t + h) - rawLongitude t - 36000.76983 * h = 0.0003032 * ((2 * t + h) * h) := by
    unfold rawLongitude
    ring
  have h2 : |h| ≤ 0.00003 := by norm_num at *; linarith
  have h3 : |(2 * t + h) * h| ≤ 41 * 0.00003 := by
    rw [abs_mul]
    refine mul_le_mul ?_ h2 (abs_nonneg _) (by norm_num)
    refine (abs_add_le _ _).trans ?_
    rw [abs_mul, abs_of_pos (show (0 : ℝ) < 2 by norm_num)]
    norm_num at *
    linarith
  generalize (2 * t + h) * h = q at *
  rw [abs_le] at *
  constructor <;> norm_num at * <;> linarith

end Verif.Solar
