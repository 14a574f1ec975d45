import Verif.Lemmas.SolarCross

/-!
# Lemmas: the declination of the sun on 21 June 2025
-/

namespace Verif.Solar

open Real

theorem june_obliquity {t : ℝ} (t0 : 0 ≤ t) (t1 : t ≤ 0.26) : 23.43 ≤ apparentObliquity t ∧ apparentObliquity t ≤ 23.45 := by
  have hu : |t / 100| ≤ 0.0026 := by
    rw [abs_of_nonneg (by linarith), div_le_iff₀ (by norm_num)]
    norm_num at *
    linarith
  have key := poly_abs hu [-1.3002583333333335, -0.00043055555555555555, 0.5553472222222222,
    -0.014272222222222223, -0.06935277777777778, -0.010847222222222222, 0.001977777777777778, 0.007741666666666667,
    0.0016083333333333334, 0.0006805555555555556]
  have k2 : poly 0.0026 (([-1.3002583333333335, -0.00043055555555555555, 0.5553472222222222,
    -0.014272222222222223, -0.06935277777777778, -0.010847222222222222, 0.001977777777777778, 0.007741666666666667,
    0.0016083333333333334, 0.0006805555555555556] : List ℝ).map (fun a => |a|)) ≤ 1.301 := by
    simp only [List.map_cons, List.map_nil, poly]
    norm_num [abs_of_pos, abs_of_neg]
  have k3 := key.trans k2
  have h2 := nutationObliquity_abs (tc := t) (by rw [abs_of_nonneg t0]; norm_num at *; linarith)
  have h3 := abs_cosDeg (moonNode t)
  unfold apparentObliquity trueObliquity meanObliquity
  rw [poly]
  generalize poly (t / 100) _ = q at *
  have k4 : |t / 100 * q| ≤ 0.0026 * 1.301 := by
    rw [abs_mul]
    exact mul_le_mul hu k3 (abs_nonneg _) (by norm_num)
  rw [abs_le] at k4 h2 h3
  constructor <;> norm_num at * <;> linarith

theorem june_declination_at {t : ℝ} (t0 : 0.254645 ≤ t) (t1 : t ≤ 0.254735) : 23.35 ≤ declination t ∧ declination t ≤ 23.46 := by
  have ht : |t| ≤ 20.01 := by rw [abs_of_nonneg (by norm_num at *; linarith)]; norm_num at *; linarith
  have tt0 : 0 ≤ t * t := mul_self_nonneg t
  have tt1 : t * t ≤ 1 := by norm_num at *; nlinarith
  have raw : |rawLongitude t - 9450| ≤ 2.3 := by
    unfold rawLongitude
    rw [abs_le]
    constructor <;> norm_num at * <;> linarith
  have sh := sunShift_abs (t := t) (by linarith)
  have full : |fullLongitude t - 90 - 360 * (26 : ℤ)| ≤ 4.36 := by
    unfold fullLongitude
    rw [abs_le] at *
    constructor <;> norm_num at * <;> linarith
  have s1 : 0.9971 ≤ sinDeg (fullLongitude t) := by
    have e : sinDeg (fullLongitude t) = cos (radians (fullLongitude t - 90 - 360 * (26 : ℤ))) := by
      have := sinDeg_turn (fullLongitude t) 26
      rw [← this]
      unfold sinDeg
      rw [show fullLongitude t - 90 - 360 * ((26 : ℤ) : ℝ) = (fullLongitude t - 360 * ((26 : ℤ) : ℝ)) - 90 by ring, radians_sub (_ - _),
        show radians 90 = π / 2 by unfold radians; ring, cos_sub_pi_div_two]
    rw [e]
    exact le_trans (by norm_num) (cos_ge_half (radians_bound full) (by norm_num))
  have s1' : sinDeg (fullLongitude t) ≤ 1 := sin_le_one _
  obtain ⟨o0, o1⟩ := june_obliquity (t := t) (by norm_num at *; linarith) (by norm_num at *; linarith)
  have eq := declination_sin (t := t)
  have db := degree_bounds
  have r1 : 0.4089 ≤ radians (apparentObliquity t) := by
    unfold radians
    have := mul_le_mul o0 db.1.le (by norm_num) (by norm_num at *; linarith)
    norm_num at *
    linarith
  have r2 : radians (apparentObliquity t) ≤ 0.4093 := by
    unfold radians
    have := mul_le_mul o1 db.2.le (by norm_num at *; linarith) (by norm_num)
    norm_num at *
    linarith
  obtain ⟨m1, m2⟩ := declination_range t
  have so : sinDeg (apparentObliquity t) ≤ 0.4093 := (sin_le (by norm_num at *; linarith)).trans r2
  have so0 : 0 ≤ sinDeg (apparentObliquity t) :=
    sin_nonneg_of_nonneg_of_le_pi (by norm_num at *; linarith) (by norm_num at *; linarith [pi_gt_three])
  have up : radians (declination t) ≤ radians (apparentObliquity t) := by
    by_contra g
    have := sin_lt_sin_of_lt_of_le_pi_div_two (x := radians (apparentObliquity t)) (y := radians (declination t))
      (by norm_num at *; linarith [pi_gt_three]) m2 (not_le.mp g)
    change sinDeg (apparentObliquity t) < sinDeg (declination t) at this
    rw [eq] at this
    nlinarith
  have diff : sinDeg (apparentObliquity t) - sinDeg (declination t) ≤ 0.0012 := by
    rw [eq]
    norm_num at *
    nlinarith
  have pos : 0 ≤ radians (declination t) := by
    by_contra g
    have := sin_neg_of_neg_of_neg_pi_lt (x := radians (declination t)) (by linarith) (by linarith [pi_pos])
    change sinDeg (declination t) < 0 at this
    rw [eq] at this
    have := mul_nonneg so0 (show 0 ≤ sinDeg (fullLongitude t) by norm_num at *; linarith)
    linarith
  have low : radians (apparentObliquity t) - radians (declination t) ≤ 0.00132 := by
    set e := radians (apparentObliquity t) with he
    set d := radians (declination t) with hd
    change sin e - sin d ≤ 0.0012 at diff
    obtain ⟨x, x0, x1, q⟩ := sin_mean e d
    have c := one_sub_sq_div_two_le_cos (x := x)
    have xx : x ^ 2 ≤ 0.4093 ^ 2 := by
      apply pow_le_pow_left₀
      · exact le_trans (le_min (by linarith) pos) x0
      · exact x1.trans (max_le r2 (up.trans r2))
    have cx : 0.916 ≤ cos x := by norm_num at *; linarith
    have := mul_le_mul_of_nonneg_right cx (show 0 ≤ e - d by linarith)
    norm_num at *
    linarith
  have lin : radians (apparentObliquity t) - radians (declination t) = (apparentObliquity t - declination t) * (π / 180) := by
    unfold radians; ring
  rw [lin] at low
  have lin' : 0 ≤ (apparentObliquity t - declination t) * (π / 180) := by rw [← lin]; linarith
  have nn : 0 ≤ apparentObliquity t - declination t := by
    by_contra g
    have := mul_neg_of_neg_of_pos (not_le.mp g) (show 0 < π / 180 by linarith [pi_pos])
    linarith
  have := mul_le_mul_of_nonneg_left db.1.le nn
  constructor <;> norm_num at * <;> linarith

/-- The declination on 21 June 2025. -/
theorem june_declination {jd : ℚ} {lon : ℝ} (h : AtMidnight jd lon 2460848) {n : ℝ} (hn : |n| ≤ 1.01) :
    23.18 ≤ interpolatedDeclination (julianCenturies jd) n ∧ interpolatedDeclination (julianCenturies jd) n ≤ 23.63 := by
  obtain ⟨-, -, hl, hj⟩ := h
  set t := julianCenturies jd with htd
  have et : (jd : ℝ) = 2451545 + 36525 * t := by
    rw [htd]
    unfold julianCenturies
    ring
  rw [et] at hj
  push_cast at hj
  rw [abs_le] at hl hj
  have t0 : 0.254673 ≤ t := by norm_num at *; linarith
  have t1 : t ≤ 0.254703 := by norm_num at *; linarith
  obtain ⟨a0, a1⟩ := june_declination_at (t := t - 1 / 36525) (by norm_num at *; linarith) (by norm_num at *; linarith)
  obtain ⟨b0, b1⟩ := june_declination_at (t := t) (by norm_num at *; linarith) (by norm_num at *; linarith)
  obtain ⟨c0, c1⟩ := june_declination_at (t := t + 1 / 36525) (by norm_num at *; linarith) (by norm_num at *; linarith)
  unfold interpolatedDeclination interpolation
  simp only [Bool.false_eq_true, if_false]
  generalize declination (t - 1 / 36525) = a at *
  generalize declination (t + 1 / 36525) = c at *
  generalize declination t = b at *
  have e : n / 2 * (b - a + (c - b) + n * (c - b - (b - a))) = n * ((c - a) / 2) + n ^ 2 * ((c - 2 * b + a) / 2) := by ring
  rw [e]
  have p : |n * ((c - a) / 2)| ≤ 1.01 * 0.055 := by
    rw [abs_mul]
    refine mul_le_mul hn ?_ (abs_nonneg _) (by norm_num)
    rw [abs_le]
    constructor <;> norm_num at * <;> linarith
  have q : |n ^ 2 * ((c - 2 * b + a) / 2)| ≤ 1.01 ^ 2 * 0.11 := by
    rw [abs_mul, abs_pow]
    refine mul_le_mul (pow_le_pow_left₀ (abs_nonneg _) hn 2) ?_ (abs_nonneg _) (by norm_num)
    rw [abs_le]
    constructor <;> norm_num at * <;> linarith
  rw [abs_le] at p q
  constructor <;> norm_num at * <;> linarith

end Verif.Solar
