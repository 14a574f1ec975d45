import Verif.Lemmas.CosTable
import Verif.Lemmas.SolarRoot
import Mathlib.Analysis.SpecialFunctions.Trigonometric.Bounds

/-!
# Right ascension, declination and hour angle of the sunset near the equinox

Near the equinox all of them are linear in the longitude, up to small errors.
-/

namespace Verif.Solar

open Real

theorem sin_linear {x : ℝ} (h : |x| ≤ 0.08) : |sin x - x| ≤ 0.167 * |x| ^ 3 := by
  have a := sin_bound (x := x) (by linarith)
  have n := abs_nonneg x
  have b : |x ^ 3 / 6| = |x| ^ 3 / 6 := by rw [abs_div, abs_pow, abs_of_pos (show (0 : ℝ) < 6 by norm_num)]
  have c : |x| ^ 5 ≤ |x| ^ 3 * 0.0064 := by
    have : |x| ^ 2 ≤ 0.08 ^ 2 := pow_le_pow_left₀ n h 2
    have e : |x| ^ 5 = |x| ^ 3 * |x| ^ 2 := by ring
    rw [e]
    exact mul_le_mul_of_nonneg_left (by norm_num at *; linarith) (by positivity)
  have d := abs_add_le (sin x - (x - x ^ 3 / 6)) (-(x ^ 3 / 6))
  rw [abs_neg, b] at d
  have e : sin x - (x - x ^ 3 / 6) + -(x ^ 3 / 6) = sin x - x := by ring
  rw [e] at d
  have p : 0 ≤ |x| ^ 3 := by positivity
  linarith

theorem cube_le {x B : ℝ} (h : |x| ≤ B) : |x| ^ 3 ≤ B ^ 3 := pow_le_pow_left₀ (abs_nonneg _) h 3

/-- An angle of the first or fourth quadrant with a small sine. -/
theorem angle_of_sin {a : ℝ} (ha : |a| ≤ π / 2) (hs : |sin a| ≤ 0.05) : |a - sin a| ≤ 0.000022 ∧ |a| ≤ 0.0501 := by
  have j := mul_abs_le_abs_sin ha
  have hpi := pi_lt_d2
  have hp0 := pi_pos
  have a1 : |a| ≤ 0.0786 := by
    have : |a| ≤ |sin a| * (π / 2) := by
      have e : |a| = (2 / π * |a|) * (π / 2) := by field_simp
      rw [e]
      exact mul_le_mul_of_nonneg_right j (by positivity)
    have q := mul_le_mul hs (show π / 2 ≤ 1.5709 by norm_num at *; linarith [pi_lt_d6]) (by positivity) (by norm_num)
    norm_num at *
    linarith
  have l1 := sin_linear (x := a) (by linarith)
  have c1 := cube_le a1
  have t := abs_sub_abs_le_abs_sub a (sin a)
  rw [abs_sub_comm] at l1
  have a2 : |a| ≤ 0.0501 := by
    norm_num at c1
    linarith
  have c2 := cube_le a2
  refine ⟨?_, a2⟩
  norm_num at c2
  linarith

theorem cosDeg_anti {a b : ℝ} (h0 : 0 ≤ a) (h : a ≤ b) (h1 : b ≤ 180) : cosDeg b ≤ cosDeg a := by
  unfold cosDeg
  have hp := pi_pos
  apply cos_le_cos_of_nonneg_of_le_pi
  · unfold radians; positivity
  · have := radians_le h1
    unfold radians at *
    linarith
  · exact radians_le h

theorem sinDeg_eq (a : ℝ) : sinDeg a = cosDeg (90 - a) := by
  unfold sinDeg cosDeg
  rw [← cos_pi_div_two_sub]
  congr 1
  unfold radians
  ring

theorem obliquity_fine {e : ℝ} (h : |e - 23.44| ≤ 0.28) :
    |cosDeg e - 0.91747| ≤ 0.00196 ∧ |sinDeg e - 0.39779| ≤ 0.0045 := by
  rw [abs_le] at h
  have c0 := cosq_spec 23160000
  have c1 := cosq_spec 23720000
  have s0 := cosq_spec 66840000
  have s1 := cosq_spec 66280000
  have ec0 : cosq 23160000 ≤ 919411000 := by decide +kernel
  have ec1 : 915521000 ≤ cosq 23720000 := by decide +kernel
  have es0 : 393299000 ≤ cosq 66840000 := by decide +kernel
  have es1 : cosq 66280000 ≤ 402269000 := by decide +kernel
  have fc0 : (cosq 23160000 : ℝ) ≤ 919411000 := by exact_mod_cast ec0
  have fc1 : (915521000 : ℝ) ≤ cosq 23720000 := by exact_mod_cast ec1
  have fs0 : (393299000 : ℝ) ≤ cosq 66840000 := by exact_mod_cast es0
  have fs1 : (cosq 66280000 : ℝ) ≤ 402269000 := by exact_mod_cast es1
  have m0 := cosDeg_anti (a := ((23160000 : ℤ) : ℝ) / 1000000) (b := e) (by norm_num) (by norm_num at *; linarith)
    (by norm_num at *; linarith)
  have m1 := cosDeg_anti (a := e) (b := ((23720000 : ℤ) : ℝ) / 1000000) (by norm_num at *; linarith)
    (by norm_num at *; linarith) (by norm_num)
  have n0 := cosDeg_anti (a := ((66280000 : ℤ) : ℝ) / 1000000) (b := 90 - e) (by norm_num) (by norm_num at *; linarith)
    (by norm_num at *; linarith)
  have n1 := cosDeg_anti (a := 90 - e) (b := ((66840000 : ℤ) : ℝ) / 1000000) (by norm_num at *; linarith)
    (by norm_num at *; linarith) (by norm_num)
  rw [sinDeg_eq]
  rw [abs_le] at c0 c1 s0 s1
  constructor <;> rw [abs_le] <;> constructor <;> linarith [c0.1, c0.2, c1.1, c1.2, s0.1, s0.2, s1.1, s1.2]

/-- The argument of the vector of the sun near the equinox, in radians. -/
theorem sunVector_small {c m : ℝ} (hc : |c - 0.91747| ≤ 0.00196) (hm : |m| ≤ 0.05062) :
    |(sunVector c m).arg - 0.91747 * m| ≤ 0.000153 := by
  have hc' := abs_le.mp hc
  have l := sin_linear (x := m) (by linarith)
  have q := cube_le hm
  norm_num at q
  have sm : |sin m| ≤ 0.05062 := abs_sin_le_abs.trans hm
  have sm2 : sin m ^ 2 ≤ 0.05062 ^ 2 := by rw [← sq_abs]; exact pow_le_pow_left₀ (abs_nonneg _) sm 2
  have cm : 0.9 ≤ cos m := by
    have h1 := one_sub_sq_div_two_le_cos (x := m)
    have h2 : m ^ 2 ≤ 0.05062 ^ 2 := by rw [← sq_abs]; exact pow_le_pow_left₀ (abs_nonneg _) hm 2
    norm_num at *
    linarith
  have n1 : ‖sunVector c m‖ ≤ 1 := sunVector_norm (by rw [abs_le]; constructor <;> linarith [hc'.1, hc'.2])
  have n0 : 0.99978 ≤ ‖sunVector c m‖ := by
    have e : ‖sunVector c m‖ ^ 2 = 1 - (1 - c ^ 2) * sin m ^ 2 := by
      rw [Complex.sq_norm, Complex.normSq_apply]
      simp only [sunVector]
      have := sin_sq_add_cos_sq m
      nlinarith
    have f : (1 - c ^ 2) * sin m ^ 2 ≤ 0.163 * 0.05062 ^ 2 := by
      apply mul_le_mul _ sm2 (sq_nonneg _) (by norm_num)
      nlinarith [hc'.1, hc'.2]
    by_contra hlt
    have := norm_nonneg (sunVector c m)
    have : ‖sunVector c m‖ ^ 2 ≤ 0.99978 ^ 2 := pow_le_pow_left₀ this (not_le.mp hlt).le 2
    norm_num at *
    linarith
  have npos : 0 < ‖sunVector c m‖ := by linarith
  have sa : sin (sunVector c m).arg = c * sin m / ‖sunVector c m‖ := Complex.sin_arg _
  have csm : |c * sin m| ≤ 0.0467 := by
    rw [abs_mul, abs_of_pos (by linarith [hc'.1])]
    have := mul_le_mul (show c ≤ 0.91943 by linarith [hc'.2]) sm (abs_nonneg _) (by norm_num)
    norm_num at *
    linarith
  have quot : |c * sin m / ‖sunVector c m‖ - c * sin m| ≤ 0.0000104 := by
    have e : c * sin m / ‖sunVector c m‖ - c * sin m = c * sin m * ((1 - ‖sunVector c m‖) / ‖sunVector c m‖) := by
      field_simp
    rw [e, abs_mul, abs_div, abs_of_nonneg (by linarith : 0 ≤ 1 - ‖sunVector c m‖), abs_of_pos npos]
    have f : (1 - ‖sunVector c m‖) / ‖sunVector c m‖ ≤ 0.00022 / 0.99978 :=
      div_le_div₀ (by norm_num) (by linarith) (by norm_num) n0
    refine (mul_le_mul csm f (div_nonneg (by linarith) npos.le) (by norm_num)).trans (by norm_num)
  have sa5 : |sin (sunVector c m).arg| ≤ 0.05 := by
    rw [sa]
    have := abs_le.mp quot
    have := abs_le.mp csm
    rw [abs_le]
    constructor <;> linarith [(abs_le.mp quot).1, (abs_le.mp quot).2, (abs_le.mp csm).1, (abs_le.mp csm).2]
  have ar : |(sunVector c m).arg| ≤ π / 2 := by
    rw [Complex.abs_arg_le_pi_div_two_iff]
    simp only [sunVector]
    linarith
  obtain ⟨b, -⟩ := angle_of_sin ar sa5
  rw [sa] at b
  have t1 : |c * sin m - c * m| ≤ 0.00002 := by
    rw [← mul_sub, abs_mul, abs_of_pos (by linarith [hc'.1])]
    have := mul_le_mul (show c ≤ 0.91943 by linarith [hc'.2]) (show |sin m - m| ≤ 0.0000217 by linarith) (abs_nonneg _)
      (by norm_num)
    norm_num at *
    linarith
  have t2 : |c * m - 0.91747 * m| ≤ 0.0001 := by
    rw [← sub_mul, abs_mul]
    have := mul_le_mul hc hm (abs_nonneg _) (by norm_num)
    norm_num at *
    linarith
  rw [abs_le] at *
  constructor <;> linarith [b.1, b.2, quot.1, quot.2, t1.1, t1.2, t2.1, t2.2]

theorem degrees_bound {x B : ℝ} (h : |x| ≤ B) : |degrees x| ≤ 57.297 * B := by
  rw [degrees_abs]
  have h0 := (abs_nonneg x).trans h
  unfold degrees
  have hp := pi_gt_d6
  have : 180 / π ≤ 57.297 := by
    rw [div_le_iff₀ pi_pos]
    norm_num at *
    linarith
  rw [mul_comm]
  exact mul_le_mul this h (abs_nonneg _) (by norm_num)

/-- The sun is near the equinox: the longitude is `360 k + mu`. -/
theorem ascension_near {t mu : ℝ} {k : ℤ} (ht : |t| ≤ 20.1) (h : fullLongitude t = 360 * k + mu) (hm : |mu| ≤ 2.9) :
    ∃ A : ℝ, ∃ j : ℤ, rightAscension t = A + 360 * j ∧ |A - 0.91747 * mu| ≤ 0.0088 := by
  obtain ⟨i, e, -, -⟩ := ascension_eq t
  obtain ⟨hc, -⟩ := obliquity_fine (apparentObliquity_bounds ht)
  have v : sunVector (cosDeg (apparentObliquity t)) (radians (fullLongitude t)) =
      sunVector (cosDeg (apparentObliquity t)) (radians mu) := by
    have r : radians (fullLongitude t) = radians mu + k * (2 * π) := by
      rw [h]
      unfold radians
      ring
    unfold sunVector
    rw [r, sin_add_int_mul_two_pi, cos_add_int_mul_two_pi]
  rw [v] at e
  have b := sunVector_small hc (m := radians mu) ((radians_bound hm).trans (by norm_num))
  have d := degrees_bound b
  rw [degrees_sub] at d
  have f : degrees (0.91747 * radians mu) = 0.91747 * mu := by
    have := degrees_radians mu
    unfold degrees at *
    rw [mul_assoc, this]
  rw [f] at d
  refine ⟨_, -i, ?_, d.trans (by norm_num)⟩
  rw [e]
  push_cast
  ring

theorem declination_near {t mu : ℝ} {k : ℤ} (ht : |t| ≤ 20.1) (h : fullLongitude t = 360 * k + mu) (hm : |mu| ≤ 2.9) :
    |declination t - 0.39779 * mu| ≤ 0.015 := by
  obtain ⟨-, hs⟩ := obliquity_fine (apparentObliquity_bounds ht)
  have s := declination_sin (t := t)
  have r : sinDeg (fullLongitude t) = sin (radians mu) := by
    have : fullLongitude t = mu - 360 * ((-k : ℤ) : ℝ) := by rw [h]; push_cast; ring
    rw [this, sinDeg_turn]
    rfl
  rw [r] at s
  have mb : |radians mu| ≤ 0.05062 := (radians_bound hm).trans (by norm_num)
  have l := sin_linear (x := radians mu) (by linarith)
  have q := cube_le mb
  norm_num at q
  have sm : |sin (radians mu)| ≤ 0.05062 := abs_sin_le_abs.trans mb
  have hs' := abs_le.mp hs
  set e := sinDeg (apparentObliquity t) with he
  have e0 : |e| ≤ 0.4023 := by rw [abs_le]; constructor <;> linarith [hs'.1, hs'.2]
  have s5 : |sin (radians (declination t))| ≤ 0.05 := by
    change |sinDeg (declination t)| ≤ 0.05
    rw [s, abs_mul]
    exact (mul_le_mul e0 sm (abs_nonneg _) (by norm_num)).trans (by norm_num)
  obtain ⟨b, -⟩ := angle_of_sin (abs_le.mpr (declination_range t)) s5
  have b' : |radians (declination t) - e * sin (radians mu)| ≤ 0.000022 := by rw [← s]; exact b
  have t1 : |e * sin (radians mu) - e * radians mu| ≤ 0.000009 := by
    rw [← mul_sub, abs_mul]
    have := mul_le_mul e0 (show |sin (radians mu) - radians mu| ≤ 0.0000217 by linarith) (abs_nonneg _) (by norm_num)
    norm_num at *
    linarith
  have t2 : |e * radians mu - 0.39779 * radians mu| ≤ 0.000228 := by
    rw [← sub_mul, abs_mul]
    have := mul_le_mul hs mb (abs_nonneg _) (by norm_num)
    norm_num at *
    linarith
  have b3 : |radians (declination t) - 0.39779 * radians mu| ≤ 0.00026 := by
    rw [abs_le] at *
    constructor <;> linarith [b'.1, b'.2, t1.1, t1.2, t2.1, t2.2]
  have d := degrees_bound b3
  rw [degrees_sub, degrees_radians] at d
  have f : degrees (0.39779 * radians mu) = 0.39779 * mu := by
    have := degrees_radians mu
    unfold degrees at *
    rw [mul_assoc, this]
  rw [f] at d
  exact d.trans (by norm_num)

/-- The sine and cosine of the latitude of the reference point. -/
def LatTrig (lat : ℝ) : Prop := |sinDeg lat - 0.583461| ≤ 0.000003 ∧ |cosDeg lat - 0.812141| ≤ 0.000003

/-- The hour angle of the sunset for a small declination. -/
theorem hourAngle_near {lat d H : ℝ} (hl : LatTrig lat) (hd : |d| ≤ 1.6) (h0 : 69 ≤ H) (h1 : H ≤ 113)
    (e : sinDeg lat * sinDeg d + cosDeg lat * cosDeg d * cosDeg H = sinDeg (-sunOffset)) :
    |H - (91.02605 + 0.718423 * d)| ≤ 0.003 := by
  obtain ⟨hs, hc⟩ := hl
  have hs' := abs_le.mp hs
  have hc' := abs_le.mp hc
  set f := sinDeg lat
  set g := cosDeg lat
  have eH : cosDeg H = -sin (radians (H - 90)) := by
    rw [show H = 90 + (H - 90) by ring]
    unfold cosDeg
    rw [radians_add, show radians 90 = π / 2 by unfold radians; ring, add_comm, cos_add_pi_div_two]
    ring_nf
  set b := radians (H - 90) with hb
  set y := radians d with hy
  have eo : sinDeg (-sunOffset) = -sin (radians 0.8333) := by
    unfold sinDeg sunOffset
    rw [radians_neg, sin_neg]
  have ed : sinDeg d = sin y := rfl
  have ec : cosDeg d = cos y := rfl
  rw [eH, eo, ed, ec] at e
  set o := radians 0.8333 with ho
  have o1 : |o| ≤ 0.014545 := (radians_bound (x := 0.8333) (B := 0.8333) (by norm_num)).trans (by norm_num)
  have y1 : |y| ≤ 0.02793 := (radians_bound hd).trans (by norm_num)
  have so := sin_linear (x := o) (by linarith)
  have sy := sin_linear (x := y) (by linarith)
  have qo := cube_le o1
  have qy := cube_le y1
  norm_num at qo qy
  have so1 : |sin o| ≤ 0.014545 := abs_sin_le_abs.trans o1
  have sy1 : |sin y| ≤ 0.02793 := abs_sin_le_abs.trans y1
  have cy0 : 0.9996 ≤ cos y := by
    have h1 := one_sub_sq_div_two_le_cos (x := y)
    have h2 : y ^ 2 ≤ 0.02793 ^ 2 := by rw [← sq_abs]; exact pow_le_pow_left₀ (abs_nonneg _) y1 2
    norm_num at *
    linarith
  have cy1 := cos_le_one y
  have e2 : g * cos y * sin b = sin o + f * sin y := by linarith
  have rhs : |sin o + f * sin y| ≤ 0.03085 := by
    have : |f * sin y| ≤ 0.0163 := by
      rw [abs_mul, abs_of_pos (by linarith [hs'.1])]
      exact (mul_le_mul (show f ≤ 0.583464 by linarith [hs'.2]) sy1 (abs_nonneg _) (by norm_num)).trans (by norm_num)
    exact (abs_add_le _ _).trans (by linarith)
  have gc : 0.8118 ≤ g * cos y := by nlinarith [hc'.1]
  have sb : |sin b| ≤ 0.0381 := by
    rw [← e2, abs_mul, abs_of_pos (by linarith : 0 < g * cos y)] at rhs
    have := mul_le_mul_of_nonneg_right gc (abs_nonneg (sin b))
    linarith
  have bb : |b| ≤ π / 2 := by
    have : |H - 90| ≤ 23 := by rw [abs_le]; constructor <;> linarith
    have := radians_bound this
    have := pi_gt_d2
    norm_num at *
    linarith
  obtain ⟨ba, -⟩ := angle_of_sin bb (by linarith)
  have t1 : |g * b - g * sin b| ≤ 0.0000179 := by
    rw [← mul_sub, abs_mul, abs_of_pos (by linarith [hc'.1])]
    exact (mul_le_mul (show g ≤ 0.812144 by linarith [hc'.2]) ba (abs_nonneg _) (by norm_num)).trans (by norm_num)
  have t2 : |g * sin b - (sin o + f * sin y)| ≤ 0.0000125 := by
    rw [← e2, show g * sin b - g * cos y * sin b = g * (1 - cos y) * sin b by ring, abs_mul,
      abs_of_nonneg (mul_nonneg (by linarith [hc'.1]) (by linarith))]
    have : g * (1 - cos y) ≤ 0.812144 * 0.0004 :=
      mul_le_mul (by linarith [hc'.2]) (by linarith) (by linarith) (by norm_num)
    exact (mul_le_mul this sb (abs_nonneg _) (by norm_num)).trans (by norm_num)
  have t3 : |f * sin y - f * y| ≤ 0.0000022 := by
    rw [← mul_sub, abs_mul, abs_of_pos (by linarith [hs'.1])]
    exact (mul_le_mul (show f ≤ 0.583464 by linarith [hs'.2]) (show |sin y - y| ≤ 0.00000365 by linarith) (abs_nonneg _)
      (by norm_num)).trans (by norm_num)
  have t4 : |sin o - o| ≤ 0.0000006 := by linarith
  have sum : |g * b - (o + f * y)| ≤ 0.0000335 := by
    rw [abs_le] at t1 t2 t3 t4 ⊢
    constructor <;> linarith [t1.1, t1.2, t2.1, t2.2, t3.1, t3.2, t4.1, t4.2]
  have dg := degrees_bound sum
  have ex : degrees (g * b - (o + f * y)) = g * (H - 90) - (0.8333 + f * d) := by
    have k1 := degrees_radians (H - 90)
    have k2 := degrees_radians d
    have k3 := degrees_radians 0.8333
    rw [← hb] at k1
    rw [← hy] at k2
    rw [← ho] at k3
    unfold degrees at *
    linear_combination g * k1 - k3 - f * k2
  rw [ex] at dg
  have u1 : |(g - 0.812141) * (H - 90)| ≤ 0.000069 := by
    rw [abs_mul]
    exact (mul_le_mul hc (show |H - 90| ≤ 23 by rw [abs_le]; constructor <;> linarith) (abs_nonneg _)
      (by norm_num)).trans (by norm_num)
  have u2 : |(f - 0.583461) * d| ≤ 0.0000048 := by
    rw [abs_mul]
    exact (mul_le_mul hs hd (abs_nonneg _) (by norm_num)).trans (by norm_num)
  rw [abs_le] at dg u1 u2 hd ⊢
  obtain ⟨dg1, dg2⟩ := dg
  obtain ⟨u11, u12⟩ := u1
  obtain ⟨u21, u22⟩ := u2
  obtain ⟨hd1, hd2⟩ := hd
  clear_value f g b y o
  constructor <;> linarith only [dg1, dg2, u11, u12, u21, u22, hd1, hd2]

end Verif.Solar
