import Verif.Lemmas.SolarSun

/-!
# Lemmas: the right ascension and the declination
-/

namespace Verif.Solar

open Real

/-! ## Arguments of complex numbers -/

theorem arg_ratio {z w : ℂ} (hz : z ≠ 0) (hw : w ≠ 0) :
    ∃ k : ℤ, w.arg = z.arg + (w * (starRingEnd ℂ) z).arg + 2 * π * k := by
  have hc : (starRingEnd ℂ) z ≠ 0 := by simpa using hz
  have h1 : ((w * (starRingEnd ℂ) z).arg : Real.Angle) = ((w.arg - z.arg : ℝ) : Real.Angle) := by
    rw [Complex.arg_mul_coe_angle hw hc, Complex.arg_conj_coe_angle, Real.Angle.coe_sub, sub_eq_add_neg]
  obtain ⟨k, e⟩ := Real.Angle.angle_eq_iff_two_pi_dvd_sub.mp h1
  exact ⟨-k, by push_cast; linarith⟩

theorem arg_small {w : ℂ} (h : 0 < w.re) : |w.arg| ≤ |w.im| / w.re := by
  have h1 := Complex.abs_arg_lt_pi_div_two_iff.mpr (Or.inl h)
  have h2 := Complex.tan_arg w
  rw [abs_lt] at h1
  rcases le_total 0 w.arg with h3 | h3
  · rw [abs_of_nonneg h3]
    refine (le_tan h3 h1.2).trans ?_
    rw [h2]
    exact div_le_div_of_nonneg_right (le_abs_self _) h.le
  · rw [abs_of_nonpos h3]
    refine (le_tan (by linarith) (by linarith)).trans ?_
    rw [tan_neg, h2, ← neg_div]
    exact div_le_div_of_nonneg_right (neg_le_abs _) h.le

theorem le_arg {w : ℂ} (h : 0 ≤ w.im) (hw : w ≠ 0) (h1 : ‖w‖ ≤ 1) : w.im ≤ w.arg := by
  have h2 := Complex.sin_arg w
  have h3 := Complex.arg_nonneg_iff.mpr h
  have h4 : 0 < ‖w‖ := norm_pos_iff.mpr hw
  calc w.im ≤ w.im / ‖w‖ := by
        rw [le_div_iff₀ h4]
        nlinarith
    _ = sin w.arg := h2.symm
    _ ≤ w.arg := sin_le h3

/-- The direction of the sun in the plane of the equator. -/
noncomputable def sunVector (c l : ℝ) : ℂ := ⟨cos l, c * sin l⟩

theorem sunVector_ne {c l : ℝ} (hc : c ≠ 0) : sunVector c l ≠ 0 := by
  intro h
  have h1 : cos l = 0 := congrArg Complex.re h
  have h2 : c * sin l = 0 := congrArg Complex.im h
  have h3 := sin_sq_add_cos_sq l
  rcases mul_eq_zero.mp h2 with h4 | h4
  · exact hc h4
  · rw [h1, h4] at h3
    norm_num at h3

theorem sunVector_norm {c l : ℝ} (hc : |c| ≤ 1) : ‖sunVector c l‖ ≤ 1 := by
  have h : ‖sunVector c l‖ ^ 2 ≤ 1 := by
    rw [Complex.sq_norm, Complex.normSq_apply]
    simp only [sunVector]
    have h1 := sin_sq_add_cos_sq l
    have h2 : c ^ 2 ≤ 1 := by rw [← sq_abs]; exact pow_le_one₀ (abs_nonneg _) hc
    have h3 := sq_nonneg (sin l)
    nlinarith
  nlinarith [norm_nonneg (sunVector c l)]

/-- Two directions of the sun: the angle between them, for small changes. -/
theorem sunVector_change {c d l k : ℝ} (c0 : 0.914 ≤ c) (c1 : c ≤ 1) (d0 : 0.914 ≤ d) (d1 : d ≤ 1) (hcd : |d - c| ≤ 0.0003)
    (hl : |k - l| ≤ 0.02) : ∃ x : ℝ, ∃ j : ℤ, (sunVector d k).arg = (sunVector c l).arg + x + 2 * π * j ∧
      |x| ≤ (|k - l| + 0.0003) / 0.83 ∧ (0.0163 ≤ k - l → 0.0145 ≤ x) := by
  have nz := sunVector_ne (c := c) (l := l) (by linarith)
  have nw := sunVector_ne (c := d) (l := k) (by linarith)
  obtain ⟨j, e⟩ := arg_ratio nz nw
  set w := sunVector d k * (starRingEnd ℂ) (sunVector c l) with hw
  have im : w.im = c * sin (k - l) + (d - c) * (sin k * cos l) := by
    rw [hw, sin_sub]
    simp [sunVector, Complex.mul_im]
    ring
  have re : w.re = cos (k - l) - (1 - c * d) * (sin l * sin k) := by
    rw [hw, cos_sub]
    simp [sunVector, Complex.mul_re]
    ring
  have hn : ‖w‖ ≤ 1 := by
    rw [hw, norm_mul, Complex.norm_conj]
    exact mul_le_one₀ (sunVector_norm (by rw [abs_le]; constructor <;> linarith)) (norm_nonneg _)
      (sunVector_norm (by rw [abs_le]; constructor <;> linarith))
  have hw0 : w ≠ 0 := mul_ne_zero nw (by simpa using nz)
  have p1 : |sin k * cos l| ≤ 1 := by
    rw [abs_mul]
    exact mul_le_one₀ (abs_sin_le_one _) (abs_nonneg _) (abs_cos_le_one _)
  have p2 : |sin l * sin k| ≤ 1 := by
    rw [abs_mul]
    exact mul_le_one₀ (abs_sin_le_one _) (abs_nonneg _) (abs_sin_le_one _)
  have p3 : |(d - c) * (sin k * cos l)| ≤ 0.0003 * 1 := by
    rw [abs_mul]
    exact mul_le_mul hcd p1 (abs_nonneg _) (by norm_num)
  have p4 : 1 - c * d ≤ 0.165 := by nlinarith
  have p5 : 0 ≤ 1 - c * d := by nlinarith
  have p6 : |(1 - c * d) * (sin l * sin k)| ≤ 0.165 * 1 := by
    rw [abs_mul, abs_of_nonneg p5]
    exact mul_le_mul p4 p2 (abs_nonneg _) (by norm_num)
  have p7 : 0.9998 ≤ cos (k - l) := by
    have h1 := one_sub_sq_div_two_le_cos (x := k - l)
    have h2 : (k - l) ^ 2 ≤ 0.02 ^ 2 := by
      rw [← sq_abs]
      exact pow_le_pow_left₀ (abs_nonneg _) hl 2
    norm_num at *
    linarith
  have hre : 0.83 ≤ w.re := by
    rw [re]
    rw [abs_le] at p6
    norm_num at *
    linarith
  have him : |w.im| ≤ |k - l| + 0.0003 := by
    rw [im]
    refine (abs_add_le _ _).trans ?_
    have h1 : |c * sin (k - l)| ≤ |k - l| := by
      rw [abs_mul, abs_of_pos (by linarith)]
      have h2 : |sin (k - l)| ≤ |k - l| := abs_sin_le_abs
      have h3 := abs_nonneg (sin (k - l))
      nlinarith
    norm_num at *
    linarith
  refine ⟨w.arg, j, e, ?_, ?_⟩
  · refine (arg_small (by linarith)).trans ?_
    apply div_le_div₀ (by positivity) him (by norm_num) hre
  · intro hkl
    have h1 := sin_gt_sub_cube (x := k - l) (by linarith)
    have h0 : k - l ≤ 0.02 := (le_abs_self _).trans hl
    have h2 : (k - l) ^ 3 ≤ 0.02 ^ 3 := pow_le_pow_left₀ (by linarith) h0 3
    have h3 : 0.0162 ≤ sin (k - l) := by
      norm_num at *
      linarith
    have h4 : 0.0145 ≤ w.im := by
      rw [im]
      rw [abs_le] at p3
      have : 0.914 * 0.0162 ≤ c * sin (k - l) := mul_le_mul c0 h3 (by norm_num) (by linarith)
      norm_num at *
      linarith
    exact h4.trans (le_arg (by linarith) hw0 hn)

/-- The reduction to the equator is small. -/
theorem sunVector_reduction {c l : ℝ} (c0 : 0.914 ≤ c) (c1 : c ≤ 1) : ∃ x : ℝ, ∃ j : ℤ,
    (sunVector c l).arg = l + x + 2 * π * j ∧ |x| ≤ 0.0471 := by
  have nz : sunVector 1 l ≠ 0 := sunVector_ne one_ne_zero
  have nw := sunVector_ne (c := c) (l := l) (by linarith)
  obtain ⟨j, e⟩ := arg_ratio nz nw
  have h1 : ((sunVector 1 l).arg : Real.Angle) = (l : Real.Angle) := by
    have : sunVector 1 l = ((l : Real.Angle).cos : ℂ) + ((l : Real.Angle).sin : ℂ) * Complex.I := by
      rw [Real.Angle.cos_coe, Real.Angle.sin_coe]
      apply Complex.ext <;> simp [sunVector, -Complex.ofReal_cos, -Complex.ofReal_sin]
    rw [this, Complex.arg_cos_add_sin_mul_I_coe_angle]
  obtain ⟨i, e2⟩ := Real.Angle.angle_eq_iff_two_pi_dvd_sub.mp h1
  refine ⟨(sunVector c l * (starRingEnd ℂ) (sunVector 1 l)).arg, i + j, by rw [e]; push_cast; linarith, ?_⟩
  have im : (sunVector c l * (starRingEnd ℂ) (sunVector 1 l)).im = (c - 1) * (sin l * cos l) := by
    simp [sunVector, Complex.mul_im]
    ring
  have re : (sunVector c l * (starRingEnd ℂ) (sunVector 1 l)).re = 1 - (1 - c) * sin l ^ 2 := by
    have := sin_sq_add_cos_sq l
    simp [sunVector, Complex.mul_re]
    nlinarith
  have hs := sin_sq_le_one l
  have hre : 0.914 ≤ (sunVector c l * (starRingEnd ℂ) (sunVector 1 l)).re := by
    rw [re]
    have := sq_nonneg (sin l)
    nlinarith
  refine (arg_small (by linarith)).trans ?_
  have him : |(sunVector c l * (starRingEnd ℂ) (sunVector 1 l)).im| ≤ 0.086 * (1 / 2) := by
    rw [im, abs_mul]
    refine mul_le_mul (by rw [abs_le]; constructor <;> linarith) ?_ (abs_nonneg _) (by norm_num)
    have h5 := sin_sq_add_cos_sq l
    rw [abs_le]
    constructor <;> nlinarith [sq_nonneg (sin l - cos l), sq_nonneg (sin l + cos l)]
  rw [div_le_iff₀ (by linarith)]
  norm_num at *
  linarith

/-! ## The right ascension -/

/-- The apparent longitude without the reduction to one turn. -/
noncomputable def fullLongitude (t : ℝ) : ℝ := rawLongitude t + sunShift t

theorem ascension_eq (t : ℝ) : ∃ k : ℤ, rightAscension t =
    degrees (sunVector (cosDeg (apparentObliquity t)) (radians (fullLongitude t))).arg - 360 * k ∧
    0 ≤ rightAscension t ∧ rightAscension t < 360 := by
  unfold rightAscension
  obtain ⟨j, e⟩ := longitude_eq t
  rw [e, sinDeg_turn, cosDeg_turn]
  exact coterminal_spec _

theorem degrees_turn (k : ℤ) : degrees (2 * π * k) = 360 * k := by
  unfold degrees
  field_simp
  ring

theorem degrees_le {a b : ℝ} (ha : a ≤ 0.01745 * b) (hb : 0 ≤ b) : degrees a ≤ b := by
  rw [degrees_le_iff]
  unfold radians
  have := degree_bounds.1
  nlinarith

theorem fullLongitude_change {t h : ℝ} (ht : |t| ≤ 20.05) (hh : |h| ≤ 1 / 36525) :
    |fullLongitude (t + h) - fullLongitude t| ≤ 36000.77 * |h| + 0.0461 := by
  have hL := longitude_change ht hh
  unfold fullLongitude
  have h3 : |36000.76983 * h| ≤ 36000.77 * |h| := by
    rw [abs_mul, abs_of_pos (show (0 : ℝ) < 36000.76983 by norm_num)]
    exact mul_le_mul_of_nonneg_right (by norm_num) (abs_nonneg h)
  have h4 : rawLongitude (t + h) + sunShift (t + h) - (rawLongitude t + sunShift t) =
      (rawLongitude (t + h) + sunShift (t + h) - (rawLongitude t + sunShift t) - 36000.76983 * h) + 36000.76983 * h := by
    ring
  rw [h4]
  refine (abs_add_le _ _).trans ?_
  linarith

theorem ascension_change {t h : ℝ} (ht : |t| ≤ 20.05) (hh : |h| ≤ 1 / 36525) :
    ∃ x : ℝ, ∃ j : ℤ, rightAscension (t + h) = rightAscension t + x + 360 * j ∧
      |x| ≤ (36000.77 * |h| + 0.064) / 0.83 ∧ (h = 1 / 36525 → 0.83 ≤ x) := by
  have hth : |t + h| ≤ 20.1 := by
    refine (abs_add_le _ _).trans ?_
    norm_num at *
    linarith
  obtain ⟨k1, e1, -, -⟩ := ascension_eq t
  obtain ⟨k2, e2, -, -⟩ := ascension_eq (t + h)
  have c1 := (obliquity_trig (apparentObliquity_bounds (tc := t) (by linarith))).1
  have c2 := (obliquity_trig (apparentObliquity_bounds hth)).1
  have hd : |cosDeg (apparentObliquity (t + h)) - cosDeg (apparentObliquity t)| ≤ 0.0003 := by
    refine (cosDeg_lip _ _).trans ?_
    have := obliquity_change ht hh
    norm_num at *
    linarith
  have hL := longitude_change ht hh
  have h1 : |h| ≤ 1 / 36525 := hh
  have hl0 := fullLongitude_change ht hh
  have hl1 : |radians (fullLongitude (t + h)) - radians (fullLongitude t)| ≤
      0.0174534 * (36000.77 * |h| + 0.0461) := by
    rw [← radians_sub, radians_abs]
    unfold radians
    have := degree_bounds.2
    have := degree_bounds.1
    have := abs_nonneg (fullLongitude (t + h) - fullLongitude t)
    nlinarith
  obtain ⟨x, j, e3, b1, b2⟩ := sunVector_change (c := cosDeg (apparentObliquity t))
    (d := cosDeg (apparentObliquity (t + h))) (l := radians (fullLongitude t)) (k := radians (fullLongitude (t + h)))
    (by norm_num at *; linarith) (le_trans (le_abs_self _) (abs_cosDeg _)) (by norm_num at *; linarith)
    (le_trans (le_abs_self _) (abs_cosDeg _)) hd (by norm_num at *; linarith)
  refine ⟨degrees x, j + k1 - k2, ?_, ?_, ?_⟩
  · rw [e1, e2, e3, degrees_add, degrees_add, degrees_turn]
    push_cast
    ring
  · rw [degrees_abs]
    apply degrees_le _ (by positivity)
    refine b1.trans ?_
    rw [mul_div_assoc']
    apply div_le_div_of_nonneg_right _ (by norm_num)
    have := abs_nonneg h
    norm_num at *
    linarith
  · intro h5
    rw [le_degrees_iff]
    have h6 : 0.0163 ≤ radians (fullLongitude (t + h)) - radians (fullLongitude t) := by
      rw [← radians_sub]
      unfold radians
      have h7 : 0.939 ≤ fullLongitude (t + h) - fullLongitude t := by
        unfold fullLongitude
        rw [abs_le] at hL
        rw [h5] at hL ⊢
        norm_num at *
        linarith
      have := degree_bounds.1
      nlinarith
    have h8 := b2 h6
    unfold radians
    have := degree_bounds.2
    norm_num at *
    linarith

theorem ascension_reduction {t : ℝ} (ht : |t| ≤ 20.1) :
    ∃ x : ℝ, ∃ j : ℤ, rightAscension t = rawLongitude t + x + 360 * j ∧ |x| ≤ 4.77 := by
  obtain ⟨k1, e1, -, -⟩ := ascension_eq t
  have c1 := (obliquity_trig (apparentObliquity_bounds ht)).1
  obtain ⟨x, j, e2, b⟩ := sunVector_reduction (c := cosDeg (apparentObliquity t)) (l := radians (fullLongitude t))
    (by norm_num at *; linarith) (le_trans (le_abs_self _) (abs_cosDeg _))
  refine ⟨sunShift t + degrees x, j - k1, ?_, ?_⟩
  · rw [e1, e2, degrees_add, degrees_add, degrees_turn, degrees_radians]
    unfold fullLongitude
    push_cast
    ring
  · refine (abs_add_le _ _).trans ?_
    have h1 := sunShift_abs ht
    have h2 : |degrees x| ≤ 2.7 := by
      rw [degrees_abs]
      exact degrees_le (by norm_num at *; linarith) (by norm_num)
    norm_num at *
    linarith

/-! ## The declination -/

theorem declination_sin {t : ℝ} : sinDeg (declination t) = sinDeg (apparentObliquity t) * sinDeg (fullLongitude t) := by
  unfold declination
  obtain ⟨j, e⟩ := longitude_eq t
  rw [e, sinDeg_turn]
  have h : |sinDeg (apparentObliquity t) * sinDeg (rawLongitude t + sunShift t)| ≤ 1 := by
    rw [abs_mul]
    exact mul_le_one₀ (abs_sinDeg _) (abs_nonneg _) (abs_sinDeg _)
  rw [abs_le] at h
  rw [sinDeg, radians_degrees, sin_arcsin h.1 h.2]
  rfl

theorem declination_range (t : ℝ) : -(π / 2) ≤ radians (declination t) ∧ radians (declination t) ≤ π / 2 := by
  unfold declination
  rw [radians_degrees]
  exact ⟨neg_pi_div_two_le_arcsin _, arcsin_le_pi_div_two _⟩

theorem cos_of_sin {x : ℝ} (h0 : -(π / 2) ≤ x) (h1 : x ≤ π / 2) (h : |sin x| ≤ 0.4053) : 0.914 ≤ cos x := by
  have h2 := cos_nonneg_of_neg_pi_div_two_le_of_le h0 h1
  have h3 := sin_sq_add_cos_sq x
  have h4 : sin x ^ 2 ≤ 0.4053 ^ 2 := by
    rw [← sq_abs]
    exact pow_le_pow_left₀ (abs_nonneg _) h 2
  nlinarith

theorem declination_bounds {t : ℝ} (ht : |t| ≤ 20.1) : |sinDeg (declination t)| ≤ 0.4053 ∧ 0.914 ≤ cosDeg (declination t) := by
  have h1 : |sinDeg (declination t)| ≤ 0.4053 := by
    rw [declination_sin, abs_mul]
    have h2 := (obliquity_trig (apparentObliquity_bounds ht)).2
    have := mul_le_mul h2 (abs_sinDeg (fullLongitude t)) (abs_nonneg _) (by norm_num)
    linarith
  exact ⟨h1, cos_of_sin (declination_range t).1 (declination_range t).2 h1⟩

theorem declination_change {t h : ℝ} (ht : |t| ≤ 20.05) (hh : |h| ≤ 1 / 36525) :
    |declination (t + h) - declination t| ≤ 0.4711 := by
  have hth : |t + h| ≤ 20.1 := by
    refine (abs_add_le _ _).trans ?_
    norm_num at *
    linarith
  have b1 := declination_bounds (t := t) (by linarith)
  have b2 := declination_bounds hth
  obtain ⟨r1, r2⟩ := declination_range t
  obtain ⟨r3, r4⟩ := declination_range (t + h)
  obtain ⟨x, x0, x1, e⟩ := sin_mean (radians (declination (t + h))) (radians (declination t))
  have hx : 0.914 ≤ cos x := by
    have y0 : -(π / 2) ≤ x := le_trans (le_min r3 r1) x0
    have y1 : x ≤ π / 2 := le_trans x1 (max_le r4 r2)
    apply cos_of_sin y0 y1
    have q1 := b1.1
    have q2 := b2.1
    unfold sinDeg at q1 q2
    rw [abs_le] at q1 q2 ⊢
    constructor
    · rcases min_le_iff.mp x0 with g | g
      · exact le_trans q2.1 (sin_le_sin_of_le_of_le_pi_div_two r3 y1 g)
      · exact le_trans q1.1 (sin_le_sin_of_le_of_le_pi_div_two r1 y1 g)
    · rcases le_max_iff.mp x1 with g | g
      · exact le_trans (sin_le_sin_of_le_of_le_pi_div_two y0 r4 g) q2.2
      · exact le_trans (sin_le_sin_of_le_of_le_pi_div_two y0 r2 g) q1.2
  have hs : |sinDeg (declination (t + h)) - sinDeg (declination t)| ≤ 0.00751 := by
    rw [declination_sin, declination_sin]
    have e1 : sinDeg (apparentObliquity (t + h)) * sinDeg (fullLongitude (t + h)) -
        sinDeg (apparentObliquity t) * sinDeg (fullLongitude t) =
        sinDeg (apparentObliquity (t + h)) * (sinDeg (fullLongitude (t + h)) - sinDeg (fullLongitude t)) +
        (sinDeg (apparentObliquity (t + h)) - sinDeg (apparentObliquity t)) * sinDeg (fullLongitude t) := by ring
    rw [e1]
    refine (abs_add_le _ _).trans ?_
    rw [abs_mul, abs_mul]
    have l1 : |fullLongitude (t + h) - fullLongitude t| ≤ 1.0318 := (fullLongitude_change ht hh).trans (by
      norm_num at *
      linarith)
    have l2 : |sinDeg (fullLongitude (t + h)) - sinDeg (fullLongitude t)| ≤ 0.01801 := by
      refine (sinDeg_lip _ _).trans ?_
      norm_num at *
      linarith
    have l3 : |sinDeg (apparentObliquity (t + h)) - sinDeg (apparentObliquity t)| ≤ 0.00021 := by
      refine (sinDeg_lip _ _).trans ?_
      have := obliquity_change ht hh
      norm_num at *
      linarith
    have l4 := (obliquity_trig (apparentObliquity_bounds hth)).2
    have l5 := mul_le_mul l4 l2 (abs_nonneg _) (by norm_num)
    have l6 := mul_le_mul l3 (abs_sinDeg (fullLongitude t)) (abs_nonneg _) (by norm_num)
    norm_num at *
    linarith
  have e2 : sinDeg (declination (t + h)) - sinDeg (declination t) = cos x * radians (declination (t + h) - declination t) := by
    rw [radians_sub]
    exact e
  rw [e2, abs_mul, abs_of_nonneg (by linarith)] at hs
  rw [radians_abs] at hs
  unfold radians at hs
  have g1 := degree_bounds.1
  have g2 := abs_nonneg (declination (t + h) - declination t)
  have g3 : 0.914 * (0.0174532 * |declination (t + h) - declination t|) ≤ 0.00751 := by
    refine le_trans ?_ hs
    apply mul_le_mul hx _ (by positivity) (by linarith)
    nlinarith
  norm_num at *
  linarith

/-! ## The interpolations -/

theorem interpolatedAscension_form {t : ℝ} (ht : |t| ≤ 20.04) :
    ∃ a b, 0.83 ≤ a ∧ a ≤ 1.27 ∧ 0.83 ≤ b ∧ b ≤ 1.27 ∧
      ∀ n, interpolatedAscension t n = rightAscension t + n / 2 * (a + b + n * (b - a)) := by
  have key : ∀ u : ℝ, |u| ≤ 20.05 → ∃ x : ℝ, (rightAscension (u + 1 / 36525) - rightAscension u +
      (if rightAscension (u + 1 / 36525) - rightAscension u < 0 then 360 else 0)) = x ∧ 0.83 ≤ x ∧ x ≤ 1.27 := by
    intro u hu
    obtain ⟨x, j, e, b1, b2⟩ := ascension_change (h := 1 / 36525) hu (by rw [abs_of_pos (by norm_num)])
    have b3 := b2 rfl
    rw [abs_of_pos (show (0 : ℝ) < 1 / 36525 by norm_num)] at b1
    have b4 : x ≤ 1.27 := by
      have := le_abs_self x
      norm_num at *
      linarith
    obtain ⟨-, -, p1, p2⟩ := ascension_eq u
    obtain ⟨-, -, p3, p4⟩ := ascension_eq (u + 1 / 36525)
    refine ⟨x, ?_, b3, b4⟩
    have q0 : (-2 : ℝ) < j := by norm_num at *; linarith
    have q1 : (j : ℝ) < 1 := by norm_num at *; linarith
    have q2 : -2 < j := by exact_mod_cast q0
    have q3 : j < 1 := by exact_mod_cast q1
    have q4 : j = 0 ∨ j = -1 := by omega
    rcases q4 with rfl | rfl
    · rw [if_neg (by rw [e]; norm_num at *; linarith), e]
      norm_num
    · rw [if_pos (by rw [e]; norm_num at *; linarith), e]
      push_cast
      ring
  obtain ⟨b, eb, b0, b1⟩ := key t (by linarith)
  obtain ⟨a, ea, a0, a1⟩ := key (t - 1 / 36525) (by
    refine (abs_sub _ _).trans ?_
    rw [abs_of_pos (show (0 : ℝ) < 1 / 36525 by norm_num)]
    norm_num at *
    linarith)
  rw [sub_add_cancel] at ea
  refine ⟨a, b, a0, a1, b0, b1, fun n => ?_⟩
  unfold interpolatedAscension interpolation
  simp only [if_true]
  rw [ea, eb]

theorem interpolatedAscension_eq {t n : ℝ} (ht : |t| ≤ 20.04) (h0 : 0 ≤ n) (h1 : n ≤ 1) :
    ∃ y, interpolatedAscension t n = rightAscension t + y ∧ 0.83 * n ≤ y ∧ y ≤ 1.27 * n := by
  obtain ⟨a, b, a0, a1, b0, b1, e⟩ := interpolatedAscension_form ht
  refine ⟨n / 2 * (a + b + n * (b - a)), ?_, ?_, ?_⟩
  · exact e n
  · have : n / 2 * (a + b + n * (b - a)) = a * (n * (1 - n) / 2) + b * (n * (1 + n) / 2) := by ring
    rw [this]
    have := mul_le_mul_of_nonneg_right a0 (by have := mul_nonneg h0 (sub_nonneg.mpr h1); linarith : 0 ≤ n * (1 - n) / 2)
    have := mul_le_mul_of_nonneg_right b0 (by positivity : 0 ≤ n * (1 + n) / 2)
    norm_num at *
    linarith
  · have : n / 2 * (a + b + n * (b - a)) = a * (n * (1 - n) / 2) + b * (n * (1 + n) / 2) := by ring
    rw [this]
    have := mul_le_mul_of_nonneg_right a1 (by have := mul_nonneg h0 (sub_nonneg.mpr h1); linarith : 0 ≤ n * (1 - n) / 2)
    have := mul_le_mul_of_nonneg_right b1 (by positivity : 0 ≤ n * (1 + n) / 2)
    norm_num at *
    linarith

theorem interpolatedDeclination_form {t : ℝ} (ht : |t| ≤ 20.04) :
    ∃ a b, |a| ≤ 0.4711 ∧ |b| ≤ 0.4711 ∧
      ∀ n, interpolatedDeclination t n = declination t + n / 2 * (a + b + n * (b - a)) := by
  have key : ∀ u : ℝ, |u| ≤ 20.05 → |declination (u + 1 / 36525) - declination u| ≤ 0.4711 := by
    intro u hu
    exact declination_change hu (by rw [abs_of_pos (by norm_num)])
  have b := key t (by linarith)
  have a := key (t - 1 / 36525) (by
    refine (abs_sub _ _).trans ?_
    rw [abs_of_pos (show (0 : ℝ) < 1 / 36525 by norm_num)]
    norm_num at *
    linarith)
  rw [sub_add_cancel] at a
  refine ⟨_, _, a, b, fun n => ?_⟩
  unfold interpolatedDeclination interpolation
  simp only [Bool.false_eq_true, if_false]

theorem interpolatedDeclination_eq {t n : ℝ} (ht : |t| ≤ 20.04) (h0 : 0 ≤ n) (h1 : n ≤ 1) :
    |interpolatedDeclination t n - declination t| ≤ 0.4711 * n := by
  obtain ⟨a, b, ha, hb, e⟩ := interpolatedDeclination_form ht
  have e' : interpolatedDeclination t n - declination t = a * (n * (1 - n) / 2) + b * (n * (1 + n) / 2) := by
    rw [e n]
    ring
  have w0 : 0 ≤ n * (1 - n) / 2 := by
    have := mul_nonneg h0 (sub_nonneg.mpr h1)
    linarith
  have w1 : 0 ≤ n * (1 + n) / 2 := by positivity
  rw [e']
  refine (abs_add_le _ _).trans ?_
  rw [abs_mul, abs_mul, abs_of_nonneg w0, abs_of_nonneg w1]
  have := mul_le_mul_of_nonneg_right ha w0
  have := mul_le_mul_of_nonneg_right hb w1
  norm_num at *
  linarith

/-- The interpolation changes little over a part of the day. -/
theorem interpolation_change {a b n k : ℝ} (n0 : 0 ≤ n) (n1 : n ≤ 0.85) (k0 : 0 ≤ k) (k1 : k ≤ 0.85) (c B : ℝ)
    (ha : |a - c| ≤ B) (hb : |b - c| ≤ B) :
    |n / 2 * (a + b + n * (b - a)) - k / 2 * (a + b + k * (b - a)) - c * (n - k)| ≤ 1.7 * B * |n - k| := by
  have e : n / 2 * (a + b + n * (b - a)) - k / 2 * (a + b + k * (b - a)) - c * (n - k) =
      ((a - c) * (1 / 2 - (n + k) / 2) + (b - c) * (1 / 2 + (n + k) / 2)) * (n - k) := by ring
  rw [e, abs_mul]
  apply mul_le_mul_of_nonneg_right _ (abs_nonneg _)
  refine (abs_add_le _ _).trans ?_
  rw [abs_mul, abs_mul]
  have w0 : |1 / 2 - (n + k) / 2| + |1 / 2 + (n + k) / 2| ≤ 1.7 := by
    rw [abs_of_nonneg (show 0 ≤ 1 / 2 + (n + k) / 2 by linarith)]
    rcases abs_cases (1 / 2 - (n + k) / 2) with ⟨h, -⟩ | ⟨h, -⟩ <;> rw [h] <;> norm_num at * <;> linarith
  have := mul_le_mul_of_nonneg_right ha (abs_nonneg (1 / 2 - (n + k) / 2))
  have := mul_le_mul_of_nonneg_right hb (abs_nonneg (1 / 2 + (n + k) / 2))
  have hB : 0 ≤ B := (abs_nonneg _).trans ha
  nlinarith

end Verif.Solar
