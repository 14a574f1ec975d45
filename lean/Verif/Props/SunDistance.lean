import Verif.Lemmas.SunDistance
import Verif.Props.SunPosition

/-!
# The distance of the sun

The property is C102 of `properties.jsonl`.
-/

namespace Verif

open Real Verif.Solar Verif.Sun

/-! ## Specification -/

/-- The eccentricity of the orbit of the earth (Meeus, Astronomical Algorithms, formula 25.4), in millennia. -/
noncomputable def orbitEccentricity (tm : ℝ) : ℝ := 0.016708634 - 0.00042037 * tm

/-- The mean anomaly in radians (formula 25.3). -/
noncomputable def orbitAnomaly (tm : ℝ) : ℝ := (357.52911 + 359990.5029 * tm) * π / 180

/-- The distance on an ellipse of Kepler, up to the square of the eccentricity. -/
noncomputable def keplerDistance (tm : ℝ) : ℝ :=
  1.000001018 * (1 + orbitEccentricity tm ^ 2 / 2 - orbitEccentricity tm * cos (orbitAnomaly tm) -
    orbitEccentricity tm ^ 2 / 2 * cos (2 * orbitAnomaly tm))

/-! ## Theorems -/

theorem anomaly_cos (tm : ℝ) : cos (orbitAnomaly tm) = -cos (3.0984635 + 6283.07585 * tm - perihelion tm) := by
  have e : orbitAnomaly tm = 3.0984635 + 6283.07585 * tm - perihelion tm + π := by
    unfold orbitAnomaly perihelion radians
    ring
  rw [e, cos_add_pi]

/-- **C102.** In the twenty one centuries before and after the year 2000 the distance is that of an ellipse of Kepler with the
eccentricity and the perihelion of the earth to a thousandth of its mean. -/
theorem C102_distance_partial {tm : ℝ} (h : |tm| ≤ 2.1) : |radiusVector tm false - keplerDistance tm| ≤ 0.0011 := by
  have m := abs_le.1 (radius_main h)
  have pn := perihelion_near h
  obtain ⟨sc, ss⟩ := shift_cos
  have hd : |perihelion tm| ≤ 0.119 := by
    have := abs_le.1 pn
    have := abs_le.1 h
    rw [abs_le]
    norm_num at *
    constructor <;> linarith
  obtain ⟨dc, ds⟩ := small_angle hd
  have ea := anomaly_cos tm
  have e2 := abs_cos_le_one (2 * orbitAnomaly tm)
  have es : cos (1.10749 + 6283.07585 * tm) = cos (3.0984635 + 6283.07585 * tm) * cos 1.9909735 +
      sin (3.0984635 + 6283.07585 * tm) * sin 1.9909735 := by
    rw [← cos_sub]
    congr 1
    ring
  rw [cos_sub] at ea
  rw [es] at m
  have hC := abs_cos_le_one (3.0984635 + 6283.07585 * tm)
  have hS := abs_sin_le_one (3.0984635 + 6283.07585 * tm)
  unfold radiusVector keplerDistance
  rw [ea]
  simp only [Bool.false_eq_true, if_false]
  generalize cos (3.0984635 + 6283.07585 * tm) = C at *
  generalize sin (3.0984635 + 6283.07585 * tm) = S at *
  generalize cos (2 * orbitAnomaly tm) = D at *
  generalize cos (1.9909735 : ℝ) = k at *
  generalize sin (1.9909735 : ℝ) = l at *
  generalize radius tm = R at *
  clear ea es
  unfold orbitEccentricity
  generalize cos (perihelion tm) = cd at *
  generalize sin (perihelion tm) = sd at *
  generalize perihelion tm = d at *
  have hd2 : |tm ^ 2| ≤ 4.41 := (pow_bound h).1
  set e := 0.016708634 - 0.00042037 * tm with he
  have e0 : 0.0158 ≤ e ∧ e ≤ 0.0176 := by
    have := abs_le.1 h
    rw [he]
    norm_num at *
    constructor <;> linarith
  have ee : |e| ≤ 0.0176 := by rw [abs_le]; constructor <;> linarith [e0.1, e0.2]
  have q0 : 0.0158 ^ 2 ≤ e ^ 2 := pow_le_pow_left₀ (by norm_num) e0.1 2
  have q1 : e ^ 2 ≤ 0.0176 ^ 2 := pow_le_pow_left₀ (by linarith [e0.1]) e0.2 2
  have qD : |e ^ 2 * D| ≤ 0.0176 ^ 2 := by
    rw [abs_mul, abs_of_nonneg (sq_nonneg e)]
    nlinarith [abs_nonneg D, sq_nonneg e]
  -- the factor of the cosine
  have t1 := mul_bound ee dc
  have t2 := mul_bound h sc
  have A : |0.016707 + 0.00103019 * (tm * k) - 1.000001018 * (e * cd)| ≤ 0.000134 := by
    have f : e * cd = e * (cd - 1) + e := by ring
    have g : tm * k = tm * (k + 0.408) - 0.408 * tm := by ring
    have := abs_le.1 h
    rw [f, g, abs_le]
    generalize e * (cd - 1) = x at *
    generalize tm * (k + 0.408) = y at *
    rw [he]
    norm_num at t1 t2 this ⊢
    constructor <;> linarith
  -- the factor of the sine
  have t3 := mul_bound ee ds
  have t4 := mul_bound h ss
  have t5 := mul_bound ee pn
  have B : |0.00103019 * (tm * l) - 1.000001018 * (e * sd)| ≤ 0.00013 := by
    have f : e * sd = e * (sd - d) + e * (d - 0.0563 * tm) + (0.016708634 * 0.0563 * tm - 0.00042037 * 0.0563 * tm ^ 2) := by
      rw [he]; ring
    have g : tm * l = tm * (l - 0.9118) + 0.9118 * tm := by ring
    have h1 := abs_le.1 h
    have h2 := abs_le.1 hd2
    rw [f, g, abs_le]
    generalize e * (sd - d) = x at *
    generalize tm * (l - 0.9118) = y at *
    generalize e * (d - 0.0563 * tm) = z at *
    generalize tm ^ 2 = w at *
    norm_num at t3 t4 t5 h1 h2 ⊢
    constructor <;> linarith
  have AC := mul_bound A hC
  have BS := mul_bound B hS
  have key : R - 1.000001018 * (1 + e ^ 2 / 2 - e * -(C * cd + S * sd) - e ^ 2 / 2 * D) =
      (R - (1.00013989 + 0.016707 * C + 0.00103019 * tm * (C * k + S * l))) +
      (0.016707 + 0.00103019 * (tm * k) - 1.000001018 * (e * cd)) * C +
      (0.00103019 * (tm * l) - 1.000001018 * (e * sd)) * S + (1.00013989 - 1.000001018 - 1.000001018 / 2 * e ^ 2) +
      1.000001018 / 2 * (e ^ 2 * D) := by ring
  rw [key, abs_le]
  have qD := abs_le.1 qD
  generalize R - (1.00013989 + 0.016707 * C + 0.00103019 * tm * (C * k + S * l)) = a1 at *
  generalize (0.016707 + 0.00103019 * (tm * k) - 1.000001018 * (e * cd)) * C = a2 at *
  generalize (0.00103019 * (tm * l) - 1.000001018 * (e * sd)) * S = a3 at *
  generalize e ^ 2 * D = a4 at *
  generalize e ^ 2 = a5 at *
  clear he e0 ee A B t1 t2 t3 t4 t5 key hC hS e2 hd2 sc ss dc ds hd pn h
  norm_num at m AC BS qD q0 q1 ⊢
  constructor <;> linarith

/-- **C102.** The distance stays between 0.98074 and 1.01954 astronomical units. -/
theorem C102_range {tm : ℝ} (h : |tm| ≤ 2.1) : 0.98074 ≤ radiusVector tm false ∧ radiusVector tm false ≤ 1.01954 := by
  simpa [radiusVector] using radius_bounds h

example : |(0.3 : ℝ)| ≤ 2.1 := by norm_num [abs_of_pos]

/-- **C102 is false for the option `degrees`.** The distance is multiplied by 180/π as if it were an angle, so that the result is
never a distance in astronomical units: it lies between 56.19 and 58.42. -/
theorem C102_degrees_negation {tm : ℝ} (h : |tm| ≤ 2.1) :
    56.19 ≤ radiusVector tm true ∧ radiusVector tm true ≤ 58.42 := by
  have b := radiusRaw_bounds h
  have p0 := Real.pi_gt_d6
  have p1 := Real.pi_lt_d6
  have k0 : 57.2957 ≤ 180 / π := by rw [le_div_iff₀ pi_pos]; linarith
  have k1 : 180 / π ≤ 57.2959 := by rw [div_le_iff₀ pi_pos]; linarith
  have d0 : 0.98075 * 57.2957 ≤ degrees (radiusRaw tm) := by
    unfold degrees
    exact mul_le_mul b.1 k0 (by norm_num) (by linarith [b.1])
  have d1 : degrees (radiusRaw tm) ≤ 1.01953 * 57.2959 := by
    unfold degrees
    exact mul_le_mul b.2 k1 (by positivity) (by norm_num)
  have e : coterminal (degrees (radiusRaw tm)) = degrees (radiusRaw tm) :=
    coterminal_eq (k := 0) (by simp) (by linarith) (by linarith)
  unfold radiusVector
  simp only [if_true]
  rw [e]
  have r := abs_le.1 (round12_err (degrees (radiusRaw tm)))
  generalize round12 (degrees (radiusRaw tm)) = x at *
  generalize degrees (radiusRaw tm) = y at *
  norm_num at d0 d1 r ⊢
  constructor <;> linarith

end Verif
