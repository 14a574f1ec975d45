import Verif.Model.Sun
import Verif.Lemmas.SolarBasic

/-!
# Bounds for the series of the sun
-/

namespace Verif.Sun

open Real Verif.Solar

theorem round12_err (x : ℝ) : |round12 x - x| ≤ 5e-13 := by
  unfold round12
  have h := abs_sub_round (x * 10 ^ 12)
  have e : (round (x * 10 ^ 12) : ℝ) / 10 ^ 12 - x = -((x * 10 ^ 12 - round (x * 10 ^ 12)) / 10 ^ 12) := by
    field_simp; ring
  rw [e, abs_neg, abs_div, abs_of_pos (show (0 : ℝ) < 10 ^ 12 by norm_num), div_le_iff₀ (by norm_num)]
  refine h.trans ?_
  norm_num

/-- The sum of the amplitudes. -/
def amp (T : List (ℚ × ℚ × ℚ)) : ℚ := (T.map fun r => |r.1|).sum

theorem list_bound (T : List (ℚ × ℚ × ℚ)) (f : ℚ × ℚ × ℚ → ℝ) (h : ∀ r, |f r| ≤ 1) :
    |(T.map fun r => (r.1 : ℝ) * f r).sum| ≤ (amp T : ℝ) := by
  induction T with
  | nil => simp [amp]
  | cons r l ih =>
    have e : amp (r :: l) = |r.1| + amp l := by simp [amp]
    rw [e]
    simp only [List.map_cons, List.sum_cons, Rat.cast_add]
    refine (abs_add_le _ _).trans ?_
    have h1 : |(r.1 : ℝ) * f r| ≤ ((|r.1| : ℚ) : ℝ) := by
      rw [abs_mul]
      push_cast
      have := abs_nonneg (r.1 : ℝ)
      have := h r
      nlinarith
    linarith

theorem series_abs (T : List (ℚ × ℚ × ℚ)) (tm : ℝ) : |series T tm| ≤ (amp T : ℝ) :=
  list_bound T (fun r => cos (r.2.1 + r.2.2 * tm)) fun _ => abs_cos_le_one _

theorem series_le {T : List (ℚ × ℚ × ℚ)} {q : ℚ} (h : amp T ≤ q) (tm : ℝ) : |series T tm| ≤ (q : ℝ) :=
  (series_abs T tm).trans (by exact_mod_cast h)

/-- The sum of the amplitudes times the sines of the angles in degrees. -/
noncomputable def sineSum (T : List (ℚ × ℚ × ℚ)) (tm : ℝ) : ℝ :=
  (T.map fun r => (r.1 : ℝ) * sinDeg (r.2.1 + r.2.2 * tm)).sum

theorem sineSum_le {T : List (ℚ × ℚ × ℚ)} {q : ℚ} (h : amp T ≤ q) (tm : ℝ) : |sineSum T tm| ≤ (q : ℝ) :=
  (list_bound T (fun r => sinDeg (r.2.1 + r.2.2 * tm)) fun _ => abs_sinDeg _).trans (by exact_mod_cast h)

theorem aberSum_eq (T : List (ℚ × ℚ × ℚ)) (tm : ℝ) : aberSum T tm = π / 180 * sineSum T tm := by
  unfold aberSum sineSum radians
  induction T with
  | nil => simp
  | cons r l ih =>
    simp only [List.map_cons, List.sum_cons, ih]
    ring

theorem amp_R1 : amp tableR1 ≤ 105576 := by decide +kernel
theorem amp_R2 : amp tableR2 ≤ 4513 := by decide +kernel
theorem amp_R3 : amp tableR3 ≤ 150 := by decide +kernel
theorem amp_R4 : amp tableR4 ≤ 4 := by decide +kernel
theorem amp_R0 : amp tableR0.tail ≤ 1695887 := by decide +kernel
theorem amp_B0 : amp tableB0 ≤ 538 := by decide +kernel
theorem amp_B1 : amp tableB1 ≤ 15 := by decide +kernel
theorem amp_A : amp aberA ≤ 123.08 := by decide +kernel
theorem amp_A' : amp aberA.tail ≤ 4.52 := by decide +kernel
theorem amp_B : amp aberB ≤ 7.63 := by decide +kernel
theorem amp_C : amp aberC ≤ 0.54 := by decide +kernel

theorem pow_bound {tm : ℝ} (h : |tm| ≤ 2.1) : |tm ^ 2| ≤ 4.41 ∧ |tm ^ 3| ≤ 9.261 ∧ |tm ^ 4| ≤ 19.4481 := by
  have h0 := abs_nonneg tm
  refine ⟨?_, ?_, ?_⟩
  · rw [abs_pow]
    calc |tm| ^ 2 ≤ 2.1 ^ 2 := pow_le_pow_left₀ h0 h 2
      _ = 4.41 := by norm_num
  · rw [abs_pow]
    calc |tm| ^ 3 ≤ 2.1 ^ 3 := pow_le_pow_left₀ h0 h 3
      _ = 9.261 := by norm_num
  · rw [abs_pow]
    calc |tm| ^ 4 ≤ 2.1 ^ 4 := pow_le_pow_left₀ h0 h 4
      _ = 19.4481 := by norm_num

theorem mul_bound {a b p q : ℝ} (ha : |a| ≤ p) (hb : |b| ≤ q) : -(p * q) ≤ a * b ∧ a * b ≤ p * q := by
  rw [← abs_le, abs_mul]
  exact mul_le_mul ha hb (abs_nonneg _) ((abs_nonneg _).trans ha)

/-- The distance of the sun. -/
theorem radiusRaw_bounds {tm : ℝ} (h : |tm| ≤ 2.1) : 0.98075 ≤ radiusRaw tm ∧ radiusRaw tm ≤ 1.01953 := by
  obtain ⟨p2, p3, p4⟩ := pow_bound h
  have e0 : series tableR0 tm = 100013989 + series tableR0.tail tm := by
    simp [series, tableR0]
  have b0 := abs_le.1 (series_le amp_R0 tm)
  have b1 := mul_bound h (series_le amp_R1 tm)
  have b2 := mul_bound p2 (series_le amp_R2 tm)
  have b3 := mul_bound p3 (series_le amp_R3 tm)
  have b4 := mul_bound p4 (series_le amp_R4 tm)
  have e : radiusRaw tm = (100013989 + series tableR0.tail tm + tm * series tableR1 tm + tm ^ 2 * series tableR2 tm +
      tm ^ 3 * series tableR3 tm + tm ^ 4 * series tableR4 tm) / 10 ^ 8 := by
    unfold radiusRaw
    rw [e0]
    simp only [Solar.poly]
    ring
  rw [e]
  push_cast at b0 b1 b2 b3 b4
  constructor
  · rw [le_div_iff₀ (by norm_num)]
    norm_num at b0 b1 b2 b3 b4 ⊢
    linarith
  · rw [div_le_iff₀ (by norm_num)]
    norm_num at b0 b1 b2 b3 b4 ⊢
    linarith

theorem radius_bounds {tm : ℝ} (h : |tm| ≤ 2.1) : 0.98074 ≤ radius tm ∧ radius tm ≤ 1.01954 := by
  have := radiusRaw_bounds h
  have := abs_le.1 (round12_err (radiusRaw tm))
  unfold radius
  norm_num at *
  constructor <;> linarith

/-- The periodic part of the daily motion. -/
noncomputable def motion (tm : ℝ) : ℝ := sineSum aberA tm + tm * sineSum aberB tm + tm ^ 2 * sineSum aberC tm

theorem motion_abs {tm : ℝ} (h : |tm| ≤ 2.1) : |motion tm| ≤ 141.5 := by
  obtain ⟨p2, -, -⟩ := pow_bound h
  have b0 := abs_le.1 (sineSum_le amp_A tm)
  have b1 := mul_bound h (sineSum_le amp_B tm)
  have b2 := mul_bound p2 (sineSum_le amp_C tm)
  unfold motion
  push_cast at b0 b1 b2
  rw [abs_le]
  norm_num at b0 b1 b2 ⊢
  constructor <;> linarith

theorem aberration_eq (tm : ℝ) : aberration tm true =
    round12 (-0.005775518 * radius tm * (3548.193 + π / 180 * motion tm) / 3600) := by
  unfold aberration motion
  rw [aberSum_eq, aberSum_eq, aberSum_eq]
  congr 2
  simp only [if_true]
  ring

theorem degree_motion {tm : ℝ} (h : |tm| ≤ 2.1) : |π / 180 * motion tm| ≤ 2.4697 := by
  rw [abs_mul, abs_of_pos (by positivity)]
  have h1 := motion_abs h
  have h2 := degree_bounds.2
  have := abs_nonneg (motion tm)
  have h3 : π / 180 * |motion tm| ≤ 0.0174534 * 141.5 := mul_le_mul h2.le h1 this (by norm_num)
  norm_num at h3 ⊢
  linarith

theorem nut_psi2 : (nutTable.map (fun r => |r.psi| + |r.psiT| * 21)).sum ≤ 198200 := by decide +kernel

theorem nutation_small {tc : ℝ} (h : |tc| ≤ 21) : |nutationLongitude tc| ≤ 0.0055056 := by
  unfold nutationLongitude
  have := sum_bound nutTable (fun r => (r.psi + r.psiT * tc) * sinDeg (r.angle tc)) (fun r => |r.psi| + |r.psiT| * 21)
    (fun r _ => term_bound h (abs_sinDeg _))
  have h2 : (((nutTable.map (fun r => |r.psi| + |r.psiT| * 21)).sum : ℚ) : ℝ) ≤ ((198200 : ℚ) : ℝ) := by
    exact_mod_cast nut_psi2
  have h3 := this.trans h2
  rw [abs_div, abs_of_pos (show (0 : ℝ) < 36000000 by norm_num), div_le_iff₀ (by norm_num)]
  push_cast at h3
  norm_num at h3 ⊢
  linarith

end Verif.Sun
