import Verif.Model.SunDegrees
import Verif.Lemmas.SunBasic
import Mathlib.Analysis.Real.Pi.Bounds

/-!
# The distance of the sun and the ellipse of Kepler
-/

namespace Verif.Sun

open Real Verif.Solar

theorem amp_R0' : amp tableR0.tail.tail ≤ 25187 := by decide +kernel
theorem amp_R1' : amp tableR1.tail ≤ 2557 := by decide +kernel

/-- The two large terms of the series, and a bound for the rest. -/
theorem radius_main {tm : ℝ} (h : |tm| ≤ 2.1) :
    |radius tm - (1.00013989 + 0.016707 * cos (3.0984635 + 6283.07585 * tm) +
      0.00103019 * tm * cos (1.10749 + 6283.07585 * tm))| ≤ 0.0005193 := by
  obtain ⟨p2, p3, p4⟩ := pow_bound h
  have e0 : series tableR0 tm = 100013989 + 1670700 * cos (3.0984635 + 6283.07585 * tm) + series tableR0.tail.tail tm := by
    simp only [series, tableR0, List.tail_cons, List.map_cons, List.sum_cons]
    push_cast
    norm_num
    ring
  have e1 : series tableR1 tm = 103019 * cos (1.10749 + 6283.07585 * tm) + series tableR1.tail tm := by
    simp only [series, tableR1, List.tail_cons, List.map_cons, List.sum_cons]
    push_cast
    norm_num
  have b0 := abs_le.1 (series_le amp_R0' tm)
  have b1 := mul_bound h (series_le amp_R1' tm)
  have b2 := mul_bound p2 (series_le amp_R2 tm)
  have b3 := mul_bound p3 (series_le amp_R3 tm)
  have b4 := mul_bound p4 (series_le amp_R4 tm)
  have e : radiusRaw tm = (100013989 + 1670700 * cos (3.0984635 + 6283.07585 * tm) + series tableR0.tail.tail tm +
      tm * (103019 * cos (1.10749 + 6283.07585 * tm)) + tm * series tableR1.tail tm + tm ^ 2 * series tableR2 tm +
      tm ^ 3 * series tableR3 tm + tm ^ 4 * series tableR4 tm) / 10 ^ 8 := by
    unfold radiusRaw
    rw [e0, e1]
    simp only [Solar.poly]
    ring
  have r := abs_le.1 (round12_err (radiusRaw tm))
  unfold radius
  push_cast at b0 b1 b2 b3 b4
  generalize round12 (radiusRaw tm) = R at *
  rw [e] at r
  clear e e0 e1
  generalize series tableR0.tail.tail tm = s0 at *
  generalize tm * series tableR1.tail tm = s1 at *
  generalize tm ^ 2 * series tableR2 tm = s2 at *
  generalize tm ^ 3 * series tableR3 tm = s3 at *
  generalize tm ^ 4 * series tableR4 tm = s4 at *
  generalize cos (3.0984635 + 6283.07585 * tm) = c0 at *
  have ec : tm * (103019 * cos (1.10749 + 6283.07585 * tm)) = 10 ^ 8 * (0.00103019 * tm * cos (1.10749 + 6283.07585 * tm)) := by
    ring
  rw [ec] at r
  generalize 0.00103019 * tm * cos (1.10749 + 6283.07585 * tm) = c1 at *
  clear ec p2 p3 p4 h
  rw [abs_le]
  norm_num at b0 b1 b2 b3 b4 r ⊢
  constructor <;> linarith

/-- How far the perihelion moves. -/
noncomputable def perihelion (tm : ℝ) : ℝ :=
  3.0984635 + 6283.07585 * tm - radians (357.52911 + 359990.5029 * tm) + π

theorem perihelion_near {tm : ℝ} (h : |tm| ≤ 2.1) : |perihelion tm - 0.0563 * tm| ≤ 0.0002 := by
  have h0 := Real.pi_gt_d20
  have h1 := Real.pi_lt_d20
  have e : perihelion tm - 0.0563 * tm = 3.0984635 - π * (177.52911 / 180) + tm * (6283.01955 - π * (359990.5029 / 180)) := by
    unfold perihelion radians
    ring
  have q : |6283.01955 - π * (359990.5029 / 180)| ≤ 0.00002 := by
    rw [abs_le]
    constructor <;> linarith
  have m := mul_bound h q
  rw [e, abs_le]
  generalize tm * (6283.01955 - π * (359990.5029 / 180)) = x at *
  norm_num at m h0 h1 ⊢
  constructor <;> linarith

theorem shift_cos : |cos (1.9909735) + 0.408| ≤ 0.0025 ∧ |sin (1.9909735) - 0.9118| ≤ 0.0035 := by
  have h0 := Real.pi_gt_d20
  have h1 := Real.pi_lt_d20
  have e1 : cos (1.9909735) = -sin (1.9909735 - π / 2) := by rw [sin_sub_pi_div_two]; ring
  have e2 : sin (1.9909735) = cos (1.9909735 - π / 2) := by rw [cos_sub_pi_div_two]
  have u0 : 0.42017 ≤ 1.9909735 - π / 2 := by linarith
  have u1 : 1.9909735 - π / 2 ≤ 0.42018 := by linarith
  rw [e1, e2]
  generalize 1.9909735 - π / 2 = u at *
  have hu : |u| ≤ 1 := by rw [abs_le]; constructor <;> linarith
  have s := abs_le.1 (sin_bound hu)
  have c := abs_le.1 (cos_bound hu)
  have a : |u| ≤ 0.42018 := by rw [abs_le]; constructor <;> linarith
  have a4 : |u| ^ 4 ≤ 0.42018 ^ 4 := pow_le_pow_left₀ (abs_nonneg _) a 4
  have a5 : |u| ^ 5 ≤ 0.42018 ^ 5 := pow_le_pow_left₀ (abs_nonneg _) a 5
  have q0 : 0.42017 ^ 2 ≤ u ^ 2 := pow_le_pow_left₀ (by norm_num) u0 2
  have q1 : u ^ 2 ≤ 0.42018 ^ 2 := pow_le_pow_left₀ (by linarith) u1 2
  have q2 : 0.42017 ^ 3 ≤ u ^ 3 := pow_le_pow_left₀ (by norm_num) u0 3
  have q3 : u ^ 3 ≤ 0.42018 ^ 3 := pow_le_pow_left₀ (by linarith) u1 3
  rw [abs_le, abs_le]
  norm_num at *
  refine ⟨⟨?_, ?_⟩, ?_, ?_⟩ <;> linarith

theorem small_angle {d : ℝ} (h : |d| ≤ 0.119) : |cos d - 1| ≤ 0.0071 ∧ |sin d - d| ≤ 0.0003 := by
  have hd : |d| ≤ 1 := h.trans (by norm_num)
  have s := abs_le.1 (sin_bound hd)
  have c := one_sub_sq_div_two_le_cos (x := d)
  have c1 := cos_le_one d
  have a5 : |d| ^ 5 ≤ 0.119 ^ 5 := pow_le_pow_left₀ (abs_nonneg _) h 5
  have a2 : d ^ 2 ≤ 0.119 ^ 2 := by rw [← sq_abs]; exact pow_le_pow_left₀ (abs_nonneg _) h 2
  have a3 : |d ^ 3| ≤ 0.119 ^ 3 := by rw [abs_pow]; exact pow_le_pow_left₀ (abs_nonneg _) h 3
  have b3 := abs_le.1 a3
  rw [abs_le, abs_le]
  norm_num at *
  refine ⟨⟨?_, ?_⟩, ?_, ?_⟩ <;> linarith

end Verif.Sun
