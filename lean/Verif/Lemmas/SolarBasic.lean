import Mathlib.Analysis.SpecialFunctions.Trigonometric.Bounds
import Mathlib.Analysis.SpecialFunctions.Trigonometric.Deriv
import Mathlib.Analysis.Calculus.MeanValue
import Mathlib.Analysis.Real.Pi.Bounds
import Mathlib.Tactic.NormNum
import Mathlib.Tactic.Linarith
import Mathlib.Tactic.FieldSimp
import Mathlib.Tactic.Ring
import Mathlib.Tactic.GCongr
import Verif.Model.Solar

/-!
# Lemmas: angles in degrees, sums of sines, the right ascension
-/

namespace Verif.Solar

open Real

theorem radians_add (a b : ℝ) : radians (a + b) = radians a + radians b := by unfold radians; ring
theorem radians_sub (a b : ℝ) : radians (a - b) = radians a - radians b := by unfold radians; ring
theorem radians_neg (a : ℝ) : radians (-a) = -radians a := by unfold radians; ring
theorem radians_degrees (a : ℝ) : radians (degrees a) = a := by
  unfold radians degrees
  field_simp
theorem degrees_radians (a : ℝ) : degrees (radians a) = a := by
  unfold radians degrees
  field_simp
theorem degrees_add (a b : ℝ) : degrees (a + b) = degrees a + degrees b := by unfold degrees; ring
theorem degrees_sub (a b : ℝ) : degrees (a - b) = degrees a - degrees b := by unfold degrees; ring
theorem degrees_neg (a : ℝ) : degrees (-a) = -degrees a := by unfold degrees; ring

theorem degree_bounds : 0.0174532 < π / 180 ∧ π / 180 < 0.0174534 := by
  have h1 := pi_gt_d6
  have h2 := pi_lt_d6
  constructor <;> linarith

theorem radians_le {a b : ℝ} (h : a ≤ b) : radians a ≤ radians b := by
  unfold radians
  have := degree_bounds.1
  nlinarith

theorem radians_abs (a : ℝ) : |radians a| = radians |a| := by
  unfold radians
  rw [abs_mul, abs_of_pos (show (0 : ℝ) < π / 180 by linarith [degree_bounds.1])]

theorem degrees_abs (a : ℝ) : |degrees a| = degrees |a| := by
  unfold degrees
  have := pi_pos
  rw [abs_mul, abs_of_pos (show (0 : ℝ) < 180 / π by positivity)]

theorem degrees_le_iff {a b : ℝ} : degrees a ≤ b ↔ a ≤ radians b := by
  unfold degrees radians
  have := pi_pos
  rw [mul_div_assoc', mul_div_assoc', div_le_iff₀ this, le_div_iff₀ (by norm_num)]

theorem le_degrees_iff {a b : ℝ} : b ≤ degrees a ↔ radians b ≤ a := by
  unfold degrees radians
  have := pi_pos
  rw [mul_div_assoc', mul_div_assoc', le_div_iff₀ this, div_le_iff₀ (by norm_num)]

theorem radians_turn (x : ℝ) (k : ℤ) : radians (x - 360 * k) = radians x - k * (2 * π) := by
  unfold radians; ring

theorem sinDeg_turn (x : ℝ) (k : ℤ) : sinDeg (x - 360 * k) = sinDeg x := by
  unfold sinDeg
  rw [radians_turn, sin_sub_int_mul_two_pi]

theorem cosDeg_turn (x : ℝ) (k : ℤ) : cosDeg (x - 360 * k) = cosDeg x := by
  unfold cosDeg
  rw [radians_turn, cos_sub_int_mul_two_pi]

theorem abs_sinDeg (x : ℝ) : |sinDeg x| ≤ 1 := abs_sin_le_one _
theorem abs_cosDeg (x : ℝ) : |cosDeg x| ≤ 1 := abs_cos_le_one _

/-- The coterminal angle differs by whole turns and lies in the first turn. -/
theorem coterminal_spec (x : ℝ) : ∃ k : ℤ, coterminal x = x - 360 * k ∧ 0 ≤ coterminal x ∧ coterminal x < 360 := by
  unfold coterminal fmod360
  by_cases h : 0 ≤ x / 360
  · rw [if_pos h]
    have h1 := Int.floor_le (x / 360)
    have h2 := Int.lt_floor_add_one (x / 360)
    have e : x = 360 * (x / 360) := by ring
    rw [if_neg (by rw [not_lt]; linarith)]
    exact ⟨_, rfl, by linarith, by linarith⟩
  · rw [if_neg h]
    have h1 := Int.le_ceil (x / 360)
    have h2 := Int.ceil_lt_add_one (x / 360)
    have e : x = 360 * (x / 360) := by ring
    by_cases h3 : x - 360 * (⌈x / 360⌉ : ℝ) < 0
    · rw [if_pos h3]
      exact ⟨⌈x / 360⌉ - 1, by push_cast; ring, by linarith, by linarith⟩
    · rw [if_neg h3]
      exact ⟨_, rfl, by linarith, by linarith⟩

/-- The coterminal angle is the one in the first turn. -/
theorem coterminal_eq {x y : ℝ} {k : ℤ} (h : x = y + 360 * k) (h0 : 0 ≤ y) (h1 : y < 360) : coterminal x = y := by
  obtain ⟨j, e, e0, e1⟩ := coterminal_spec x
  have hk : ((k - j : ℤ) : ℝ) * 360 = coterminal x - y := by push_cast; linarith
  have hz : k - j = 0 := by
    have a1 : ((k - j : ℤ) : ℝ) < 1 := by linarith
    have a2 : (-1 : ℝ) < ((k - j : ℤ) : ℝ) := by linarith
    have b1 : k - j < 1 := by exact_mod_cast a1
    have b2 : -1 < k - j := by exact_mod_cast a2
    omega
  rw [hz] at hk
  push_cast at hk
  linarith

theorem mod1_eq {x y : ℝ} {k : ℤ} (h : x = y + k) (h0 : 0 ≤ y) (h1 : y < 1) : mod1 x = y := by
  unfold mod1
  have : ⌊x⌋ = k := by
    rw [Int.floor_eq_iff]
    constructor <;> linarith
  rw [this, h]
  ring

/-! ## Mean values -/

theorem sin_mean (a b : ℝ) : ∃ t, min a b ≤ t ∧ t ≤ max a b ∧ sin a - sin b = cos t * (a - b) := by
  rcases lt_trichotomy a b with h | h | h
  · obtain ⟨t, ht, e⟩ := exists_deriv_eq_slope sin h continuous_sin.continuousOn differentiable_sin.differentiableOn
    refine ⟨t, by rw [min_eq_left h.le]; exact ht.1.le, by rw [max_eq_right h.le]; exact ht.2.le, ?_⟩
    rw [Real.deriv_sin, eq_div_iff (by linarith)] at e
    linarith
  · subst h
    exact ⟨a, by simp, by simp, by ring⟩
  · obtain ⟨t, ht, e⟩ := exists_deriv_eq_slope sin h continuous_sin.continuousOn differentiable_sin.differentiableOn
    refine ⟨t, by rw [min_eq_right h.le]; exact ht.1.le, by rw [max_eq_left h.le]; exact ht.2.le, ?_⟩
    rw [Real.deriv_sin, eq_div_iff (by linarith)] at e
    linarith

theorem cos_mean (a b : ℝ) : ∃ t, min a b ≤ t ∧ t ≤ max a b ∧ cos a - cos b = -sin t * (a - b) := by
  rcases lt_trichotomy a b with h | h | h
  · obtain ⟨t, ht, e⟩ := exists_deriv_eq_slope cos h continuous_cos.continuousOn differentiable_cos.differentiableOn
    refine ⟨t, by rw [min_eq_left h.le]; exact ht.1.le, by rw [max_eq_right h.le]; exact ht.2.le, ?_⟩
    rw [Real.deriv_cos, eq_div_iff (by linarith)] at e
    linarith
  · subst h
    exact ⟨a, by simp, by simp, by ring⟩
  · obtain ⟨t, ht, e⟩ := exists_deriv_eq_slope cos h continuous_cos.continuousOn differentiable_cos.differentiableOn
    refine ⟨t, by rw [min_eq_right h.le]; exact ht.1.le, by rw [max_eq_left h.le]; exact ht.2.le, ?_⟩
    rw [Real.deriv_cos, eq_div_iff (by linarith)] at e
    linarith

theorem sinDeg_lip (a b : ℝ) : |sinDeg a - sinDeg b| ≤ 0.0174534 * |a - b| := by
  unfold sinDeg
  refine (abs_sin_sub_sin_le _ _).trans ?_
  rw [← radians_sub, radians_abs]
  unfold radians
  have := abs_nonneg (a - b)
  nlinarith [degree_bounds.2]

theorem cosDeg_lip (a b : ℝ) : |cosDeg a - cosDeg b| ≤ 0.0174534 * |a - b| := by
  unfold cosDeg
  refine (abs_cos_sub_cos_le _ _).trans ?_
  rw [← radians_sub, radians_abs]
  unfold radians
  have := abs_nonneg (a - b)
  nlinarith [degree_bounds.2]

/-! ## Nutation -/

theorem sum_bound (l : List NutRow) (f : NutRow → ℝ) (g : NutRow → ℚ) (h : ∀ r ∈ l, |f r| ≤ (g r : ℝ)) :
    |(l.map f).sum| ≤ (((l.map g).sum : ℚ) : ℝ) := by
  induction l with
  | nil => simp
  | cons r l ih =>
    simp only [List.map_cons, List.sum_cons, Rat.cast_add]
    refine (abs_add_le _ _).trans ?_
    have h1 := h r (by simp)
    have h2 := ih (fun r hr => h r (by simp [hr]))
    linarith

theorem nut_psi : (nutTable.map (fun r => |r.psi| + |r.psiT| * 21)).sum ≤ 201600 := by decide +kernel
theorem nut_eps : (nutTable.map (fun r => |r.eps| + |r.epsT| * 21)).sum ≤ 102600 := by decide +kernel

theorem term_bound {a b : ℚ} {tc s : ℝ} (ht : |tc| ≤ 21) (hs : |s| ≤ 1) :
    |((a : ℝ) + b * tc) * s| ≤ (((|a| + |b| * 21 : ℚ)) : ℝ) := by
  rw [abs_mul]
  have h1 : |(a : ℝ) + b * tc| ≤ |(a : ℝ)| + |(b : ℝ)| * 21 := by
    refine (abs_add_le _ _).trans ?_
    rw [abs_mul]
    have := abs_nonneg (b : ℝ)
    nlinarith
  push_cast
  calc |(a : ℝ) + b * tc| * |s| ≤ |(a : ℝ) + b * tc| * 1 := by
        apply mul_le_mul_of_nonneg_left hs (abs_nonneg _)
    _ ≤ _ := by rw [mul_one]; exact h1

theorem nutationLongitude_abs {tc : ℝ} (h : |tc| ≤ 21) : |nutationLongitude tc| ≤ 0.0056 := by
  unfold nutationLongitude
  have := sum_bound nutTable (fun r => (r.psi + r.psiT * tc) * sinDeg (r.angle tc)) (fun r => |r.psi| + |r.psiT| * 21)
    (fun r _ => term_bound h (abs_sinDeg _))
  have h2 : (((nutTable.map (fun r => |r.psi| + |r.psiT| * 21)).sum : ℚ) : ℝ) ≤ ((201600 : ℚ) : ℝ) := by
    exact_mod_cast nut_psi
  have h3 := this.trans h2
  rw [show ((201600 : ℚ) : ℝ) = 201600 by norm_num] at h3
  rw [abs_div, abs_of_pos (show (0 : ℝ) < 36000000 by norm_num), div_le_iff₀ (by norm_num)]
  norm_num
  exact h3

theorem nutationObliquity_abs {tc : ℝ} (h : |tc| ≤ 21) : |nutationObliquity tc| ≤ 0.00285 := by
  unfold nutationObliquity
  have := sum_bound nutTable (fun r => (r.eps + r.epsT * tc) * cosDeg (r.angle tc)) (fun r => |r.eps| + |r.epsT| * 21)
    (fun r _ => term_bound h (abs_cosDeg _))
  have h2 : (((nutTable.map (fun r => |r.eps| + |r.epsT| * 21)).sum : ℚ) : ℝ) ≤ ((102600 : ℚ) : ℝ) := by
    exact_mod_cast nut_eps
  have h3 := this.trans h2
  rw [show ((102600 : ℚ) : ℝ) = 102600 by norm_num] at h3
  rw [abs_div, abs_of_pos (show (0 : ℝ) < 36000000 by norm_num), div_le_iff₀ (by norm_num)]
  norm_num
  exact h3

end Verif.Solar
