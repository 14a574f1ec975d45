import Verif.Lemmas.EquinoxSunset
import Verif.Model.Equinox

/-!
# Equinox and sunset in rational numbers

Rational numbers near the moment of the equinox and near the longitude of the sun, which the kernel can compute.
-/

namespace Verif.Solar

open Real

/-- The cosine of an angle in degrees, to within 0.0000012. -/
def cosAt (x : ℚ) : ℚ := (cosq ⌊x * 1000000⌋ : ℚ) / 1000000000

theorem cosAt_near {x : ℝ} {y : ℚ} (h : |x - y| ≤ 0.00001) : |cosDeg x - (cosAt y : ℝ)| ≤ 0.0000012 := by
  have := cosq_floor h
  unfold cosAt
  push_cast
  exact this

theorem cosAt_self (y : ℚ) : |cosDeg (y : ℝ) - (cosAt y : ℝ)| ≤ 0.0000012 := cosAt_near (by simp; norm_num)

/-- A number near the moment of the season. -/
def seasonNear (year lam : ℤ) : ℚ :=
  let j := approxSeason year lam
  let tc := (j - 2451545) / 36525
  let w := 35999.373 * tc - 2.47
  let dl := 1 + 0.0334 * cosAt (w + 0.0007) * cosAt (2 * w)
  let s := (seasonTerms.map (fun r => r.1 * cosAt (r.2.1 + r.2.2 * tc))).sum
  j + 0.00001 * s / dl

theorem terms_near (l : List (ℚ × ℚ × ℚ)) (tc : ℚ) :
    |(l.map (fun r => (r.1 : ℝ) * cosDeg (r.2.1 + r.2.2 * (tc : ℝ)))).sum -
      (((l.map (fun r => r.1 * cosAt (r.2.1 + r.2.2 * tc))).sum : ℚ) : ℝ)| ≤
    0.0000012 * (((l.map (fun r => |r.1|)).sum : ℚ) : ℝ) := by
  induction l with
  | nil => simp
  | cons r l ih =>
    simp only [List.map_cons, List.sum_cons]
    have a := cosAt_self (r.2.1 + r.2.2 * tc)
    push_cast at a ih ⊢
    have e : |(r.1 : ℝ) * cosDeg (r.2.1 + r.2.2 * tc) - (r.1 : ℝ) * (cosAt (r.2.1 + r.2.2 * tc) : ℝ)| ≤
        0.0000012 * |(r.1 : ℝ)| := by
      rw [← mul_sub, abs_mul, mul_comm]
      exact mul_le_mul_of_nonneg_right a (abs_nonneg _)
    set S1 := (l.map (fun r => (r.1 : ℝ) * cosDeg (r.2.1 + r.2.2 * (tc : ℝ)))).sum
    rw [abs_le] at e ih ⊢
    constructor <;> linarith [e.1, e.2, ih.1, ih.2]

theorem seasonS_near (tc : ℚ) :
    |seasonS tc - (((seasonTerms.map (fun r => r.1 * cosAt (r.2.1 + r.2.2 * tc))).sum : ℚ) : ℝ)| ≤ 0.0024 := by
  have a := terms_near seasonTerms tc
  have b : (seasonTerms.map (fun r => |r.1|)).sum ≤ 2000 := by decide +kernel
  have c : (((seasonTerms.map (fun r => |r.1|)).sum : ℚ) : ℝ) ≤ 2000 := by exact_mod_cast b
  unfold seasonS
  linarith

theorem seasonS_abs (tc : ℝ) : |seasonS tc| ≤ 2000 := by
  have key : ∀ l : List (ℚ × ℚ × ℚ), |(l.map (fun r => (r.1 : ℝ) * cosDeg (r.2.1 + r.2.2 * tc))).sum| ≤
      (((l.map (fun r => |r.1|)).sum : ℚ) : ℝ) := by
    intro l
    induction l with
    | nil => simp
    | cons r l ih =>
      simp only [List.map_cons, List.sum_cons]
      push_cast at ih ⊢
      refine (abs_add_le _ _).trans (add_le_add ?_ ih)
      rw [abs_mul]
      exact mul_le_of_le_one_right (abs_nonneg _) (abs_cosDeg _)
  have b : (seasonTerms.map (fun r => |r.1|)).sum ≤ 2000 := by decide +kernel
  have c : (((seasonTerms.map (fun r => |r.1|)).sum : ℚ) : ℝ) ≤ 2000 := by exact_mod_cast b
  exact (key _).trans c

theorem seasonDl_bounds (tc : ℝ) : 0.9666 ≤ seasonDl tc ∧ seasonDl tc ≤ 1.0334 := by
  unfold seasonDl
  have a := abs_cosDeg (seasonW tc + 0.0007)
  have b := abs_cosDeg (2 * seasonW tc)
  have c : |cosDeg (seasonW tc + 0.0007) * cosDeg (2 * seasonW tc)| ≤ 1 := by
    rw [abs_mul]
    exact mul_le_one₀ a (abs_nonneg _) b
  rw [abs_le] at c
  constructor <;> linarith [c.1, c.2]

theorem seasonNear_spec (year lam : ℤ) : |seasonJde year lam - (seasonNear year lam : ℝ)| ≤ 0.0000001 := by
  unfold seasonJde seasonNear
  simp only
  set j := approxSeason year lam with hj
  set tc : ℚ := (j - 2451545) / 36525 with htc
  have etc : julianCenturies ((j : ℚ) : ℝ) = (tc : ℝ) := by
    unfold julianCenturies
    rw [htc]
    push_cast
    ring
  rw [etc]
  have a := seasonS_near tc
  have b := seasonS_abs tc
  obtain ⟨d0, d1⟩ := seasonDl_bounds tc
  have w1 := cosAt_self (35999.373 * tc - 2.47 + 0.0007)
  have w2 := cosAt_self (2 * (35999.373 * tc - 2.47))
  have e : |seasonDl tc - ((1 + 0.0334 * cosAt (35999.373 * tc - 2.47 + 0.0007) * cosAt (2 * (35999.373 * tc - 2.47)) : ℚ) : ℝ)| ≤
      0.0000001 := by
    unfold seasonDl seasonW
    push_cast at w1 w2 ⊢
    have c1 := abs_cosDeg (35999.373 * (tc : ℝ) - 2.47 + 0.0007)
    have c2 := abs_cosDeg (2 * (35999.373 * (tc : ℝ) - 2.47))
    set p := cosDeg (35999.373 * (tc : ℝ) - 2.47 + 0.0007)
    set q := cosDeg (2 * (35999.373 * (tc : ℝ) - 2.47))
    set p' := (cosAt (35999.373 * tc - 2.47 + 0.0007) : ℝ)
    set q' := (cosAt (2 * (35999.373 * tc - 2.47)) : ℝ)
    have f : 1 + 0.0334 * p * q - (1 + 0.0334 * p' * q') = 0.0334 * ((p - p') * q + p * (q - q') - (p - p') * (q - q')) := by
      ring
    rw [f, abs_mul, abs_of_pos (show (0 : ℝ) < 0.0334 by norm_num)]
    have g1 : |(p - p') * q| ≤ 0.0000012 * 1 := by rw [abs_mul]; exact mul_le_mul w1 c2 (abs_nonneg _) (by norm_num)
    have g2 : |p * (q - q')| ≤ 1 * 0.0000012 := by rw [abs_mul]; exact mul_le_mul c1 w2 (abs_nonneg _) (by norm_num)
    have g3 : |(p - p') * (q - q')| ≤ 0.0000012 * 0.0000012 := by
      rw [abs_mul]; exact mul_le_mul w1 w2 (abs_nonneg _) (by norm_num)
    have g : |(p - p') * q + p * (q - q') - (p - p') * (q - q')| ≤ 0.0000025 := by
      rw [abs_le] at g1 g2 g3 ⊢
      constructor <;> norm_num at * <;> linarith [g1.1, g1.2, g2.1, g2.2, g3.1, g3.2]
    linarith
  set S := seasonS tc
  set s := (seasonTerms.map (fun r => r.1 * cosAt (r.2.1 + r.2.2 * tc))).sum
  set L := seasonDl tc
  set l := 1 + 0.0334 * cosAt (35999.373 * tc - 2.47 + 0.0007) * cosAt (2 * (35999.373 * tc - 2.47))
  push_cast
  have l0 : (0.96 : ℝ) ≤ l := by rw [abs_le] at e; linarith [e.1, e.2]
  have f : (j : ℝ) + 0.00001 * S / L - (j + 0.00001 * s / l) = 0.00001 * ((S - s) / L + s * (l - L) / (L * l)) := by
    have : L ≠ 0 := by linarith
    have : (l : ℝ) ≠ 0 := by linarith
    field_simp
    ring
  rw [f, abs_mul, abs_of_pos (show (0 : ℝ) < 0.00001 by norm_num)]
  have h1 : |(S - s) / L| ≤ 0.0024 / 0.9666 := by
    rw [abs_div, abs_of_pos (by linarith : 0 < L)]
    exact div_le_div₀ (by norm_num) a (by norm_num) d0
  have sb : |(s : ℝ)| ≤ 2001 := by
    rw [abs_le] at a b ⊢
    constructor <;> linarith [a.1, a.2, b.1, b.2]
  have h2 : |s * (l - L) / (L * l)| ≤ 2001 * 0.0000001 / (0.9666 * 0.96) := by
    rw [abs_div, abs_mul, abs_of_pos (by positivity : 0 < L * (l : ℝ))]
    refine div_le_div₀ (by norm_num) (mul_le_mul sb (by rw [abs_sub_comm]; exact e) (abs_nonneg _) (by norm_num)) (by norm_num)
      (mul_le_mul d0 l0 (by norm_num) (by linarith))
  have := abs_add_le ((S - s) / L) (s * (l - L) / (L * l))
  norm_num at *
  linarith

end Verif.Solar
