import Verif.Lemmas.SolarBasic
import Mathlib.Analysis.Real.Pi.Bounds

/-!
# Cosines in whole numbers

`cosq z` is the cosine of `z` millionths of a degree, in units of 10^-9, to within a millionth. It is computed with whole
numbers only, so the kernel can evaluate it.
-/

namespace Verif.Solar

open Real

/-- The Taylor polynomial of degree 10 for an angle of the first quadrant, times a constant. -/
def cosNum (s : ℤ) : ℤ :=
  let w := (s * 174532925) * (s * 174532925)
  let t5 := 90 * 10 ^ 32 - w
  let t4 := 5040 * 10 ^ 64 - w * t5
  let t3 := 151200 * 10 ^ 96 - w * t4
  let t2 := 1814400 * 10 ^ 128 - w * t3
  3628800 * 10 ^ 160 - w * t2

/-- The same in units of 10^-9. -/
def cosCore (s : ℤ) : ℤ := cosNum s / (3628800 * 10 ^ 151)

/-- The cosine of `z` millionths of a degree, in units of 10^-9. -/
def cosq (z : ℤ) : ℤ :=
  let r := z % 360000000
  let s := if 180000000 < r then 360000000 - r else r
  if 90000000 < s then -cosCore (180000000 - s) else cosCore s

theorem cos_taylor {x : ℝ} (h0 : 0 ≤ x) (h1 : x ≤ 1.571) :
    |cos x - (1 - x ^ 2 / 2 + x ^ 4 / 24 - x ^ 6 / 720 + x ^ 8 / 40320 - x ^ 10 / 3628800)| ≤ 0.00000095 := by
  have hn : ‖(x : ℂ) * Complex.I‖ = x := by
    rw [norm_mul, Complex.norm_I, mul_one, Complex.norm_real, Real.norm_eq_abs, abs_of_nonneg h0]
  have b := Complex.exp_bound' (x := (x : ℂ) * Complex.I) (n := 12) (by rw [hn]; norm_num; linarith)
  rw [hn] at b
  have re : (Complex.exp ((x : ℂ) * Complex.I) - ∑ m ∈ Finset.range 12, ((x : ℂ) * Complex.I) ^ m / (m.factorial : ℂ)).re =
      cos x - (1 - x ^ 2 / 2 + x ^ 4 / 24 - x ^ 6 / 720 + x ^ 8 / 40320 - x ^ 10 / 3628800) := by
    have sum : ∑ m ∈ Finset.range 12, ((x : ℂ) * Complex.I) ^ m / (m.factorial : ℂ) =
        ((1 - x ^ 2 / 2 + x ^ 4 / 24 - x ^ 6 / 720 + x ^ 8 / 40320 - x ^ 10 / 3628800 : ℝ) : ℂ) +
        ((x - x ^ 3 / 6 + x ^ 5 / 120 - x ^ 7 / 5040 + x ^ 9 / 362880 - x ^ 11 / 39916800 : ℝ) : ℂ) * Complex.I := by
      have i2 : Complex.I ^ 2 = -1 := Complex.I_sq
      have i3 : Complex.I ^ 3 = -Complex.I := by rw [pow_succ, i2]; ring
      have i4 : Complex.I ^ 4 = 1 := by rw [pow_succ, i3, neg_mul, Complex.I_mul_I]; ring
      have i5 : Complex.I ^ 5 = Complex.I := by rw [pow_succ, i4]; ring
      have i6 : Complex.I ^ 6 = -1 := by rw [pow_succ, i5, Complex.I_mul_I]
      have i7 : Complex.I ^ 7 = -Complex.I := by rw [pow_succ, i6]; ring
      have i8 : Complex.I ^ 8 = 1 := by rw [pow_succ, i7, neg_mul, Complex.I_mul_I]; ring
      have i9 : Complex.I ^ 9 = Complex.I := by rw [pow_succ, i8]; ring
      have i10 : Complex.I ^ 10 = -1 := by rw [pow_succ, i9, Complex.I_mul_I]
      have i11 : Complex.I ^ 11 = -Complex.I := by rw [pow_succ, i10]; ring
      simp only [Finset.sum_range_succ, Finset.sum_range_zero, mul_pow, i2, i3, i4, i5, i6, i7, i8, i9, i10, i11, pow_zero,
        pow_one, Nat.factorial]
      push_cast
      ring
    rw [sum, Complex.exp_mul_I, ← Complex.ofReal_cos, ← Complex.ofReal_sin]
    simp only [Complex.sub_re, Complex.add_re, Complex.mul_re, Complex.ofReal_re, Complex.ofReal_im, Complex.I_re,
      Complex.I_im]
    ring
  have := Complex.abs_re_le_norm (Complex.exp ((x : ℂ) * Complex.I) - ∑ m ∈ Finset.range 12, ((x : ℂ) * Complex.I) ^ m / (m.factorial : ℂ))
  rw [re] at this
  refine this.trans (b.trans ?_)
  have p : x ^ 12 ≤ 1.571 ^ 12 := pow_le_pow_left₀ h0 h1 12
  have f : ((Nat.factorial 12 : ℕ) : ℝ) = 479001600 := by norm_num [Nat.factorial]
  rw [f]
  norm_num at p ⊢
  linarith

theorem div_floor {n d : ℤ} (hd : 0 < d) : |(n : ℝ) / (d : ℝ) - ((n / d : ℤ) : ℝ)| ≤ 1 := by
  have hd' : (0 : ℝ) < d := by exact_mod_cast hd
  have e : ((n : ℤ) : ℝ) = d * ((n / d : ℤ) : ℝ) + ((n % d : ℤ) : ℝ) := by exact_mod_cast (Int.mul_ediv_add_emod n d).symm
  have r0 : (0 : ℝ) ≤ ((n % d : ℤ) : ℝ) := by exact_mod_cast Int.emod_nonneg n hd.ne'
  have r1 : ((n % d : ℤ) : ℝ) ≤ d := by exact_mod_cast (Int.emod_lt_of_pos n hd).le
  have f : (n : ℝ) / (d : ℝ) - ((n / d : ℤ) : ℝ) = ((n % d : ℤ) : ℝ) / d := by
    rw [e]; field_simp; ring
  rw [f, abs_of_nonneg (div_nonneg r0 hd'.le), div_le_one hd']
  exact r1

theorem cosCore_spec {s : ℤ} (h0 : 0 ≤ s) (h1 : s ≤ 90000000) :
    |cosDeg (s / 1000000) - (cosCore s : ℝ) / 1000000000| ≤ 0.000001 := by
  have a0 : (0 : ℝ) ≤ s := by exact_mod_cast h0
  have a1 : (s : ℝ) ≤ 90000000 := by exact_mod_cast h1
  set x : ℝ := s * 174532925 / 10 ^ 16 with hx
  have x0 : 0 ≤ x := by rw [hx]; positivity
  have x1 : x ≤ 1.571 := by rw [hx]; norm_num; linarith
  have ty := cos_taylor x0 x1
  have p0 := pi_gt_d20
  have p1 := pi_lt_d20
  have near : |radians ((s : ℝ) / 1000000) - x| ≤ 0.000000003 := by
    unfold radians
    have e : (s : ℝ) / 1000000 * (π / 180) - x = s * (π / 180000000 - 174532925 / 10 ^ 16) := by rw [hx]; ring
    have f0 : 0 ≤ π / 180000000 - 174532925 / 10 ^ 16 := by norm_num; linarith
    have f1 : π / 180000000 - 174532925 / 10 ^ 16 ≤ 0.00000000000000003 := by norm_num; linarith
    rw [e, abs_of_nonneg (mul_nonneg a0 f0)]
    exact (mul_le_mul a1 f1 f0 (by norm_num)).trans (by norm_num)
  have lip : |cosDeg ((s : ℝ) / 1000000) - cos x| ≤ 0.000000003 := by
    unfold cosDeg
    exact (abs_cos_sub_cos_le _ _).trans near
  have fl : |(1 - x ^ 2 / 2 + x ^ 4 / 24 - x ^ 6 / 720 + x ^ 8 / 40320 - x ^ 10 / 3628800) -
      (cosCore s : ℝ) / 1000000000| ≤ 0.000000001 := by
    have e : 1 - x ^ 2 / 2 + x ^ 4 / 24 - x ^ 6 / 720 + x ^ 8 / 40320 - x ^ 10 / 3628800 =
        ((cosNum s : ℤ) : ℝ) / ((3628800 * 10 ^ 151 : ℤ) : ℝ) / 1000000000 := by
      rw [hx]
      unfold cosNum
      push_cast
      ring
    have d := div_floor (n := cosNum s) (d := 3628800 * 10 ^ 151) (by norm_num)
    rw [e, show cosCore s = cosNum s / (3628800 * 10 ^ 151) from rfl, ← sub_div, abs_div]
    rw [abs_of_pos (show (0 : ℝ) < 1000000000 by norm_num), div_le_iff₀ (by norm_num)]
    exact d.trans (by norm_num)
  rw [abs_le] at *
  constructor <;> linarith [lip.1, lip.2, fl.1, fl.2, ty.1, ty.2]

theorem cosq_spec (z : ℤ) : |cosDeg (z / 1000000) - (cosq z : ℝ) / 1000000000| ≤ 0.000001 := by
  have turn : cosDeg ((z : ℝ) / 1000000) = cosDeg (((z % 360000000 : ℤ) : ℝ) / 1000000) := by
    rw [← cosDeg_turn ((z : ℝ) / 1000000) (z / 360000000)]
    congr 1
    have e : ((z : ℤ) : ℝ) = 360000000 * ((z / 360000000 : ℤ) : ℝ) + ((z % 360000000 : ℤ) : ℝ) := by
      exact_mod_cast (Int.mul_ediv_add_emod z 360000000).symm
    rw [e]
    have : (((360000000 * ((z / 360000000 : ℤ) : ℝ) + ((z % 360000000 : ℤ) : ℝ)) / 1000000) -
      360 * ((z / 360000000 : ℤ) : ℝ)) = ((z % 360000000 : ℤ) : ℝ) / 1000000 := by ring
    rw [← e] at this ⊢
    exact this
  have r0 := Int.emod_nonneg z (show (360000000 : ℤ) ≠ 0 by norm_num)
  have r1 := Int.emod_lt_of_pos z (show (0 : ℤ) < 360000000 by norm_num)
  rw [turn]
  unfold cosq
  generalize z % 360000000 = r at *
  simp only
  have fold : ∀ s : ℤ, 0 ≤ s → s ≤ 180000000 →
      |cosDeg ((s : ℝ) / 1000000) - ((if 90000000 < s then -cosCore (180000000 - s) else cosCore s : ℤ) : ℝ) / 1000000000| ≤
        0.000001 := by
    intro s s0 s1
    split_ifs with h
    · have := cosCore_spec (s := 180000000 - s) (by omega) (by omega)
      have e : cosDeg (((180000000 - s : ℤ) : ℝ) / 1000000) = -cosDeg ((s : ℝ) / 1000000) := by
        unfold cosDeg radians
        rw [← cos_pi_sub]
        congr 1
        push_cast
        ring
      rw [e] at this
      rw [← abs_neg]
      push_cast
      convert this using 2
      ring
    · exact cosCore_spec s0 (by omega)
  split_ifs with h1 h2 h2
  · have := fold (360000000 - r) (by omega) (by omega)
    rw [if_pos h2] at this
    convert this using 3
    rw [← cosDeg_turn _ 1]
    unfold cosDeg radians
    rw [← cos_neg]
    congr 1
    push_cast
    ring
  · have := fold (360000000 - r) (by omega) (by omega)
    rw [if_neg h2] at this
    convert this using 3
    rw [← cosDeg_turn _ 1]
    unfold cosDeg radians
    rw [← cos_neg]
    congr 1
    push_cast
    ring
  · have := fold r r0 (by omega)
    rwa [if_pos h2] at this
  · have := fold r r0 (by omega)
    rwa [if_neg h2] at this

/-- For any angle: round down to a millionth of a degree. -/
theorem cosq_floor {x : ℝ} {y : ℚ} (h : |x - y| ≤ 0.00001) :
    |cosDeg x - (cosq ⌊y * 1000000⌋ : ℝ) / 1000000000| ≤ 0.0000012 := by
  have a := cosq_spec ⌊y * 1000000⌋
  have f0 := Int.floor_le (y * 1000000)
  have f1 := Int.lt_floor_add_one (y * 1000000)
  have g0 : ((⌊y * 1000000⌋ : ℤ) : ℝ) ≤ (y : ℝ) * 1000000 := by exact_mod_cast f0
  have g1 : (y : ℝ) * 1000000 < ((⌊y * 1000000⌋ : ℤ) : ℝ) + 1 := by exact_mod_cast f1
  have l := cosDeg_lip x (((⌊y * 1000000⌋ : ℤ) : ℝ) / 1000000)
  have b : |x - ((⌊y * 1000000⌋ : ℤ) : ℝ) / 1000000| ≤ 0.000011 := by
    rw [abs_le] at *
    constructor <;> linarith [h.1, h.2]
  have c : |cosDeg x - cosDeg (((⌊y * 1000000⌋ : ℤ) : ℝ) / 1000000)| ≤ 0.0000002 :=
    l.trans ((mul_le_mul_of_nonneg_left b (by norm_num)).trans (by norm_num))
  rw [abs_le] at *
  constructor <;> linarith [a.1, a.2, c.1, c.2]

end Verif.Solar
