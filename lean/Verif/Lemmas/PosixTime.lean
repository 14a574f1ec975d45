import Verif.Lemmas.Forward

/-!
# Helper lemmas: POSIX timestamps of Julian Period days
-/

namespace Verif

/-- A value within half a unit of a multiple of the unit rounds to it. -/
theorem fl_near {x y : ℚ} {e k : ℤ} (h0 : pow2 e ≤ |x|) (h1 : |x| < pow2 (e + 1))
    (hy : y = k * pow2 (e - 52)) (h : |x - y| < pow2 (e - 53)) : fl x = y := by
  have hx : x ≠ 0 := by
    rintro rfl
    rw [abs_zero] at h0
    exact absurd h0 (not_le.mpr (pow2_pos e))
  rw [fl_ne hx, ilog2_unique h0 h1]
  have hp := pow2_pos (e - 52)
  have hu : pow2 (e - 53) = pow2 (e - 52) / 2 := by
    rw [show e - 52 = (e - 53) + 1 by ring, pow2_add]
    have : pow2 1 = 2 := pow2_nat 1
    rw [this]; ring
  have : roundHalfEven (x / pow2 (e - 52)) = k := by
    apply roundHalfEven_of_close
    have e1 : x / pow2 (e - 52) - k = (x - y) / pow2 (e - 52) := by
      rw [hy]; field_simp
    rw [e1, abs_div, abs_of_pos hp, div_lt_iff₀ hp]
    linarith
  rw [this, hy]

/-- Rounding error of a value below a power of two. -/
theorem fl_err_pow {x : ℚ} {e : ℤ} (h : |x| < pow2 (e + 1)) : |fl x - x| ≤ pow2 (e - 53) := by
  by_cases hx : x = 0
  · rw [hx, fl_zero, sub_zero, abs_zero]; exact (pow2_pos _).le
  · have h1 := (ilog2_spec x hx).1
    have : ilog2 x < e + 1 := pow2_lt_iff.mp (lt_of_le_of_lt h1 h)
    exact (fl_ulp_err hx).trans (pow2_le (by omega))

theorem p20 : pow2 20 = 1048576 := by norm_num [pow2]
theorem p21 : pow2 21 = 2097152 := by norm_num [pow2]
theorem p22 : pow2 22 = 4194304 := by norm_num [pow2]
theorem pm32 : pow2 (-32) = 1 / 4294967296 := by decide +kernel
theorem pm31 : pow2 (-31) = 1 / 2147483648 := by decide +kernel
theorem pm33 : pow2 (-33) = 1 / 8589934592 := by decide +kernel

/-- The Julian Period day is recovered from its timestamp exactly. -/
theorem timestamp_jd {J : ℚ} (hJ : IsF64 J) (h0 : 1721000 ≤ J) (h1 : J ≤ 2820000) :
    fl (fl (pyRound (fl (fl (J - 2440585.5) * 86400)) 12 / 86400) + 2440585.5) = J ∧
    |pyRound (fl (fl (J - 2440585.5) * 86400)) 12 - (J - 2440585.5) * 86400| ≤ 1 / 100000 := by
  obtain ⟨k, hk⟩ := isF64_multiple (e := 20) hJ (by rw [p20, abs_of_nonneg (by linarith)]; linarith)
  norm_num at hk
  rw [pm32] at hk
  -- the difference is exact
  have kq0 : (1721000 : ℚ) * 4294967296 ≤ k := by rw [hk] at h0; linarith
  have kq1 : (k : ℚ) ≤ 2820000 * 4294967296 := by rw [hk] at h1; linarith
  have ki0 : 1721000 * 4294967296 ≤ k := by exact_mod_cast kq0
  have ki1 : k ≤ 2820000 * 4294967296 := by exact_mod_cast kq1
  have ex : fl (J - 2440585.5) = J - 2440585.5 := by
    have e : J - 2440585.5 = ((k - 10482234905591808 : ℤ) : ℚ) / 2 ^ 32 := by
      rw [hk]; push_cast; norm_num; ring
    rw [e]
    have := fl_dyadic (k - 10482234905591808) (-32) (by rw [abs_le]; constructor <;> omega)
    rw [pm32] at this
    rw [show ((k - 10482234905591808 : ℤ) : ℚ) / 2 ^ 32 = (k - 10482234905591808 : ℤ) * (1 / 4294967296) by
      norm_num; ring]
    exact this
  rw [ex]
  have hD0 : -719586 ≤ J - 2440585.5 := by norm_num; linarith
  have hD1 : J - 2440585.5 ≤ 719586 := by norm_num; linarith
  set D := J - 2440585.5 with hD
  have p36 : pow2 (35 + 1) = 68719476736 := by norm_num [pow2]
  have pm18 : pow2 (35 - 53) = 1 / 262144 := by decide +kernel
  have er1 := fl_err_pow (x := D * 86400) (e := 35) (by rw [p36, abs_lt]; constructor <;> linarith)
  rw [pm18] at er1
  set p := fl (D * 86400) with hp
  have er2 : |pyRound p 12 - D * 86400| ≤ 1 / 262144 + 1 / 10000000000 := by
    by_cases hl : 2 ^ 16 ≤ |p|
    · rw [pyRound12_id (isF64_fl _) hl]; linarith
    · push Not at hl
      have := pyRound_err p 12
      have t := abs_le.mp er1
      norm_num at this hl
      have u := abs_le.mp (this.trans (show _ ≤ (1 : ℚ) / 20000000000 by linarith))
      rw [abs_le]
      constructor <;> linarith
  set t := pyRound p 12 with ht
  have er2' := abs_le.mp er2
  have p20' : pow2 (19 + 1) = 1048576 := by norm_num [pow2]
  have pm34 : pow2 (19 - 53) = 1 / 17179869184 := by decide +kernel
  have er3 := fl_err_pow (x := t / 86400) (e := 19)
    (by rw [p20', abs_lt]; constructor <;> linarith)
  rw [pm34] at er3
  have er3' := abs_le.mp er3
  set q := fl (t / 86400) with hq
  refine ⟨?_, by linarith⟩
  have cl : |q + 2440585.5 - J| < 1 / 8589934592 := by
    have : q + 2440585.5 - J = q - D := by rw [hD]; ring
    rw [this, abs_lt]; constructor <;> linarith
  have cl' := abs_lt.mp cl
  have xpos : 0 ≤ q + 2440585.5 := by linarith
  by_cases hx : q + 2440585.5 < 2097152
  · refine fl_near (e := 20) (k := k) ?_ ?_ ?_ ?_
    · rw [abs_of_nonneg xpos, p20]; linarith
    · rw [abs_of_nonneg xpos, show (20 : ℤ) + 1 = 21 by norm_num, p21]; exact hx
    · rw [show (20 : ℤ) - 52 = -32 by norm_num, pm32]; exact hk
    · rw [show (20 : ℤ) - 53 = -33 by norm_num, pm33]; exact cl
  · push Not at hx
    have hJ2 : 2097152 ≤ J := by
      by_contra hlt
      push Not at hlt
      have : k < 2097152 * 4294967296 := by
        have : (k : ℚ) < 2097152 * 4294967296 := by rw [hk] at hlt; linarith
        exact_mod_cast this
      have : (k : ℚ) ≤ 2097152 * 4294967296 - 1 := by
        exact_mod_cast (by omega : k ≤ 2097152 * 4294967296 - 1)
      have : J ≤ 2097152 - 1 / 4294967296 := by rw [hk]; linarith
      linarith
    obtain ⟨k', hk'⟩ := isF64_multiple (e := 21) hJ (by rw [p21, abs_of_nonneg (by linarith)]; exact hJ2)
    refine fl_near (e := 21) (k := k') ?_ ?_ hk' ?_
    · rw [abs_of_nonneg xpos, p21]; exact hx
    · rw [abs_of_nonneg xpos, show (21 : ℤ) + 1 = 22 by norm_num, p22]; linarith
    · rw [show (21 : ℤ) - 53 = -32 by norm_num, pm32]; linarith

end Verif
