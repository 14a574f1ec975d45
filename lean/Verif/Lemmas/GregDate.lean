import Verif.Model.Conversion
import Verif.Lemmas.GregorianFwd
import Verif.Lemmas.PosixTime

/-!
# Helper lemmas: the Gregorian date of a Julian Period day with a fraction
-/

namespace Verif

/-- The day `k` days after 1 January of year 1. -/
theorem iterate_from_one (k : ℕ) :
    ∃ y m d, (fun g : ℤ × ℤ × ℤ => nextG g.1 g.2.1 g.2.2)^[k] (1, 1, 1) = (y, m, d) ∧ ValidG y m d ∧
      dayG y m d = k + 1 ∧ 1 ≤ y := by
  induction k with
  | zero => exact ⟨1, 1, 1, rfl, by decide, by decide +kernel, le_refl _⟩
  | succ k ih =>
    obtain ⟨y, m, d, e, v, n, y1⟩ := ih
    refine ⟨(nextG y m d).1, (nextG y m d).2.1, (nextG y m d).2.2, ?_, validG_next v, ?_, ?_⟩
    · rw [Function.iterate_succ', Function.comp, e]
    · rw [dayG_next v, n]; push_cast; ring
    · unfold nextG; split_ifs <;> simp only <;> omega

theorem checkGregorian_frac {y m d : ℤ} {f : ℚ} (hv : ValidG y m d) (hf : ⌊f⌋ = d) :
    checkGregorian ⟨y, m, f, []⟩ = .ok () := by
  obtain ⟨m1, m2, d1, d2⟩ := hv
  have e1 : |m| = m := abs_of_nonneg (by omega)
  have f0 : (0 : ℚ) ≤ f := by
    have := Int.floor_le f
    rw [hf] at this
    have : (1 : ℚ) ≤ d := by exact_mod_cast d1
    linarith
  have e2 : |f| = f := abs_of_nonneg f0
  have hl := monthLen_eq (y := y) m1 m2
  rw [show checkGregorian ⟨y, m, f, []⟩ = checkGregorian ⟨y, m, f, [((0 : ℤ) : ℚ), ((0 : ℤ) : ℚ), 0]⟩ by
    simp [checkGregorian]]
  unfold checkGregorian
  simp only [e1, e2, Bool.false_eq_true, false_and, if_false, List.getD_cons_zero, List.getD_cons_succ]
  rw [e1] at hl
  rw [pyAssert_true ⟨m1, m2⟩, pyOk_bind, hl, hf, pyAssert_true ⟨d1, d2⟩, pyOk_bind,
    pyAssert_true (by norm_num), pyOk_bind, pyAssert_true (by norm_num), pyOk_bind, pyMod1_int]
  simp

theorem ymdhms_frac {y m d : ℤ} {f : ℚ} (hv : ValidG y m d) (hf : ⌊f⌋ = d) (h64 : IsF64 f) :
    ymdhmsFromDate ⟨y, m, f, []⟩ = .ok ⟨y, m, d, [((hmsFromDecimalDay f).1 : ℚ),
      ((hmsFromDecimalDay f).2.1 : ℚ), (hmsFromDecimalDay f).2.2]⟩ := by
  unfold ymdhmsFromDate
  rw [checkGregorian_frac hv hf, pyOk_bind]
  simp only [List.getD_nil, zero_mul, zero_div, fl_zero, add_zero]
  rw [h64, hf]

/-- A Julian Period day of the Gregorian era, with its fraction. -/
theorem greg_of_jd {x : ℚ} {y m d : ℤ} (hx : IsF64 x) (hv : ValidG y m d) (hy0 : 1 ≤ y) (hy1 : y ≤ 4713)
    (h0 : (dayG y m d : ℚ) + 1721422.5 ≤ x) (h1 : x < dayG y m d + 1721423.5) :
    ∃ f, gregorianFromJdExact x = ⟨y, m, f, []⟩ ∧ IsF64 f ∧ ⌊f⌋ = d ∧
      |f - d - (x - 1721422.5 - dayG y m d)| ≤ 1 / 100000000000 := by
  have n1 : 1 ≤ dayG y m d := by
    have := (dayG_bounds hv).1
    have h2 := daysInYears_mono (show (0 : ℤ) ≤ y - 1 by omega)
    rw [show daysInYears 0 = 0 by decide +kernel] at h2
    omega
  have nq : (1 : ℚ) ≤ dayG y m d := by exact_mod_cast n1
  norm_num at h0 h1
  obtain ⟨k, hk⟩ := isF64_multiple (e := 20) hx (by rw [p20, abs_of_nonneg (by linarith)]; linarith)
  norm_num at hk
  rw [pm32] at hk
  obtain ⟨j, hj⟩ : ∃ j : ℤ, j = k - dayG y m d * 2 ^ 32 - 7393453340098560 := ⟨_, rfl⟩
  have ht : x - 1721422.5 - dayG y m d = (j : ℚ) / 2 ^ 32 := by
    rw [hj, hk]; push_cast; norm_num; ring
  have jq0 : (0 : ℚ) ≤ j := by
    have : (0 : ℚ) ≤ (j : ℚ) / 2 ^ 32 := by rw [← ht]; norm_num; linarith
    by_contra hc
    push Not at hc
    have := div_neg_of_neg_of_pos hc (show (0 : ℚ) < 2 ^ 32 by norm_num)
    linarith
  have jq1 : (j : ℚ) < 2 ^ 32 := by
    have : (j : ℚ) / 2 ^ 32 < 1 := by rw [← ht]; norm_num; linarith
    rwa [div_lt_one (by norm_num)] at this
  have j0 : 0 ≤ j := by exact_mod_cast jq0
  have j1 : j < 2 ^ 32 := by exact_mod_cast jq1
  have e := gregorianFromJdExact_eq hv (t := (j : ℚ) / 2 ^ 32) rfl j0 j1 (by omega) hy1 (Or.inr hy0)
  have ex : (dayG y m d : ℚ) + (j : ℚ) / 2 ^ 32 + 1721422.5 = x := by rw [← ht]; ring
  rw [ex] at e
  refine ⟨_, e, isF64_fl _, ?_⟩
  have d31 : 1 ≤ d ∧ d ≤ 31 := by
    obtain ⟨m1, m2, d1, d2⟩ := hv
    unfold specMonthLen at d2
    split_ifs at d2 <;> omega
  have t0 : (0 : ℚ) ≤ (j : ℚ) / 2 ^ 32 := by positivity
  have t1 : (j : ℚ) / 2 ^ 32 ≤ 1 - 1 / 4294967296 := by
    have : (j : ℚ) ≤ 4294967295 := by exact_mod_cast (by omega : j ≤ 4294967295)
    rw [div_le_iff₀ (by norm_num)]; norm_num; linarith
  have dq0 : (1 : ℚ) ≤ d := by exact_mod_cast d31.1
  have dq1 : (d : ℚ) ≤ 31 := by exact_mod_cast d31.2
  have er := pyRound_err ((d : ℚ) + j / 2 ^ 32) 12
  rw [abs_of_nonneg (show (0 : ℚ) ≤ (d : ℚ) + j / 2 ^ 32 by linarith)] at er
  have er' := abs_le.mp (er.trans (show _ ≤ (1 : ℚ) / 100000000000 by norm_num at *; linarith))
  refine ⟨?_, ?_⟩
  · rw [Int.floor_eq_iff]
    constructor
    · have := pyRound_mono 12 (show (d : ℚ) ≤ d + j / 2 ^ 32 by linarith)
      rwa [pyRound_int d 12 (by rw [abs_le]; omega)] at this
    · linarith
  · rw [ht, abs_le]; constructor <;> linarith

end Verif
