import Verif.Model.Numeric
import Verif.Lemmas.Hms
import Mathlib.Tactic.LinearCombination

/-!
# Float facts for the numeric helpers
-/

namespace Verif

theorem isF64_neg {x : ℚ} (h : IsF64 x) : IsF64 (-x) := by
  unfold IsF64 at *; rw [fl_neg, h]

theorem isF64_abs {x : ℚ} (h : IsF64 x) : IsF64 |x| := by
  rcases abs_choice x with e | e <;> rw [e]
  · exact h
  · exact isF64_neg h

/-- Subtracting a smaller integer from a float is exact. -/
theorem isF64_sub_int {x : ℚ} (hx : IsF64 x) {k : ℤ} (h0 : 0 ≤ k) (h1 : (k : ℚ) ≤ x)
    (h2 : x < 2 ^ 53) : IsF64 (x - k) := by
  by_cases hx0 : x = 0
  · subst hx0
    have : k = 0 := by
      have : (k : ℚ) ≤ ((0 : ℤ) : ℚ) := by simpa using h1
      have := Int.cast_le.mp this; omega
    subst this; simp [IsF64, fl_zero]
  have hk0 : (0 : ℚ) ≤ k := by exact_mod_cast h0
  have xp : 0 < x := lt_of_le_of_ne (by linarith) (Ne.symm hx0)
  obtain ⟨j, hj, e⟩ := fl_form hx0
  rw [hx] at e
  have hs := (ilog2_spec x hx0).1
  rw [abs_of_pos xp] at hs
  have hE : ilog2 x < 53 := by
    have : pow2 (ilog2 x) < pow2 53 := by
      rw [show pow2 53 = 2 ^ 53 from pow2_nat 53]; linarith
    exact pow2_lt_iff.mp this
  obtain ⟨n, hn⟩ : ∃ n : ℕ, (n : ℤ) = 52 - ilog2 x := ⟨(52 - ilog2 x).toNat, by omega⟩
  have hu := pow2_pos (ilog2 x - 52)
  have h1' : (2 : ℚ) ^ n * pow2 (ilog2 x - 52) = 1 := by
    rw [← pow2_nat, ← pow2_add, hn, show 52 - ilog2 x + (ilog2 x - 52) = 0 by ring]; rfl
  have ek : (k : ℚ) = ((k * 2 ^ n : ℤ) : ℚ) * pow2 (ilog2 x - 52) := by
    push_cast; rw [mul_assoc, h1', mul_one]
  have key : x - k = ((j - k * 2 ^ n : ℤ) : ℚ) * pow2 (ilog2 x - 52) := by
    push_cast at ek ⊢; linear_combination e - ek
  unfold IsF64
  have hd : (0 : ℚ) ≤ ((j - k * 2 ^ n : ℤ) : ℚ) := by
    by_contra hc
    push Not at hc
    have := mul_neg_of_neg_of_pos hc hu
    linarith
  have hd' : 0 ≤ j - k * 2 ^ n := by exact_mod_cast hd
  have hkn : 0 ≤ k * 2 ^ n := by positivity
  have := (abs_le.mp hj).2
  rw [key]
  exact fl_dyadic _ _ (by rw [abs_of_nonneg hd']; omega)

/-- The floor of a float quotient by a positive integer is the exact floor. -/
theorem floor_fl_div {x : ℚ} (hx : IsF64 x) (h0 : 0 ≤ x) (h2 : x < 2 ^ 53) {n : ℕ} (hn : 0 < n)
    (h3 : x / n < 2 ^ 53) : ⌊fl (x / n)⌋ = ⌊x / n⌋ := by
  by_cases hx0 : x = 0
  · subst hx0; simp [fl_zero]
  have xp : 0 < x := lt_of_le_of_ne h0 (Ne.symm hx0)
  have np : (0 : ℚ) < n := by exact_mod_cast hn
  have qp : 0 < x / n := div_pos xp np
  have lo : ⌊x / n⌋ ≤ ⌊fl (x / n)⌋ := by
    rw [Int.le_floor]
    apply le_fl_of_le (Int.floor_le _)
    apply isF64_int
    have a : (0 : ℤ) ≤ ⌊x / n⌋ := Int.floor_nonneg.mpr qp.le
    have b : ⌊x / n⌋ < 2 ^ 53 := by
      rw [Int.floor_lt]; push_cast; exact h3
    rw [abs_of_nonneg a]; omega
  refine le_antisymm ?_ lo
  have : fl (x / n) < ((⌊x / n⌋ + 1 : ℤ) : ℚ) := by
    set k := ⌊x / (n : ℚ)⌋ + 1 with hk
    have hlt : x / n < k := by rw [hk]; push_cast; exact Int.lt_floor_add_one _
    have hnk : x < n * k := by rwa [div_lt_iff₀ np, mul_comm] at hlt
    obtain ⟨j, hj, e⟩ := fl_form hx0
    rw [hx] at e
    have hs := ilog2_spec x hx0
    rw [abs_of_pos xp] at hs
    have hE : ilog2 x < 53 := by
      have : pow2 (ilog2 x) < pow2 53 := by
        rw [show pow2 53 = 2 ^ 53 from pow2_nat 53]; linarith
      exact pow2_lt_iff.mp this
    obtain ⟨t, ht⟩ : ∃ t : ℕ, (t : ℤ) = 52 - ilog2 x := ⟨(52 - ilog2 x).toNat, by omega⟩
    have hu := pow2_pos (ilog2 x - 52)
    have h1' : (2 : ℚ) ^ t * pow2 (ilog2 x - 52) = 1 := by
      rw [← pow2_nat, ← pow2_add, ht, show 52 - ilog2 x + (ilog2 x - 52) = 0 by ring]; rfl
    have enk : (n : ℚ) * k = ((n * k * 2 ^ t : ℤ) : ℚ) * pow2 (ilog2 x - 52) := by
      push_cast; rw [mul_assoc ((n : ℚ) * k), h1', mul_one]
    have gap : pow2 (ilog2 x - 52) ≤ n * k - x := by
      have hz : (0 : ℚ) < ((n * k * 2 ^ t - j : ℤ) : ℚ) * pow2 (ilog2 x - 52) := by
        have : ((n * k * 2 ^ t - j : ℤ) : ℚ) * pow2 (ilog2 x - 52) = n * k - x := by
          push_cast at enk ⊢; linear_combination e - enk
        rw [this]; linarith
      have hz' : (0 : ℚ) < ((n * k * 2 ^ t - j : ℤ) : ℚ) := pos_of_mul_pos_left hz hu.le
      have : (1 : ℤ) ≤ n * k * 2 ^ t - j := by
        have : (0 : ℤ) < n * k * 2 ^ t - j := by exact_mod_cast hz'
        omega
      have h1 : (1 : ℚ) ≤ ((n * k * 2 ^ t - j : ℤ) : ℚ) := by exact_mod_cast this
      have := mul_le_mul_of_nonneg_right h1 hu.le
      rw [one_mul] at this
      refine this.trans (le_of_eq ?_)
      push_cast at enk ⊢; linear_combination e - enk
    have he := (abs_le.mp (fl_ulp_err qp.ne')).2
    have hq := ilog2_spec (x / n) qp.ne'
    rw [abs_of_pos qp] at hq
    -- n * 2^E ≤ x < 2^(e+1)
    have c1 : n * pow2 (ilog2 (x / n)) ≤ x := by
      have := mul_le_mul_of_nonneg_left hq.1 np.le
      rwa [mul_div_cancel₀ _ np.ne'] at this
    have c2 : n * pow2 (ilog2 (x / n) - 53) < pow2 (ilog2 x - 52) := by
      have e1 : pow2 (ilog2 (x / n)) = pow2 (ilog2 (x / n) - 53) * 2 ^ 53 := by
        rw [← pow2_nat, ← pow2_add]; congr 1; push_cast; ring
      have e2 : pow2 (ilog2 x + 1) = pow2 (ilog2 x - 52) * 2 ^ 53 := by
        rw [← pow2_nat, ← pow2_add]; congr 1; push_cast; ring
      have : n * pow2 (ilog2 (x / n) - 53) * 2 ^ 53 < pow2 (ilog2 x - 52) * 2 ^ 53 := by
        rw [mul_assoc, ← e1, ← e2]; linarith [hs.2]
      exact lt_of_mul_lt_mul_right this (by positivity)
    have c3 : (n : ℚ) * fl (x / n) < n * k := by
      have : (n : ℚ) * fl (x / n) ≤ n * (x / n) + n * pow2 (ilog2 (x / n) - 53) := by
        rw [← mul_add]; exact mul_le_mul_of_nonneg_left (by linarith) np.le
      rw [mul_div_cancel₀ _ np.ne'] at this
      linarith
    exact lt_of_mul_lt_mul_left c3 np.le
  have := Int.floor_lt.mpr this
  omega

/-- Decoding depends on the fractional part only; it is legal for every input. -/
theorem hms_any (dec : ℚ) :
    let r := hmsFromDecimalDay dec
    0 ≤ r.1 ∧ r.1 ≤ 24 ∧ 0 ≤ r.2.1 ∧ r.2.1 < 60 ∧ 0 ≤ r.2.2 ∧ r.2.2 < 60 ∧
      |3600 * (r.1 : ℚ) + 60 * r.2.1 + r.2.2 - 86400 * pyMod1 dec| ≤ 1 / 500 := by
  rcases lt_or_eq_of_le (pyMod1_le_one dec) with h | h
  · have h0 := pyMod1_nonneg dec
    have hp : pyMod1 (pyMod1 dec) = pyMod1 dec := by
      rw [pyMod1_of_nonneg h0, Int.fract_eq_self.mpr ⟨h0, h⟩]
    have e : hmsFromDecimalDay dec = hmsFromDecimalDay (pyMod1 dec) := by
      unfold hmsFromDecimalDay partialDayToHours; rw [hp]
    have := hms_spec h0
    simp only at this
    rw [← e, Int.fract_eq_self.mpr ⟨h0, h⟩] at this
    obtain ⟨a1, a2, a3, a4, a5, a6, a7, -⟩ := this
    exact ⟨a1, a2, a3, a4, a5, a6, a7⟩
  · have e : hmsFromDecimalDay dec = (24, 0, 0) := by
      unfold hmsFromDecimalDay partialDayToHours
      rw [h]
      have : pyRound (fl (1 * 24)) 6 = 24 := by decide +kernel
      rw [this]
      decide +kernel
    simp only [e, h]
    norm_num

theorem second_form (x : ℚ) : ∃ k : ℤ, partialHourToMinute x = fl ((k : ℚ) / 1000000) :=
  ⟨roundHalfEven (fl (pyMod1 x * 60) * 10 ^ 6), by unfold partialHourToMinute pyRound; norm_num⟩

theorem micro_range {s : ℚ} {k : ℤ} (e : s = fl ((k : ℚ) / 1000000)) (h0 : 0 ≤ s) (h1 : s < 60) :
    0 ≤ partialSecondToMicrosecond s ∧ partialSecondToMicrosecond s ≤ 999999 := by
  unfold partialSecondToMicrosecond
  rw [pyMod1_of_nonneg h0]
  have f0 := Int.fract_nonneg s
  have f1 := Int.fract_lt_one s
  set n := ⌊s⌋ with hn
  have n0 : 0 ≤ n := Int.floor_nonneg.mpr h0
  have n1 : n < 60 := by rw [hn, Int.floor_lt]; exact_mod_cast h1
  have sn : s < n + 1 := Int.lt_floor_add_one s
  have kb : k < 1000000 * (n + 1) := by
    by_contra hc
    push Not at hc
    have : ((n + 1 : ℤ) : ℚ) ≤ fl ((k : ℚ) / 1000000) := by
      apply le_fl_of_le _ (isF64_int (by rw [abs_of_nonneg (by omega)]; omega))
      have : ((1000000 * (n + 1) : ℤ) : ℚ) ≤ k := by exact_mod_cast hc
      push_cast at this ⊢; linarith
    rw [← e] at this; push_cast at this; linarith
  have kq : (k : ℚ) ≤ 1000000 * (n + 1) - 1 := by
    exact_mod_cast (by omega : k ≤ 1000000 * (n + 1) - 1)
  have nq : (n : ℚ) ≤ 59 := by exact_mod_cast (by omega : n ≤ 59)
  have nq0 : (0 : ℚ) ≤ n := by exact_mod_cast n0
  -- the fractional part is at most .999999 up to rounding
  have sle : s ≤ n + 1 - 1 / 1000000 + 1 / 10000000000 := by
    have := fl_mono (x := (k : ℚ) / 1000000) (y := n + 1 - 1 / 1000000) (by linarith)
    rw [← e] at this
    have b := abs_le.mp (fl_err_le (x := (n : ℚ) + 1 - 1 / 1000000) (B := 60)
      (by rw [abs_of_nonneg] <;> linarith))
    linarith
  have fle : Int.fract s ≤ 9999991 / 10000000 := by
    have : Int.fract s = s - n := rfl
    rw [this]; linarith
  have p0 : 0 ≤ pyRound (Int.fract s) 6 := by
    have := pyRound_mono 6 f0
    rwa [show pyRound 0 6 = 0 by decide +kernel] at this
  have p1 : pyRound (Int.fract s) 6 ≤ fl (999999 / 1000000) := by
    have := pyRound_mono 6 fle
    rwa [show pyRound (9999991 / 10000000) 6 = fl (999999 / 1000000) by decide +kernel] at this
  have q0 : 0 ≤ fl (pyRound (Int.fract s) 6 * 1000000) := fl_nonneg (by positivity)
  have q1 : fl (pyRound (Int.fract s) 6 * 1000000) ≤ fl (fl (999999 / 1000000) * 1000000) :=
    fl_mono (by linarith)
  have q2 : fl (fl (999999 / 1000000) * 1000000) < 1000000 := by decide +kernel
  unfold pyInt
  rw [if_pos q0]
  refine ⟨Int.floor_nonneg.mpr q0, ?_⟩
  have : ⌊fl (pyRound (Int.fract s) 6 * 1000000)⌋ < 1000000 := by
    rw [Int.floor_lt]; push_cast; linarith
  omega

end Verif
