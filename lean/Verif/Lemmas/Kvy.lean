import Verif.Lemmas.Badi

/-!
# Helper lemmas: Kull-i-Shay, Váḥid and year of a short form year
-/

namespace Verif

theorem pyMod1_near {k f : ℚ} {q : ℤ} {e : ℚ} (h0 : (q : ℚ) + f - e ≤ k) (h1 : k ≤ q + f + e)
    (hl : e < f) (hu : f + e < 1) :
    f - e - 1 / 4503599627370496 ≤ pyMod1 k ∧ pyMod1 k ≤ f + e + 1 / 4503599627370496 := by
  have hfl : ⌊k⌋ = q := by rw [Int.floor_eq_iff]; constructor <;> linarith
  unfold pyMod1
  split_ifs with h
  · rw [hfl]; constructor <;> linarith
  · have hc : ⌈k⌉ = q + 1 := by rw [Int.ceil_eq_iff]; push_cast; constructor <;> linarith
    simp only [hc]
    push_cast
    rw [if_neg (by intro h'; linarith)]
    have b := abs_le.mp (fl_err_le (x := k - ((q : ℚ) + 1) + 1) (B := 1)
      (abs_le.mpr ⟨by linarith, by linarith⟩))
    constructor <;> linarith

set_option maxHeartbeats 1000000 in
/-- The exact result of the division steps, for the years the long form can represent. -/
theorem kvy_exact {y q r : ℤ} (hy : y = 361 * q + r) (hr0 : 1 ≤ r) (hr1 : r ≤ 361)
    (hq0 : -8 ≤ q) (hq1 : q ≤ 5) :
    kvyFromYear y = (q + 1, (r - 1) / 19 + 1, (r - 1) % 19 + 1) := by
  have hr0q : (1 : ℚ) ≤ r := by exact_mod_cast hr0
  have hr1q : (r : ℚ) ≤ 361 := by exact_mod_cast hr1
  have hq0q : (-8 : ℚ) ≤ q := by exact_mod_cast hq0
  have hq1q : (q : ℚ) ≤ 5 := by exact_mod_cast hq1
  have hyq : (y : ℚ) / 361 = q + r / 361 := by rw [hy]; push_cast; field_simp
  -- the quotient
  have ek := abs_le.mp (fl_err_le (x := (y : ℚ) / 361) (B := 8)
    (abs_le.mpr ⟨by rw [hyq]; linarith, by rw [hyq]; linarith⟩))
  rw [hyq] at ek
  have hk1 : fl ((y : ℚ) / 361) ≤ ((q + 1 : ℤ) : ℚ) := by
    apply fl_le_of_le
    · rw [hyq]; push_cast; linarith
    · apply isF64_int; rw [abs_le]; constructor <;> norm_num <;> omega
  have hceil : ⌈fl ((y : ℚ) / 361)⌉ = q + 1 := by
    rw [Int.ceil_eq_iff]; push_cast at hk1 ⊢; rw [hyq] at *; constructor <;> linarith
  have hkull : (if y = 0 then (0 : ℤ) else ⌈fl ((y : ℚ) / 361)⌉) = q + 1 := by
    split_ifs with h
    · omega
    · exact hceil
  unfold kvyFromYear
  simp only [hkull]
  rcases eq_or_lt_of_le hr1 with hr | hr
  · -- end of a Kull-i-Shay
    subst hr
    have hki : fl ((y : ℚ) / 361) = ((q + 1 : ℤ) : ℚ) := by
      have : (y : ℚ) / 361 = ((q + 1 : ℤ) : ℚ) := by rw [hyq]; push_cast; norm_num
      rw [this]; apply fl_int; rw [abs_le]; constructor <;> norm_num <;> omega
    have hz : fl (fl (truncateDecimal (pyMod1 (fl ((y : ℚ) / 361))) 12 / 19) * 361) = 0 := by
      rw [hki, pyMod1_int]
      simp [truncateDecimal, fl_zero]
    rw [if_pos hz]; norm_num
  · have hr2 : (r : ℚ) ≤ 360 := by
      have : r ≤ 360 := by omega
      exact_mod_cast this
    have hm := pyMod1_near (k := fl ((y : ℚ) / 361)) (f := (r : ℚ) / 361) (q := q)
      (e := 8 / 9007199254740992) (by rw [hyq]; linarith) (by rw [hyq]; linarith)
      (by linarith) (by linarith)
    rw [hyq] at *
    set m := pyMod1 (fl ((q : ℚ) + r / 361)) with hmd
    -- truncation
    have et := abs_le.mp (fl_err_le (x := m * 10 ^ 12) (B := 1000000000000)
      (abs_le.mpr ⟨by norm_num; linarith, by norm_num; linarith⟩))
    set E : ℤ := 1000000000000 * r / 361 with hE
    have hE0 : 361 * E + 1 ≤ 1000000000000 * r := by omega
    have hE1 : 1000000000000 * r ≤ 361 * E + 360 := by omega
    have hE0q : 361 * (E : ℚ) + 1 ≤ 1000000000000 * r := by exact_mod_cast hE0
    have hE1q : 1000000000000 * (r : ℚ) ≤ 361 * E + 360 := by exact_mod_cast hE1
    have hF : ⌊fl (m * 10 ^ 12)⌋ = E := by
      rw [Int.floor_eq_iff]
      norm_num at et ⊢
      constructor <;> linarith
    unfold truncateDecimal
    rw [hF]
    have e1 := abs_le.mp (fl_err_le (x := (E : ℚ) / 10 ^ 12) (B := 1)
      (abs_le.mpr ⟨by norm_num; linarith, by norm_num; linarith⟩))
    set k0 := fl ((E : ℚ) / 10 ^ 12) with hk0
    norm_num at e1
    have e2 := abs_le.mp (fl_err_le (x := k0 / 19) (B := 1 / 19)
      (abs_le.mpr ⟨by linarith, by
        have hk0le : k0 ≤ 1 := by
          apply fl_le_of_le
          · norm_num; linarith
          · exact isF64_int (n := 1) (by norm_num)
        linarith⟩))
    set k1 := fl (k0 / 19) with hk1
    have e3 := abs_le.mp (fl_err_le (x := k1 * 361) (B := 19 + 1 / 1000)
      (abs_le.mpr ⟨by linarith, by linarith⟩))
    set v := fl (k1 * 361) with hv
    -- exact quotients
    set a := (r - 1) / 19 with ha
    set b := (r - 1) % 19 with hb
    have hab : r = 19 * a + b + 1 := by omega
    have hb0 : 0 ≤ b := by omega
    have hb1 : b ≤ 18 := by omega
    have habq : (r : ℚ) = 19 * a + b + 1 := by exact_mod_cast hab
    have hb0q : (0 : ℚ) ≤ b := by exact_mod_cast hb0
    have hb1q : (b : ℚ) ≤ 18 := by exact_mod_cast hb1
    have vlo : (a : ℚ) + (b + 1) / 19 - 2 / 100000000000 ≤ v := by linarith
    have vhi : v ≤ (a : ℚ) + (b + 1) / 19 - 4 / 100000000000000 := by linarith
    have a0 : (0 : ℚ) ≤ a := by
      have : 0 ≤ a := by omega
      exact_mod_cast this
    have vpos : 0 < v := by linarith
    rw [if_neg vpos.ne']
    have hvc : ⌈v⌉ = a + 1 := by
      rw [Int.ceil_eq_iff]; push_cast; constructor <;> linarith
    have hvf : ⌊v⌋ = a := by
      rw [Int.floor_eq_iff]; constructor <;> linarith
    have hvm : pyMod1 v = v - a := by unfold pyMod1; rw [if_pos vpos.le, hvf]
    rw [hvc, hvm]
    have e4 := abs_le.mp (fl_err_le (x := (v - a) * 19) (B := 19)
      (abs_le.mpr ⟨by linarith, by linarith⟩))
    have hyc : ⌈fl ((v - a) * 19)⌉ = b + 1 := by
      rw [Int.ceil_eq_iff]; push_cast; constructor <;> linarith
    rw [hyc]

/-- Years too far away get a Kull-i-Shay outside the accepted range. -/
theorem kvy_far {y : ℤ} (h : y ≤ -2527 ∨ 1806 ≤ y) :
    (kvyFromYear y).1 ≤ -7 ∨ 6 ≤ (kvyFromYear y).1 := by
  have hk : (kvyFromYear y).1 = ⌈fl ((y : ℚ) / 361)⌉ := by
    unfold kvyFromYear
    simp only []
    rw [if_neg (show y ≠ 0 by omega)]
    split_ifs <;> rfl
  rw [hk]
  rcases h with h | h
  · left
    have hq : (y : ℚ) ≤ -2527 := by exact_mod_cast h
    rw [Int.ceil_le]
    apply fl_le_of_le
    · rw [div_le_iff₀ (by norm_num)]; push_cast; linarith
    · exact isF64_int (n := -7) (by norm_num)
  · right
    have hq : (1806 : ℚ) ≤ y := by exact_mod_cast h
    have h1 : fl (1806 / 361) ≤ fl ((y : ℚ) / 361) :=
      fl_mono (div_le_div_of_nonneg_right hq (by norm_num))
    have h2 : (5 : ℚ) < fl (1806 / 361) := by decide +kernel
    have : (5 : ℤ) < ⌈fl ((y : ℚ) / 361)⌉ := by
      rw [Int.lt_ceil]; push_cast; linarith
    omega

end Verif
