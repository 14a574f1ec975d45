import Verif.Lemmas.DeltaTable

/-!
# Property C99: ΔT changes slowly and its formulas fit together
-/

namespace Verif.Solar

theorem decimalYear_month {jd : ℚ} {y m : ℤ} (ey : (gregorianFromJdMeeus jd).y = y) (em : (gregorianFromJdMeeus jd).m = m) :
    decimalYear jd = monthYear (12 * y + m - 1) := by
  unfold decimalYear monthYear
  rw [ey, em]
  push_cast
  ring

/-- The dates of the next 20 days are in the same month or in the next one. -/
theorem dates_near {y m d : ℤ} (v : ValidH y m d) : ∀ j : ℕ, j ≤ 20 → ∃ y' m' d', ValidH y' m' d' ∧
    dayH y' m' d' = dayH y m d + j ∧ (12 * y' + m' = 12 * y + m ∨
      (12 * y' + m' = 12 * y + m + 1 ∧ (d' ≤ j ∨ (y' = 1582 ∧ m' = 10 ∧ 15 ≤ d' ∧ d' ≤ j + 10))))
  | 0, _ => ⟨y, m, d, v, by simp, Or.inl rfl⟩
  | j + 1, hj => by
    obtain ⟨y', m', d', v', e', h⟩ := dates_near v j (by omega)
    refine ⟨_, _, _, validH_next v', by rw [dayH_next v', e']; push_cast; ring, ?_⟩
    obtain ⟨m1, m2, d1, d2, hg⟩ := v'
    have len : 28 ≤ specMonthLen (SpecLeapHistorical y') m' ∧ (m' = 10 → specMonthLen (SpecLeapHistorical y') m' = 31) := by
      unfold specMonthLen
      constructor
      · split_ifs <;> omega
      · rintro rfl
        norm_num
    unfold nextH
    push_cast
    rcases h with h | ⟨h, h'⟩ <;> split_ifs <;> simp only [le_refl, true_and] <;> omega

/-- The Gregorian date of an instant of the era. -/
theorem date_of {jd : ℚ} (h0 : 1720998 ≤ jd) (h1 : jd ≤ 2820002) : ∃ y m d, ValidH y m d ∧ |y| ≤ 999999 ∧
    dayH y m d + 1720995 = ⌊fl (jd + 1 / 2)⌋ ∧ (gregorianFromJdMeeus jd).y = y ∧ (gregorianFromJdMeeus jd).m = m := by
  have f0 : (1720998 : ℚ) ≤ fl (jd + 1 / 2) := by
    have := fl_mono (show (1720998 : ℚ) ≤ jd + 1 / 2 by linarith)
    rwa [show fl 1720998 = 1720998 by decide +kernel] at this
  have f1 : fl (jd + 1 / 2) ≤ (2820003 : ℚ) := by
    have := fl_mono (show jd + 1 / 2 ≤ (2820003 : ℚ) by linarith)
    rwa [show fl 2820003 = 2820003 by decide +kernel] at this
  have g0 : 1720998 ≤ ⌊fl (jd + 1 / 2)⌋ := Int.le_floor.mpr (by exact_mod_cast f0)
  have g1 : ⌊fl (jd + 1 / 2)⌋ ≤ 2820003 := by
    have := Int.floor_le (fl (jd + 1 / 2))
    exact_mod_cast this.trans f1
  obtain ⟨n, hn⟩ := Int.eq_ofNat_of_zero_le (show 0 ≤ ⌊fl (jd + 1 / 2)⌋ by omega)
  obtain ⟨y, m, d, v, e, eg⟩ := jd_date n (by omega)
  obtain ⟨ey, em⟩ := meeus_day jd n (by omega) (by omega) hn
  push_cast at ey em
  rw [eg] at ey em
  simp only at ey em
  refine ⟨y, m, d, v, ?_, by rw [hn, e], ey, em⟩
  obtain ⟨b0, b1⟩ := decimalYear_bounds h0 h1
  rw [decimalYear_month ey em] at b0 b1
  obtain ⟨m1, m2, -⟩ := v
  unfold monthYear at b0 b1
  have c0 : -240 ≤ 2 * (12 * y + m - 1) + 1 := by
    have : ((-240 : ℤ) : ℚ) ≤ ((2 * (12 * y + m - 1) + 1 : ℤ) : ℚ) := by push_cast at b0 ⊢; linarith
    exact_mod_cast this
  have c1 : 2 * (12 * y + m - 1) + 1 ≤ 72384 := by
    have : ((2 * (12 * y + m - 1) + 1 : ℤ) : ℚ) ≤ ((72384 : ℤ) : ℚ) := by push_cast at b1 ⊢; linarith
    exact_mod_cast this
  rw [abs_le]
  omega

/-- C99: between two instants of the era that are at most 18 days apart ΔT changes by less than a second: it is constant in
each Gregorian month, and the formulas for the fourteen periods fit together. -/
theorem C99_steady (jd jd' : ℚ) (h0 : 1720998 ≤ jd) (h1 : jd' ≤ 2820002) (h2 : jd ≤ jd') (h3 : jd' ≤ jd + 18) :
    |deltaT jd' - deltaT jd| < 1 / 86400 := by
  obtain ⟨y, m, d, v, yb, e, ey, em⟩ := date_of h0 (by linarith)
  obtain ⟨y', m', d', v', yb', e', ey', em'⟩ := date_of (by linarith : 1720998 ≤ jd') h1
  have fle : fl (jd + 1 / 2) ≤ fl (jd' + 1 / 2) := fl_mono (by linarith)
  have a := abs_le.mp (fl_err_le (x := jd + 1 / 2) (B := 4194304) (abs_le.mpr ⟨by linarith, by linarith⟩))
  have b := abs_le.mp (fl_err_le (x := jd' + 1 / 2) (B := 4194304) (abs_le.mpr ⟨by linarith, by linarith⟩))
  have n0 : ⌊fl (jd + 1 / 2)⌋ ≤ ⌊fl (jd' + 1 / 2)⌋ := Int.floor_le_floor fle
  have n1 : ⌊fl (jd' + 1 / 2)⌋ < ⌊fl (jd + 1 / 2)⌋ + 20 := by
    rw [Int.floor_lt]
    have := Int.lt_floor_add_one (fl (jd + 1 / 2))
    push_cast
    linarith
  obtain ⟨y2, m2, d2, v2, e2, h⟩ := dates_near v (⌊fl (jd' + 1 / 2)⌋ - ⌊fl (jd + 1 / 2)⌋).toNat (by omega)
  have ed : dayH y2 m2 d2 = dayH y' m' d' := by
    rw [e2, Int.toNat_of_nonneg (by omega)]
    omega
  have yb2 : |y2| ≤ 1000000 := by
    rw [abs_le] at yb ⊢
    obtain ⟨p1, p2, -⟩ := v
    obtain ⟨q1, q2, -⟩ := v2
    omega
  have same := meeus_back_date v2 yb2
  rw [ed, meeus_back_date v' (by omega)] at same
  simp only [GDate.mk.injEq, Int.cast_inj] at same
  obtain ⟨ry, rm, -⟩ := same
  subst ry rm
  have k0 := decimalYear_month ey em
  have k1 := decimalYear_month ey' em'
  obtain ⟨b0, b1⟩ := decimalYear_bounds h0 (by linarith : jd ≤ 2820002)
  rw [k0] at b0 b1
  unfold monthYear at b0 b1
  have c0 : -240 ≤ 2 * (12 * y + m - 1) + 1 := by
    have : ((-240 : ℤ) : ℚ) ≤ ((2 * (12 * y + m - 1) + 1 : ℤ) : ℚ) := by push_cast at b0 ⊢; linarith
    exact_mod_cast this
  have c1 : 2 * (12 * y + m - 1) + 1 ≤ 72384 := by
    have : ((2 * (12 * y + m - 1) + 1 : ℤ) : ℚ) ≤ ((72384 : ℤ) : ℚ) := by push_cast at b1 ⊢; linarith
    exact_mod_cast this
  have st := month_step (k := 12 * y + m - 1) (by omega) (by omega)
  unfold deltaT
  rw [k0, k1, ← sub_div, abs_div, show |(86400 : ℚ)| = 86400 by norm_num, div_lt_div_iff_of_pos_right (by norm_num)]
  rcases h with h | ⟨h, -⟩
  · rw [show 12 * y' + m' - 1 = 12 * y + m - 1 by omega]
    simp
  · rw [show 12 * y' + m' - 1 = 12 * y + m - 1 + 1 by omega]
    linarith

/-- The ten days around the first of January 2005, where one formula follows another. -/
example : |deltaT 2453376.5 - deltaT 2453366.5| < 1 / 86400 :=
  C99_steady _ _ (by norm_num) (by norm_num) (by norm_num) (by norm_num)

end Verif.Solar
