import Verif.Lemmas.Badi
import Verif.Lemmas.Gregorian

/-!
# Gregorian conversions: from the date to the JD
-/

namespace Verif

theorem pyRound_half (k : ℤ) (h : |k| ≤ 2 ^ 53) : pyRound ((k : ℚ) / 2) 12 = k / 2 := by
  unfold pyRound
  have : (k : ℚ) / 2 * 10 ^ 12 = ((k * 500000000000 : ℤ) : ℚ) := by push_cast; ring
  rw [this, roundHalfEven_int]
  push_cast
  rw [show (k : ℚ) * 500000000000 / 10 ^ 12 = k / 2 by ring, fl_half k h]

theorem monthLen_eq {y m : ℤ} (h1 : 1 ≤ m) (h2 : m ≤ 12) :
    gMonths.getD (|m| - 1).toNat 0 + (if |m| = 2 ∧ gIsLeap y then 1 else 0)
      = specMonthLen (SpecLeapGregorian y) m := by
  rw [abs_of_nonneg (by omega), specMonthLen_leap]
  exact (month_facts (gIsLeap y) m (by simp; omega)).2.2.2.2.2.2

/-- The check accepts every date of the proleptic Gregorian calendar with a time of day. -/
theorem checkGregorian_ok {y m d : ℤ} (hv : ValidG y m d) {h mi : ℤ} {s : ℚ} (h1 : h < 24)
    (mi1 : mi < 60) : checkGregorian ⟨y, m, d, [(h : ℚ), (mi : ℚ), s]⟩ = .ok () := by
  obtain ⟨m1, m2, d1, d2⟩ := hv
  have e1 : |m| = m := abs_of_nonneg (by omega)
  have e2 : |(d : ℚ)| = d := abs_of_nonneg (by exact_mod_cast (by omega : 0 ≤ d))
  have hl := monthLen_eq (y := y) m1 m2
  unfold checkGregorian
  simp only [e1, e2, Bool.false_eq_true, false_and, if_false, List.getD_cons_zero, List.getD_cons_succ]
  rw [e1] at hl
  rw [pyAssert_true ⟨m1, m2⟩, pyOk_bind, hl, Int.floor_intCast, pyAssert_true ⟨d1, d2⟩, pyOk_bind,
    pyAssert_true (by exact_mod_cast h1), pyOk_bind, pyAssert_true (by exact_mod_cast mi1), pyOk_bind,
    pyMod1_int, pyMod1_int, pyMod1_int]
  simp

theorem checkGregorian_date {y m d : ℤ} (hv : ValidG y m d) : checkGregorian ⟨y, m, d, []⟩ = .ok () := by
  have := checkGregorian_ok (h := 0) (mi := 0) (s := 0) hv (by norm_num) (by norm_num)
  simpa [checkGregorian] using this

theorem dateFromYmdhms_date {y m d : ℤ} (hv : ValidG y m d) :
    dateFromYmdhms ⟨y, m, d, []⟩ = .ok ⟨y, m, d, []⟩ := by
  unfold dateFromYmdhms
  rw [checkGregorian_date hv, pyOk_bind]
  have hd : |d| ≤ 2 ^ 53 := by
    obtain ⟨m1, m2, d1, d2⟩ := hv
    unfold specMonthLen at d2
    rw [abs_le]; split_ifs at d2 <;> constructor <;> omega
  have z : pyRound 0 12 = 0 := by have := pyRound_int 0 12 (by norm_num); simpa using this
  simp only [List.getD_nil, zero_div, fl_zero, add_zero, z, fl_int d hd]

theorem pyTake_month {y m : ℤ} (h1 : 1 ≤ m) :
    (pyTake (monthDays (gIsLeap y)) (m - 1)).sum = cumDays (gIsLeap y) m := by
  unfold pyTake cumDays
  rw [if_pos (by omega)]

/-- The JD of the start of a day. -/
theorem jdExact_day {y m d : ℤ} (hv : ValidG y m d) (hy : |y| ≤ 1000000) :
    jdFromGregorianExact ⟨y, m, d, []⟩ = .ok ((dayG y m d : ℚ) + 1721422.5) := by
  unfold jdFromGregorianExact
  rw [dateFromYmdhms_date hv, pyOk_bind]
  simp only
  obtain ⟨b1, b2⟩ := dayG_bounds hv
  obtain ⟨-, v1, v2⟩ := valid_facts hv
  have hv' := hv
  obtain ⟨m1, m2, d1, d2⟩ := hv
  rw [pyTake_month m1]
  rw [abs_le] at hy
  have D1 := daysInYears_mono (show y ≤ 1000000 by omega)
  have D0 := daysInYears_mono (show -1000001 ≤ y - 1 by omega)
  have e1 : daysInYears 1000000 = 365242500 := by decide
  have e0 : daysInYears (-1000001) = -365242866 := by decide
  obtain ⟨-, -, -, -, f5, f6, -⟩ := month_facts (gIsLeap y) m (by simp; omega)
  rw [specMonthLen_leap] at d2
  have ep : gregorianEpoch - 1 = 1721422.5 := by unfold gregorianEpoch; norm_num
  have a1 : fl ((daysInYears (y - 1) : ℚ) + (gregorianEpoch - 1)) = daysInYears (y - 1) + 1721422.5 := by
    have := fl_half (2 * daysInYears (y - 1) + 3442845) (by rw [abs_le]; constructor <;> omega)
    push_cast at this
    rw [ep, show (daysInYears (y - 1) : ℚ) + 1721422.5
      = (2 * (daysInYears (y - 1) : ℚ) + 3442845) / 2 by ring, this]
  have a2 : fl ((cumDays (gIsLeap y) m : ℚ) + d) = cumDays (gIsLeap y) m + d := by
    have := fl_int (cumDays (gIsLeap y) m + d) (by rw [abs_le]; constructor <;> omega)
    push_cast at this; exact this
  rw [a1, a2]
  have e : (daysInYears (y - 1) : ℚ) + 1721422.5 + (cumDays (gIsLeap y) m + d)
      = ((2 * dayG y m d + 3442845 : ℤ) : ℚ) / 2 := by
    unfold dayG; push_cast; ring
  have hb : |2 * dayG y m d + 3442845| ≤ 2 ^ 53 := by rw [abs_le]; constructor <;> omega
  rw [e, fl_half _ hb, pyRound_half _ hb]
  congr 1
  push_cast
  ring

/-- Value of the time of day as computed by `date_from_ymdhms`. -/
theorem gtime_err {h mi : ℤ} {s : ℚ} (h0 : 0 ≤ h) (h1 : h ≤ 23) (mi0 : 0 ≤ mi) (mi1 : mi ≤ 59)
    (s0 : 0 ≤ s) (s1 : s ≤ 60) :
    |pyRound (fl (fl (fl ((h : ℚ) / 24) + fl (fl ((mi : ℚ) / 24) / 60)) + fl (fl (fl (s / 24) / 60) / 60))) 12
      - (3600 * h + 60 * mi + s) / 86400| ≤ 1 / 1000000000000 ∧
    0 ≤ pyRound (fl (fl (fl ((h : ℚ) / 24) + fl (fl ((mi : ℚ) / 24) / 60)) + fl (fl (fl (s / 24) / 60) / 60))) 12 := by
  have hq0 : (0 : ℚ) ≤ h := by exact_mod_cast h0
  have hq1 : (h : ℚ) ≤ 23 := by exact_mod_cast h1
  have mq0 : (0 : ℚ) ≤ mi := by exact_mod_cast mi0
  have mq1 : (mi : ℚ) ≤ 59 := by exact_mod_cast mi1
  set a := fl ((h : ℚ) / 24) with ha
  set b1 := fl ((mi : ℚ) / 24) with hb1
  set b2 := fl (b1 / 60) with hb2
  set c1 := fl (s / 24) with hc1
  set c2 := fl (c1 / 60) with hc2
  set c3 := fl (c2 / 60) with hc3
  have a0 : 0 ≤ a := fl_nonneg (by positivity)
  have b10 : 0 ≤ b1 := fl_nonneg (by positivity)
  have b20 : 0 ≤ b2 := fl_nonneg (by positivity)
  have c10 : 0 ≤ c1 := fl_nonneg (by positivity)
  have c20 : 0 ≤ c2 := fl_nonneg (by positivity)
  have c30 : 0 ≤ c3 := fl_nonneg (by positivity)
  have ea := abs_le.mp (fl_err_le (x := (h : ℚ) / 24) (B := 1) (by
    rw [abs_of_nonneg (by positivity)]; linarith))
  have eb1 := abs_le.mp (fl_err_le (x := (mi : ℚ) / 24) (B := 3) (by
    rw [abs_of_nonneg (by positivity)]; linarith))
  rw [← ha] at ea
  rw [← hb1] at eb1
  have eb2 := abs_le.mp (fl_err_le (x := b1 / 60) (B := 1) (by
    rw [abs_of_nonneg (by positivity)]; linarith))
  rw [← hb2] at eb2
  have ec1 := abs_le.mp (fl_err_le (x := s / 24) (B := 3) (by
    rw [abs_of_nonneg (by positivity)]; linarith))
  rw [← hc1] at ec1
  have ec2 := abs_le.mp (fl_err_le (x := c1 / 60) (B := 1) (by
    rw [abs_of_nonneg (by positivity)]; linarith))
  rw [← hc2] at ec2
  have ec3 := abs_le.mp (fl_err_le (x := c2 / 60) (B := 1) (by
    rw [abs_of_nonneg (by positivity)]; linarith))
  rw [← hc3] at ec3
  have es := abs_le.mp (fl_err_le (x := a + b2) (B := 2) (by
    rw [abs_of_nonneg (by positivity)]; linarith))
  set u := fl (a + b2) with hu
  have u0 : 0 ≤ u := fl_nonneg (by positivity)
  have et := abs_le.mp (fl_err_le (x := u + c3) (B := 2) (by
    rw [abs_of_nonneg (by positivity)]; linarith))
  set v := fl (u + c3) with hv
  have v0 : 0 ≤ v := fl_nonneg (by positivity)
  have er := abs_le.mp (pyRound_err v 12)
  rw [abs_of_nonneg v0] at er
  constructor
  · rw [abs_le]
    constructor <;> linarith
  · have := pyRound_mono 12 v0
    have z : pyRound 0 12 = 0 := by have := pyRound_int 0 12 (by norm_num); simpa using this
    linarith

/-- The JD of a time of day, in whole units of 2^-32 days. -/
theorem jdExact_time {y m d : ℤ} (hv : ValidG y m d) (hy0 : 1 ≤ y) (hy1 : y ≤ 4713) {h mi : ℤ} {s : ℚ}
    (h0 : 0 ≤ h) (h1 : h ≤ 23) (mi0 : 0 ≤ mi) (mi1 : mi ≤ 59) (s0 : 0 ≤ s) (s1 : s ≤ 59.9999) :
    ∃ j : ℤ, 0 ≤ j ∧ j < 2 ^ 32 ∧
      jdFromGregorianExact ⟨y, m, d, [(h : ℚ), (mi : ℚ), s]⟩
        = .ok ((dayG y m d : ℚ) + (j : ℚ) / 2 ^ 32 + 1721422.5) ∧
      |(j : ℚ) / 2 ^ 32 - (3600 * h + 60 * mi + s) / 86400| ≤ 1 / 2000000000 := by
  norm_num at s1
  obtain ⟨er, r0⟩ := gtime_err h0 h1 mi0 mi1 s0 (by linarith)
  unfold jdFromGregorianExact dateFromYmdhms
  rw [checkGregorian_ok hv (by omega) (by omega)]
  simp only [pyOk_bind, List.getD_cons_zero, List.getD_cons_succ]
  set r := pyRound (fl (fl (fl ((h : ℚ) / 24) + fl (fl ((mi : ℚ) / 24) / 60)) + fl (fl (fl (s / 24) / 60) / 60))) 12 with hr
  obtain ⟨b1, b2⟩ := dayG_bounds hv
  obtain ⟨m1, m2, d1, d2⟩ := id hv
  rw [pyTake_month m1]
  have D1 := daysInYears_mono hy1
  have D0 := daysInYears_mono (show 0 ≤ y - 1 by omega)
  have e1 : daysInYears 4713 = 1721387 := by decide
  have e0 : daysInYears 0 = 0 := by decide
  obtain ⟨-, -, -, f4, f5, f6, -⟩ := month_facts (gIsLeap y) m (by simp; omega)
  rw [specMonthLen_leap] at d2
  have ep : gregorianEpoch - 1 = 1721422.5 := by unfold gregorianEpoch; norm_num
  have a1 : fl ((daysInYears (y - 1) : ℚ) + (gregorianEpoch - 1)) = daysInYears (y - 1) + 1721422.5 := by
    have := fl_half (2 * daysInYears (y - 1) + 3442845) (by rw [abs_le]; constructor <;> omega)
    push_cast at this
    rw [ep, show (daysInYears (y - 1) : ℚ) + 1721422.5
      = (2 * (daysInYears (y - 1) : ℚ) + 3442845) / 2 by ring, this]
  rw [a1]
  have hq1 : (h : ℚ) ≤ 23 := by exact_mod_cast h1
  have mq1 : (mi : ℚ) ≤ 59 := by exact_mod_cast mi1
  have er := abs_le.mp er
  have dq0 : (1 : ℚ) ≤ d := by exact_mod_cast d1
  have dq1 : (d : ℚ) ≤ 31 := by exact_mod_cast (by omega : d ≤ 31)
  have g1 := abs_le.mp (fl_err_le (x := (d : ℚ) + r) (B := 33) (by
    rw [abs_of_nonneg (by positivity)]; linarith))
  have g1' : (d : ℚ) ≤ fl ((d : ℚ) + r) :=
    le_fl_of_le (by linarith) (isF64_int (by rw [abs_le]; constructor <;> omega))
  set d' := fl ((d : ℚ) + r) with hd'
  have cq0 : (0 : ℚ) ≤ cumDays (gIsLeap y) m := by exact_mod_cast f5
  have cq1 : (cumDays (gIsLeap y) m : ℚ) ≤ 366 := by exact_mod_cast (by omega)
  have g2 := abs_le.mp (fl_err_le (x := (cumDays (gIsLeap y) m : ℚ) + d') (B := 400) (by
    rw [abs_of_nonneg (by linarith)]; linarith))
  have g2' : (cumDays (gIsLeap y) m : ℚ) + d ≤ fl ((cumDays (gIsLeap y) m : ℚ) + d') := by
    have := isF64_int (n := cumDays (gIsLeap y) m + d) (by rw [abs_le]; constructor <;> omega)
    push_cast at this
    exact le_fl_of_le (by linarith) this
  set e := fl ((cumDays (gIsLeap y) m : ℚ) + d') with he
  have Dq0 : (0 : ℚ) ≤ daysInYears (y - 1) := by exact_mod_cast (by omega)
  have Dq1 : (daysInYears (y - 1) : ℚ) ≤ 1721387 := by exact_mod_cast (by omega)
  have NQ : (dayG y m d : ℚ) = daysInYears (y - 1) + cumDays (gIsLeap y) m + d := by
    unfold dayG; push_cast; ring
  have g3 := abs_le.mp (fl_err_le (x := (daysInYears (y - 1) : ℚ) + 1721422.5 + e) (B := 3443300) (by
    rw [abs_of_nonneg (by linarith)]; norm_num; linarith))
  have g3' : (dayG y m d : ℚ) + 1721422.5 ≤ fl ((daysInYears (y - 1) : ℚ) + 1721422.5 + e) := by
    have : IsF64 ((dayG y m d : ℚ) + 1721422.5) := by
      have := fl_half (2 * dayG y m d + 3442845) (by rw [abs_le]; constructor <;> omega)
      push_cast at this
      unfold IsF64
      rw [show (dayG y m d : ℚ) + 1721422.5 = (2 * (dayG y m d : ℚ) + 3442845) / 2 by ring, this]
    apply le_fl_of_le _ this
    rw [NQ]; linarith
  have fx := isF64_fl ((daysInYears (y - 1) : ℚ) + 1721422.5 + e)
  set x := fl ((daysInYears (y - 1) : ℚ) + 1721422.5 + e) with hx
  have N0 : (0 : ℚ) ≤ dayG y m d := by exact_mod_cast (by omega)
  have x0 : (1721422 : ℚ) ≤ x := by norm_num at g3'; linarith
  rw [pyRound12_id fx (by rw [abs_of_nonneg (by linarith)]; norm_num; linarith)]
  obtain ⟨k, hk⟩ := isF64_multiple (e := 20) fx (by
    rw [show pow2 20 = 2 ^ 20 from pow2_nat 20, abs_of_nonneg (by linarith)]; norm_num; linarith)
  have p32 : pow2 (20 - 52) = 1 / 2 ^ 32 := by rw [pow2_eq]; norm_num [zpow_neg]
  rw [p32] at hk
  refine ⟨k - (2 * dayG y m d + 3442845) * 2 ^ 31, ?_⟩
  have ej : ((k - (2 * dayG y m d + 3442845) * 2 ^ 31 : ℤ) : ℚ) / 2 ^ 32
      = x - dayG y m d - 1721422.5 := by
    rw [hk]; push_cast; ring
  have jlo : 0 ≤ k - (2 * dayG y m d + 3442845) * 2 ^ 31 := by
    have : (0 : ℚ) ≤ ((k - (2 * dayG y m d + 3442845) * 2 ^ 31 : ℤ) : ℚ) / 2 ^ 32 := by
      rw [ej]; linarith
    rw [le_div_iff₀ (by norm_num), zero_mul] at this
    exact_mod_cast this
  norm_num at g3 g3' ej
  have jhi : k - (2 * dayG y m d + 3442845) * 2 ^ 31 < 2 ^ 32 := by
    have : ((k - (2 * dayG y m d + 3442845) * 2 ^ 31 : ℤ) : ℚ) / 2 ^ 32 < 1 := by
      push_cast
      norm_num
      rw [ej]; linarith
    rw [div_lt_one (by norm_num)] at this
    exact_mod_cast this
  refine ⟨jlo, jhi, ?_, ?_⟩
  · congr 1
    push_cast
    norm_num
    rw [ej]; ring
  · push_cast
    norm_num
    rw [ej, abs_le]
    constructor <;> linarith

end Verif
