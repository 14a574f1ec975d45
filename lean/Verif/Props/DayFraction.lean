import Verif.Lemmas.GregDate
import Verif.Lemmas.Hms
import Verif.Lemmas.Badi
import Verif.Lemmas.Ordinal
import Verif.Lemmas.Numeric
import Verif.Props.Ordinal
import Verif.Props.JdScale
import Verif.Props.Convert

/-!
# Properties C62 to C64: dates with a fraction of a day, and the check of Gregorian dates
-/

namespace Verif

/-- The fraction of a day of a time of day, as `_HR(h) + _MN(m) + _SEC(s)` computes it. -/
theorem dayFrac_err {h mi s : ℚ} (h0 : 0 ≤ h) (h1 : h ≤ 24) (mi0 : 0 ≤ mi) (mi1 : mi ≤ 60) (s0 : 0 ≤ s) (s1 : s ≤ 60) :
    |fl (fl (fl (h / 24) + fl (fl (mi / 24) / 60)) + fl (fl (fl (s / 24) / 60) / 60)) - (3600 * h + 60 * mi + s) / 86400|
      ≤ 1 / 10 ^ 12 := by
  have a1 := abs_le.mp (fl_err_le (x := h / 24) (B := 1) (by rw [abs_le]; constructor <;> linarith))
  have a2 := abs_le.mp (fl_err_le (x := mi / 24) (B := 4) (by rw [abs_le]; constructor <;> linarith))
  have a3 := abs_le.mp (fl_err_le (x := fl (mi / 24) / 60) (B := 1) (by rw [abs_le]; constructor <;> linarith))
  have a4 := abs_le.mp (fl_err_le (x := s / 24) (B := 4) (by rw [abs_le]; constructor <;> linarith))
  have a5 := abs_le.mp (fl_err_le (x := fl (s / 24) / 60) (B := 1) (by rw [abs_le]; constructor <;> linarith))
  have a6 := abs_le.mp (fl_err_le (x := fl (fl (s / 24) / 60) / 60) (B := 1) (by rw [abs_le]; constructor <;> linarith))
  have a7 := abs_le.mp (fl_err_le (x := fl (h / 24) + fl (fl (mi / 24) / 60)) (B := 4)
    (by rw [abs_le]; constructor <;> linarith))
  have a8 := abs_le.mp (fl_err_le (x := fl (fl (h / 24) + fl (fl (mi / 24) / 60)) + fl (fl (fl (s / 24) / 60) / 60)) (B := 4)
    (by rw [abs_le]; constructor <;> linarith))
  norm_num at *
  rw [abs_le]
  constructor <;> linarith

theorem dayFrac_nonneg {h mi s : ℚ} (h0 : 0 ≤ h) (mi0 : 0 ≤ mi) (s0 : 0 ≤ s) :
    0 ≤ fl (fl (fl (h / 24) + fl (fl (mi / 24) / 60)) + fl (fl (fl (s / 24) / 60) / 60)) := by
  have p1 := fl_nonneg (x := h / 24) (by positivity)
  have p2 := fl_nonneg (x := mi / 24) (by positivity)
  have p3 := fl_nonneg (x := fl (mi / 24) / 60) (by positivity)
  have p4 := fl_nonneg (x := s / 24) (by positivity)
  have p5 := fl_nonneg (x := fl (s / 24) / 60) (by positivity)
  have p6 := fl_nonneg (x := fl (fl (s / 24) / 60) / 60) (by positivity)
  exact fl_nonneg (add_nonneg (fl_nonneg (add_nonneg p1 p3)) p6)

theorem pyRound_nonneg {x : ℚ} (n : ℕ) (h : 0 ≤ x) : 0 ≤ pyRound x n := by
  have := pyRound_mono n h
  have z := pyRound_int 0 n (by norm_num)
  rw [Int.cast_zero] at z
  rwa [z] at this

/-! ## C62 -/

/-- C62: a Gregorian date with a time of day, converted to a date with a fraction and back: the date is the same and the
time of day the same up to three milliseconds. Missing from the full property: the exact time of day, where it is false
(below), and the last hundredth of a second of the day. -/
theorem C62_round_trip_partial (y m d h mi : ℤ) (s : ℚ) (hv : ValidG y m d) (h0 : 0 ≤ h) (h1 : h ≤ 23) (mi0 : 0 ≤ mi)
    (mi1 : mi ≤ 59) (s0 : 0 ≤ s) (s1 : s < 60) (hl : 3600 * h + 60 * mi + s ≤ (86399.99 : ℚ)) :
    ∃ (f : ℚ) (h' mi' : ℤ) (s' : ℚ), dateFromYmdhms ⟨y, m, d, [(h : ℚ), (mi : ℚ), s]⟩ = .ok ⟨y, m, f, []⟩ ∧
      ymdhmsFromDate ⟨y, m, f, []⟩ = .ok ⟨y, m, d, [(h' : ℚ), (mi' : ℚ), s']⟩ ∧
      0 ≤ h' ∧ h' ≤ 23 ∧ 0 ≤ mi' ∧ mi' ≤ 59 ∧ 0 ≤ s' ∧ s' < 60 ∧
      |(3600 * h' + 60 * mi' + s') - (3600 * h + 60 * mi + s)| ≤ 3 / 1000 := by
  have hq0 : (0 : ℚ) ≤ h := by exact_mod_cast h0
  have hq1 : (h : ℚ) ≤ 23 := by exact_mod_cast h1
  have mq0 : (0 : ℚ) ≤ mi := by exact_mod_cast mi0
  have mq1 : (mi : ℚ) ≤ 59 := by exact_mod_cast mi1
  have d1 : (1 : ℚ) ≤ d := by exact_mod_cast hv.2.2.1
  have d2 : (d : ℚ) ≤ 31 := by
    have h2 := hv.2.2.2
    have : d ≤ 31 := le_trans h2 (by unfold specMonthLen; split_ifs <;> omega)
    exact_mod_cast this
  have e1 := abs_le.mp (dayFrac_err hq0 (by linarith) mq0 (by linarith) s0 (by linarith))
  obtain ⟨w, hw⟩ : ∃ w, w = fl (fl (fl ((h : ℚ) / 24) + fl (fl ((mi : ℚ) / 24) / 60)) + fl (fl (fl (s / 24) / 60) / 60)) :=
    ⟨_, rfl⟩
  rw [← hw] at e1
  have w0 : 0 ≤ w := hw ▸ dayFrac_nonneg hq0 mq0 s0
  norm_num at hl
  have e2 := abs_le.mp (pyRound_err w 12)
  have r0 := pyRound_nonneg 12 w0
  rw [abs_of_nonneg w0] at e2
  have e3 := abs_le.mp (fl_err_le (x := d + pyRound w 12) (B := 33) (by
    rw [abs_of_nonneg (by linarith)]; norm_num at e1 e2; linarith))
  have hle : (d : ℚ) ≤ fl (d + pyRound w 12) :=
    le_fl_of_le (by linarith) (fl_int d (by
      have : d ≤ 31 := by exact_mod_cast d2
      have : 1 ≤ d := hv.2.2.1
      rw [abs_le]; constructor <;> omega))
  norm_num at e1 e2 e3
  have hfl : ⌊fl (d + pyRound w 12)⌋ = d := by
    rw [Int.floor_eq_iff]
    exact ⟨hle, by linarith⟩
  have hs := hms_spec (dec := fl (d + pyRound w 12)) (by linarith)
  simp only at hs
  have hfr : Int.fract (fl (d + pyRound w 12)) = fl (d + pyRound w 12) - d := by
    unfold Int.fract
    rw [hfl]
  rw [hfr] at hs
  obtain ⟨b1, b2, b3, b4, b5, b6, b7, b8, -⟩ := hs
  have b7 := abs_le.mp b7
  have b8 := b8 (by norm_num; linarith)
  refine ⟨fl (d + pyRound w 12), _, _, _, ?_, ymdhms_frac hv hfl (isF64_fl _), b1, by omega, b3, by omega, b5, b6, ?_⟩
  · unfold dateFromYmdhms
    rw [checkGregorian_ok hv (by omega) (by omega), pyOk_bind]
    simp only [List.getD_cons_zero, List.getD_cons_succ]
    rw [hw]
  · rw [abs_le]
    constructor <;> linarith

/-- The last second of a leap day. -/
example : ValidG 2024 2 29 ∧ 3600 * (23 : ℤ) + 60 * (59 : ℤ) + (59.5 : ℚ) ≤ (86399.99 : ℚ) :=
  ⟨by decide, by norm_num⟩

/-- C62 is false for the exact time of day: one second past midnight comes back as 1.0008 seconds. -/
theorem C62_seconds_negation :
    ∃ f, dateFromYmdhms ⟨2024, 3, 20, [0, 0, 1]⟩ = .ok ⟨2024, 3, f, []⟩ ∧
      ymdhmsFromDate ⟨2024, 3, f, []⟩ = .ok ⟨2024, 3, 20, [0, 0, fl 1.0008]⟩ := by
  refine ⟨fl (20 + fl 0.000011574074), ?_, ?_⟩ <;> decide +kernel

/-! ## C63 -/

/-- Rounding to six places twice. -/
theorem second_round (x : ℚ) (h0 : 0 ≤ partialHourToMinute x) (h1 : partialHourToMinute x < 60) :
    pyRound (partialHourToMinute x) 6 = partialHourToMinute x := by
  obtain ⟨k, e⟩ := second_form x
  rw [e] at h0 h1 ⊢
  have kb : |(k : ℚ) / 1000000| ≤ 61 := by
    by_contra hc
    push Not at hc
    have := fl_err ((k : ℚ) / 1000000)
    have h2 : |fl ((k : ℚ) / 1000000)| < 60 := by rw [abs_of_nonneg h0]; exact h1
    have h3 := abs_sub_abs_le_abs_sub ((k : ℚ) / 1000000) (fl ((k : ℚ) / 1000000))
    rw [abs_sub_comm] at h3
    linarith
  have he := fl_err_le kb
  unfold pyRound
  rw [roundHalfEven_of_close (n := k)]
  · norm_num
  · rw [abs_le] at he
    rw [abs_lt]
    norm_num at he ⊢
    constructor <;> linarith

theorem checkTail_fraction {C : Cal} {y m d c : ℤ} {f : ℚ} (hm0 : 0 ≤ m) (hm1 : m ≤ 19)
    (hc : C.cycleOf y m = .ok c) (hd0 : 1 ≤ d) (hd1 : d < c) (hf : ⌊f⌋ = d) : C.checkTail y m f [] = .ok () := by
  have g : getHms [] = ((0 : ℚ), (0 : ℚ), (0 : ℚ), 0) := rfl
  rw [Int.floor_eq_iff] at hf
  have d1 : (1 : ℚ) ≤ d := by exact_mod_cast hd0
  have d2 : (d : ℚ) + 1 ≤ c := by exact_mod_cast hd1
  unfold Cal.checkTail
  simp only [g]
  rw [pyAssert_true (by omega), pyOk_bind, hc, pyOk_bind, pyAssert_true (by constructor <;> linarith), pyOk_bind]
  unfold checkValidBadiTime checkFractions
  simp [pyAssert]
  rfl

/-- C63: a long form date with a time of day, converted to a date with a fraction and back: the date is the same and the
time of day the same up to 50 milliseconds (the fraction is rounded to six places). Missing from the full property: the
exact time of day, microseconds and the short form, where it is false (below), and the last tenth of a second. -/
theorem C63_round_trip_partial (A : Astro) (hE : TehranEvening A) (k v w y m d n h mi : ℤ) (s : ℚ)
    (hden : DenotesYear k v w y) (hd : DayNumber (Cal.init A) y m d n) (h0 : 0 ≤ h) (h1 : h ≤ 23) (mi0 : 0 ≤ mi)
    (mi1 : mi ≤ 59) (s0 : 0 ≤ s) (s1 : s < 60) (hl : 3600 * h + 60 * mi + s ≤ (86399.9 : ℚ)) :
    ∃ (f : ℚ) (h' mi' : ℤ) (s' : ℚ),
      (Cal.init A).dateFromKvymdhms ⟨k, v, w, m, d, [(h : ℚ), (mi : ℚ), s]⟩ false = .ok (.long ⟨k, v, w, m, f, []⟩) ∧
      (Cal.init A).kvymdhmsFromBDate ⟨k, v, w, m, f, []⟩ false false false
        = .ok (.long ⟨k, v, w, m, d, [(h' : ℚ), (mi' : ℚ), s']⟩) ∧
      0 ≤ h' ∧ h' ≤ 23 ∧ 0 ≤ mi' ∧ mi' ≤ 59 ∧ 0 ≤ s' ∧ s' < 60 ∧
      |(3600 * h' + 60 * mi' + s') - (3600 * h + 60 * mi + s)| ≤ 50 / 1000 := by
  obtain ⟨c, hc, d0, d1, m0, m1⟩ := dayNumber_cycle hE hd
  obtain ⟨y0, y1, -, -⟩ := dayNumber_year hE hd
  have k0 : -6 ≤ k := by obtain ⟨a1, a2, a3, a4, a5⟩ := hden; omega
  have k1 : k ≤ 5 := by obtain ⟨a1, a2, a3, a4, a5⟩ := hden; omega
  have hq0 : (0 : ℚ) ≤ h := by exact_mod_cast h0
  have hq1 : (h : ℚ) ≤ 23 := by exact_mod_cast h1
  have mq0 : (0 : ℚ) ≤ mi := by exact_mod_cast mi0
  have mq1 : (mi : ℚ) ≤ 59 := by exact_mod_cast mi1
  have dq1 : (1 : ℚ) ≤ d := by exact_mod_cast d0
  have c20 : c ≤ 20 := by
    unfold Cal.cycleOf at hc
    split_ifs at hc with hm
    · cases hl : (Cal.init A).isLeapYear y with
      | error e => rw [hl, pyErr_bind] at hc; cases hc
      | ok b => rw [hl, pyOk_bind] at hc; injection hc with hc; cases b <;> simp at hc <;> omega
    · injection hc with hc
      omega
  have dq2 : (d : ℚ) ≤ 19 := by exact_mod_cast (by omega : d ≤ 19)
  have e1 := abs_le.mp (dayFrac_err hq0 (by linarith) mq0 (by linarith) s0 (by linarith))
  obtain ⟨w, hw⟩ : ∃ w, w = fl (fl (fl ((h : ℚ) / 24) + fl (fl ((mi : ℚ) / 24) / 60)) + fl (fl (fl (s / 24) / 60) / 60)) :=
    ⟨_, rfl⟩
  rw [← hw] at e1
  have w0 : 0 ≤ w := hw ▸ dayFrac_nonneg hq0 mq0 s0
  norm_num at hl
  have e2 := abs_le.mp (pyRound_err w 6)
  have r0 := pyRound_nonneg 6 w0
  rw [abs_of_nonneg w0] at e2
  have e3 := abs_le.mp (fl_err_le (x := d + pyRound w 6) (B := 33) (by
    rw [abs_of_nonneg (by linarith)]; norm_num at e1 e2; linarith))
  have hle : (d : ℚ) ≤ fl (d + pyRound w 6) :=
    le_fl_of_le (by linarith) (fl_int d (by rw [abs_le]; constructor <;> omega))
  norm_num at e1 e2 e3
  have hfl : ⌊fl (d + pyRound w 6)⌋ = d := by
    rw [Int.floor_eq_iff]
    exact ⟨hle, by linarith⟩
  have hs := hms_spec (dec := fl (d + pyRound w 6)) (by linarith)
  simp only at hs
  have hfr : Int.fract (fl (d + pyRound w 6)) = fl (d + pyRound w 6) - d := by
    unfold Int.fract
    rw [hfl]
  rw [hfr] at hs
  obtain ⟨b1, b2, b3, b4, b5, b6, b7, b8, -⟩ := hs
  have b7 := abs_le.mp b7
  have b8 := b8 (by norm_num; linarith)
  refine ⟨fl (d + pyRound w 6), _, _, _, ?_, ?_, b1, by omega, b3, by omega, b5, b6, ?_⟩
  · unfold Cal.dateFromKvymdhms
    rw [checkLong_of_short hden k0 k1, checkTail_hms m0 m1 hc d0 d1 h0 (by omega) mi0 (by omega) s0 s1, pyOk_bind]
    have g : getHms [(h : ℚ), (mi : ℚ), s] = ((h : ℚ), (mi : ℚ), s, 0) := rfl
    simp only [g, Bool.false_eq_true, if_false, zero_div, fl_zero, add_zero]
    rw [← hw, show fl w = w by rw [hw]; exact isF64_fl _]
  · unfold Cal.kvymdhmsFromBDate
    simp only [List.length_nil, gt_iff_lt, lt_self_iff_false, if_false]
    rw [checkLong_of_short hden k0 k1, checkTail_fraction m0 m1 hc d0 d1 hfl, pyOk_bind]
    simp only [if_true, Bool.false_eq_true, if_false]
    rw [hfl]
    have := second_round _ b5 b6
    unfold hmsFromDecimalDay at b5 b6 this ⊢
    simp only at b5 b6 this ⊢
    rw [this]
  · rw [abs_le]
    constructor <;> linarith

/-- A date and a time that meet the hypotheses. -/
example : DenotesYear 1 10 11 182 ∧ DayNumber (Cal.init newYearSun) 182 0 5 739675 ∧
    3600 * (23 : ℤ) + 60 * (59 : ℤ) + (59.5 : ℚ) ≤ (86399.9 : ℚ) :=
  ⟨by unfold DenotesYear; omega, witness_days.1, by norm_num⟩

/-- C63 is false for whole seconds: one second past the start comes back as 1.0368 seconds. -/
theorem C63_seconds_negation :
    ∃ f, (Cal.init sixPm).dateFromKvymdhms ⟨1, 10, 11, 5, 7, [0, 0, 1]⟩ false = .ok (.long ⟨1, 10, 11, 5, f, []⟩) ∧
      ∃ s, (Cal.init sixPm).kvymdhmsFromBDate ⟨1, 10, 11, 5, f, []⟩ false false false
        = .ok (.long ⟨1, 10, 11, 5, 7, [0, 0, s]⟩) ∧ 1.036 < s ∧ s < 1.038 := by
  refine ⟨fl (7 + fl 0.000012), by decide +kernel, fl 1.0368, by decide +kernel, ?_, ?_⟩ <;> decide +kernel

/-- C63 is false for microseconds: half a second past the start becomes half past the day. -/
theorem C63_micro_negation :
    (Cal.init sixPm).dateFromKvymdhms ⟨1, 10, 11, 5, 7, [0, 0, 0, 500000]⟩ false
      = .ok (.long ⟨1, 10, 11, 5, 7.5, []⟩) ∧
    (Cal.init sixPm).kvymdhmsFromBDate ⟨1, 10, 11, 5, 7.5, []⟩ false false false
      = .ok (.long ⟨1, 10, 11, 5, 7, [12, 0, 0]⟩) := by
  constructor <;> decide +kernel

/-- C63 is false for the short form on the nineteenth day of every month: any time of day other than zero moves the date to
the eighteenth day of the next month. -/
theorem C63_last_day_negation (A : Astro) (hE : TehranEvening A) (k v w y m n h mi s : ℤ)
    (hden : DenotesYear k v w y) (hd : DayNumber (Cal.init A) y m 19 n) (h0 : 0 ≤ h) (h1 : h ≤ 23)
    (mi0 : 0 ≤ mi) (mi1 : mi ≤ 59) (s0 : 0 ≤ s) (s1 : s ≤ 59) (hp : 0 < h + mi + s) :
    ∃ f : ℚ, (Cal.init A).dateFromKvymdhms ⟨k, v, w, m, 19, [(h : ℚ), (mi : ℚ), (s : ℚ)]⟩ true
        = .ok (.short ⟨if m = 19 then y + 1 else y, if m = 19 then 1 else m + 1, f, []⟩) ∧ 18 < f ∧ f < 19 := by
  obtain ⟨c, hc, d0, d1, m0, m1⟩ := dayNumber_cycle hE hd
  obtain ⟨y0, y1, -, -⟩ := dayNumber_year hE hd
  have k0 : -6 ≤ k := by obtain ⟨a1, a2, a3, a4, a5⟩ := hden; omega
  have k1 : k ≤ 5 := by obtain ⟨a1, a2, a3, a4, a5⟩ := hden; omega
  have hm : m ≠ 0 := by
    rintro rfl
    unfold Cal.cycleOf at hc
    rw [if_pos rfl] at hc
    cases hl : (Cal.init A).isLeapYear y with
    | error e => rw [hl, pyErr_bind] at hc; cases hc
    | ok b => rw [hl, pyOk_bind] at hc; injection hc with hc; cases b <;> simp at hc <;> omega
  have hq0 : (0 : ℚ) ≤ h := by exact_mod_cast h0
  have hq1 : (h : ℚ) ≤ 23 := by exact_mod_cast h1
  have mq0 : (0 : ℚ) ≤ mi := by exact_mod_cast mi0
  have mq1 : (mi : ℚ) ≤ 59 := by exact_mod_cast mi1
  have sq0 : (0 : ℚ) ≤ s := by exact_mod_cast s0
  have sq1 : (s : ℚ) ≤ 59 := by exact_mod_cast s1
  have tq0 : (1 : ℚ) ≤ 3600 * h + 60 * mi + s := by exact_mod_cast (by omega : 1 ≤ 3600 * h + 60 * mi + s)
  have tq1 : 3600 * (h : ℚ) + 60 * mi + s ≤ 86399 := by exact_mod_cast (by omega : 3600 * h + 60 * mi + s ≤ 86399)
  have e1 := abs_le.mp (dayFrac_err hq0 (by linarith) mq0 (by linarith) sq0 (by linarith))
  obtain ⟨r, hr⟩ : ∃ r, r = fl (fl (fl ((h : ℚ) / 24) + fl (fl ((mi : ℚ) / 24) / 60)) +
    fl (fl (fl ((s : ℚ) / 24) / 60) / 60)) := ⟨_, rfl⟩
  rw [← hr] at e1
  have w0 : 0 ≤ r := hr ▸ dayFrac_nonneg hq0 mq0 sq0
  have e2 := abs_le.mp (pyRound_err r 6)
  rw [abs_of_nonneg w0] at e2
  have r0 := pyRound_nonneg 6 w0
  have e3 := abs_le.mp (fl_err_le (x := 19 + pyRound r 6) (B := 33) (by
    rw [abs_of_nonneg (by linarith)]; norm_num at e1 e2; linarith))
  norm_num at e1 e2 e3
  have g1 : 19 < fl (19 + pyRound r 6) := by linarith
  have g2 : fl (19 + pyRound r 6) < 20 := by linarith
  have e4 := abs_le.mp (fl_err_le (x := fl (19 + pyRound r 6) - 1) (B := 33) (by
    rw [abs_of_nonneg (by linarith)]; linarith))
  norm_num at e4
  have f1 : 18 < fl (fl (19 + pyRound r 6) - 1) := by linarith
  have f2 : fl (fl (19 + pyRound r 6) - 1) < 19 := by linarith
  refine ⟨fl (fl (19 + pyRound r 6) - 1), ?_, f1, f2⟩
  have g : getHms [(h : ℚ), (mi : ℚ), (s : ℚ)] = ((h : ℚ), (mi : ℚ), (s : ℚ), 0) := rfl
  have hly : longYear k v w = y := by obtain ⟨-, -, -, -, e⟩ := hden; unfold longYear; omega
  have hchk : (Cal.init A).checkTail y m 19 [(h : ℚ), (mi : ℚ), (s : ℚ)] = .ok () := by
    have := checkTail_hms (d := 19) (s := (s : ℚ)) m0 m1 hc d0 d1 h0 (by omega) mi0 (by omega) sq0 (by linarith)
    exact_mod_cast this
  unfold Cal.dateFromKvymdhms
  rw [checkLong_of_short hden k0 k1, hchk, pyOk_bind]
  simp only [g, if_true, zero_div, fl_zero, add_zero]
  rw [← hr, show fl r = r by rw [hr]; exact isF64_fl _]
  have ml : (Cal.init A).monthLen y m = .ok 19 := by unfold Cal.monthLen; rw [if_pos (by omega)]
  unfold Cal.shortFromLong
  simp only [show getHms [] = ((0 : ℚ), (0 : ℚ), (0 : ℚ), (0 : ℚ)) from rfl, hly]
  rw [ml, pyOk_bind]
  have n60 : ¬ ((60 : ℚ) ≤ 0) := by norm_num
  have n24 : ¬ ((24 : ℚ) ≤ 0) := by norm_num
  have n45 : ¬ ((19 : ℤ) = 4 ∨ (19 : ℤ) = 5) := by norm_num
  simp only [n60, n24, n45, if_false, if_true]
  rw [if_pos (show ((19 : ℤ) : ℚ) < fl (19 + pyRound r 6) by push_cast; exact g1)]
  simp only []
  have tr : trimHms [(0 : ℚ), 0, 0, 0] = [] := by decide
  have f3 : ⌊fl (fl (19 + pyRound r 6) - 1)⌋ = 18 := by
    rw [Int.floor_eq_iff]; push_cast; constructor <;> linarith
  rw [tr]
  have fin : ∀ y' m' : ℤ, -1843 ≤ y' → y' ≤ 1162 → 1 ≤ m' → m' ≤ 19 →
      (Cal.init A).checkShort ⟨y', m', fl (fl (19 + pyRound r 6) - 1), []⟩ = .ok () := by
    intro y' m' a1 a2 a3 a4
    unfold Cal.checkShort
    rw [pyAssert_true (by simp [minYear, maxYear]; omega), pyOk_bind]
    refine checkTail_fraction (d := 18) (c := 20) (show 0 ≤ m' by omega) a4 ?_ (by omega) (by omega) f3
    unfold Cal.cycleOf
    rw [if_neg (show m' ≠ 0 by omega)]
  by_cases h19 : m = 19
  · subst h19
    simp only [show (19 : ℤ) < 19 + 1 by norm_num, if_true]
    rw [fin (y + 1) 1 (by omega) (by omega) (by omega) (by omega), pyOk_bind]
    rfl
  · rw [if_neg (show ¬ (19 < m + 1) by omega)]
    simp only []
    rw [fin y (m + 1) (by omega) (by omega) (by omega) (by omega), pyOk_bind, if_neg h19, if_neg h19]
    rfl

/-- Noon of the nineteenth day of the fifth month of year 182. -/
example : DenotesYear 1 10 11 182 ∧ ∃ n, DayNumber (Cal.init sixPm) 182 5 19 n :=
  ⟨by unfold DenotesYear; omega, _, (dayNumber_iff sixPm_tehran).mpr
    ⟨by omega, by omega, Or.inl ⟨by omega, by omega, by omega, by omega⟩, rfl⟩⟩

/-! ## C64 -/

/-- The Gregorian check on whole days, hours and minutes. -/
theorem checkGregorian_iff (y m d h mi : ℤ) (s : ℚ) :
    (ValidG y |m| |d| ∧ h ≤ 23 ∧ mi ≤ 59 → checkGregorian ⟨y, m, d, [(h : ℚ), (mi : ℚ), s]⟩ = .ok ()) ∧
    (¬ (ValidG y |m| |d| ∧ h ≤ 23 ∧ mi ≤ 59) →
      checkGregorian ⟨y, m, d, [(h : ℚ), (mi : ℚ), s]⟩ = .error .assertion) := by
  have ed : |(d : ℚ)| = ((|d| : ℤ) : ℚ) := by push_cast; rfl
  unfold checkGregorian
  simp only [ed, Bool.false_eq_true, false_and, if_false, List.getD_cons_zero, List.getD_cons_succ, Int.floor_intCast]
  by_cases hm : 1 ≤ |m| ∧ |m| ≤ 12
  · have hl := monthLen_eq (y := y) hm.1 hm.2
    rw [abs_abs] at hl
    rw [pyAssert_true hm, pyOk_bind, hl]
    by_cases hd : 1 ≤ |d| ∧ |d| ≤ specMonthLen (SpecLeapGregorian y) |m|
    · have hv : ValidG y |m| |d| := ⟨hm.1, hm.2, hd.1, hd.2⟩
      rw [pyAssert_true hd, pyOk_bind]
      by_cases hh : h ≤ 23
      · rw [pyAssert_true (by exact_mod_cast (by omega : h < 24)), pyOk_bind]
        by_cases hmi : mi ≤ 59
        · rw [pyAssert_true (by exact_mod_cast (by omega : mi < 60)), pyOk_bind, pyMod1_int, pyMod1_int, pyMod1_int]
          refine ⟨fun _ => by simp, fun hc => absurd ⟨hv, hh, hmi⟩ hc⟩
        · rw [pyAssert_false (by push Not; exact_mod_cast (by omega : 60 ≤ mi)), pyErr_bind]
          exact ⟨fun hc => absurd hc.2.2 hmi, fun _ => rfl⟩
      · rw [pyAssert_false (by push Not; exact_mod_cast (by omega : 24 ≤ h)), pyErr_bind]
        exact ⟨fun hc => absurd hc.2.1 hh, fun _ => rfl⟩
    · rw [pyAssert_false hd, pyErr_bind]
      exact ⟨fun hc => absurd ⟨hc.1.2.2.1, hc.1.2.2.2⟩ hd, fun _ => rfl⟩
  · rw [pyAssert_false hm, pyErr_bind]
    exact ⟨fun hc => absurd ⟨hc.1.1, hc.1.2.1⟩ hm, fun _ => rfl⟩

/-- C64 for non negative fields and seconds below 60: `date_from_ymdhms` accepts exactly the dates of the Gregorian
calendar with a time of day before 24:00, and raises AssertionError for the others. Missing from the full property:
negative fields and seconds from 60, where it is false (below). -/
theorem C64_accepts_partial (y m d h mi : ℤ) (s : ℚ) (m0 : 0 ≤ m) (d0 : 0 ≤ d) (h0 : 0 ≤ h) (mi0 : 0 ≤ mi) (s0 : 0 ≤ s)
    (s1 : s < 60) :
    (ValidG y m d ∧ (0 ≤ h ∧ h ≤ 23) ∧ (0 ≤ mi ∧ mi ≤ 59) ∧ 0 ≤ s ∧ s < 60 ↔
      ∃ g, dateFromYmdhms ⟨y, m, d, [(h : ℚ), (mi : ℚ), s]⟩ = .ok g) ∧
    ((¬ ∃ g, dateFromYmdhms ⟨y, m, d, [(h : ℚ), (mi : ℚ), s]⟩ = .ok g) →
      dateFromYmdhms ⟨y, m, d, [(h : ℚ), (mi : ℚ), s]⟩ = .error .assertion) := by
  have hc := checkGregorian_iff y m d h mi s
  rw [abs_of_nonneg m0, abs_of_nonneg d0] at hc
  unfold dateFromYmdhms
  by_cases hn : ValidG y m d ∧ h ≤ 23 ∧ mi ≤ 59
  · rw [hc.1 hn, pyOk_bind]
    exact ⟨⟨fun _ => ⟨_, rfl⟩, fun _ => ⟨hn.1, ⟨h0, hn.2.1⟩, ⟨mi0, hn.2.2⟩, s0, s1⟩⟩, fun h => absurd ⟨_, rfl⟩ h⟩
  · rw [hc.2 hn, pyErr_bind]
    exact ⟨⟨fun h => absurd ⟨h.1, h.2.1.2, h.2.2.1.2⟩ hn, fun ⟨g, hg⟩ => by cases hg⟩, fun _ => rfl⟩

/-- 29 February 1900 is refused, 29 February 2000 accepted. -/
example : ¬ ValidG 1900 2 29 ∧ ValidG 2000 2 29 := by decide +kernel

/-- C64 is false for signs and seconds: the signs of month and day, negative hours and minutes and any number of seconds
pass the check. -/
theorem C64_signs_negation (y m d h mi : ℤ) (s : ℚ) (hv : ValidG y m d) (h1 : h ≤ 23) (mi1 : mi ≤ 59) :
    (∃ g, dateFromYmdhms ⟨y, -m, d, [(h : ℚ), (mi : ℚ), s]⟩ = .ok g) ∧
    (∃ g, dateFromYmdhms ⟨y, m, -d, [(h : ℚ), (mi : ℚ), s]⟩ = .ok g) := by
  obtain ⟨a1, a2, a3, a4⟩ := hv
  have em : |m| = m := abs_of_nonneg (by omega)
  have ed : |d| = d := abs_of_nonneg (by omega)
  constructor
  · unfold dateFromYmdhms
    rw [(checkGregorian_iff y (-m) d h mi s).1 ⟨by rw [abs_neg, em, ed]; exact ⟨a1, a2, a3, a4⟩, h1, mi1⟩]
    exact ⟨_, rfl⟩
  · have := (checkGregorian_iff y m (-d) h mi s).1 ⟨by rw [abs_neg, em, ed]; exact ⟨a1, a2, a3, a4⟩, h1, mi1⟩
    push_cast at this
    unfold dateFromYmdhms
    rw [this]
    exact ⟨_, rfl⟩

/-- An hour of -30 and 100000 seconds meet the hypotheses. -/
example : ValidG 2024 2 29 ∧ (-30 : ℤ) ≤ 23 := by decide +kernel

/-- C64: 20 March at 86400 seconds past midnight is taken for 21 March, and at minus 24 hours for 19 March. -/
theorem C64_other_day_negation :
    jdFromGregorianExact ⟨2024, 3, 20, [0, 0, 86400]⟩ = .ok 2460388.5 ∧
    jdFromGregorianExact ⟨2024, 3, 21, []⟩ = .ok 2460388.5 ∧
    jdFromGregorianExact ⟨2024, 3, 20, [-24, 0, 0]⟩ = .ok 2460386.5 ∧
    jdFromGregorianExact ⟨2024, 3, 19, []⟩ = .ok 2460386.5 := by
  decide +kernel

end Verif
