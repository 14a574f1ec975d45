import Verif.Lemmas.Forms
import Verif.Spec.Witness

/-!
# Properties C03, C04, C05: fields of a date
-/

namespace Verif

/-! ## C03 -/

/-- C03. For a calendar whose leap year test answers `leap` for year `y`: the reader sends day-of-year
numbers `1 .. 365` (or 366) to the days of the year in calendar order; the writer of
`jd_from_badi_date` and the writer of the ordinals send each (month, day) of the year to its
number; both are mutually inverse. -/
theorem C03_day_of_year (C : Cal) (y : ℤ) (leap : Bool) (hl : C.isLeapYear y = .ok leap) :
    (specYear leap).length = (if leap then 366 else 365) ∧
    (∀ n : ℕ, 1 ≤ n → n ≤ (if leap then 366 else 365) →
      (specYear leap)[n - 1]? = some (monthDayFromDoy n (if leap then 5 else 4))) ∧
    (∀ n : ℤ, 1 ≤ n → n ≤ (if leap then 366 else 365) → ∀ m d : ℤ,
      monthDayFromDoy n (if leap then 5 else 4) = (m, d) →
      ValidMD leap m d ∧ ∃ b, C.daysBefore y m = .ok b ∧ C.daysBeforeMonth y m = .ok b ∧
        b + d = n) ∧
    (∀ m d : ℤ, ValidMD leap m d → ∃ b, C.daysBefore y m = .ok b ∧
      C.daysBeforeMonth y m = .ok b ∧ 1 ≤ b + d ∧ b + d ≤ (if leap then 366 else 365) ∧
      monthDayFromDoy (b + d) (if leap then 5 else 4) = (m, d)) := by
  have hlen : (specYear leap).length = (if leap then 366 else 365) := by
    cases leap <;> decide +kernel
  refine ⟨hlen, ?_, ?_, ?_⟩
  · intro n h0 h1
    have := monthDay_spec leap (n - 1) (by rw [hlen]; omega)
    rw [this]
    have : ((n - 1 : ℕ) : ℤ) + 1 = n := by omega
    rw [this]; rfl
  · intro n h0 h1 m d hmd
    unfold monthDayFromDoy at hmd
    unfold ValidMD Cal.daysBefore Cal.daysBeforeMonth
    by_cases c1 : n ≤ 342
    · rw [if_pos c1] at hmd
      obtain ⟨rfl, rfl⟩ := Prod.mk.inj hmd
      have m0 : 1 ≤ (n - 1) / 19 + 1 := by omega
      have m1 : (n - 1) / 19 + 1 ≤ 18 := by omega
      refine ⟨by left; omega, ((n - 1) / 19) * 19, ?_, ?_, by omega⟩
      · rw [if_neg (by omega), if_pos (by omega)]; congr 1; ring
      · by_cases h2 : (n - 1) / 19 + 1 < 2
        · simp only [if_pos h2]
          have : (n - 1) / 19 = 0 := by omega
          simp [this]
        · simp only [if_neg h2, if_pos (show 1 < (n - 1) / 19 + 1 ∧ (n - 1) / 19 + 1 < 19 by omega)]
          rw [if_pos (by omega)]; congr 1; ring
    · rw [if_neg c1] at hmd
      cases leap <;> simp only [Bool.false_eq_true, if_false, if_true] at hmd h1 ⊢
      · by_cases c2 : n ≤ 342 + 4
        · rw [if_pos c2] at hmd
          obtain ⟨rfl, rfl⟩ := Prod.mk.inj hmd
          exact ⟨by right; omega, 342, by simp, by simp, by omega⟩
        · rw [if_neg c2] at hmd
          obtain ⟨rfl, rfl⟩ := Prod.mk.inj hmd
          refine ⟨by left; omega, 346, ?_, ?_, by omega⟩ <;>
            simp [hl, bind, Except.bind]
      · by_cases c2 : n ≤ 342 + 5
        · rw [if_pos c2] at hmd
          obtain ⟨rfl, rfl⟩ := Prod.mk.inj hmd
          exact ⟨by right; omega, 342, by simp, by simp, by omega⟩
        · rw [if_neg c2] at hmd
          obtain ⟨rfl, rfl⟩ := Prod.mk.inj hmd
          refine ⟨by left; omega, 347, ?_, ?_, by omega⟩ <;>
            simp [hl, bind, Except.bind]
  · intro m d hv
    unfold ValidMD at hv
    unfold Cal.daysBefore Cal.daysBeforeMonth monthDayFromDoy
    rcases hv with ⟨m0, m1, d0, d1⟩ | ⟨rfl, d0, d1⟩
    · by_cases h19 : m = 19
      · subst h19
        cases leap
        · refine ⟨346, by simp [hl, bind, Except.bind], by simp [hl, bind, Except.bind],
            by omega, by simp; omega, ?_⟩
          simp only [Bool.false_eq_true, if_false]
          rw [if_neg (by omega), if_neg (by omega)]
          congr 1; omega
        · refine ⟨347, by simp [hl, bind, Except.bind], by simp [hl, bind, Except.bind],
            by omega, by simp; omega, ?_⟩
          simp only [if_true]
          rw [if_neg (by omega), if_neg (by omega)]
          congr 1; omega
      · refine ⟨(m - 1) * 19, ?_, ?_, by omega, by split_ifs <;> omega, ?_⟩
        · rw [if_neg (by omega), if_pos (by omega)]
        · by_cases h2 : m < 2
          · have : m = 1 := by omega
            subst this; simp
          · simp only [if_neg h2, if_pos (show 1 < m ∧ m < 19 by omega)]
            rw [if_pos (by omega)]
        · rw [if_pos (by omega)]
          congr 1 <;> omega
    · refine ⟨342, by simp, by simp, by omega, by split_ifs at d1 ⊢ <;> omega, ?_⟩
      rw [if_neg (by omega), if_pos (by split_ifs at d1 ⊢ <;> omega)]
      congr 1; omega

/-- C03 is met by the calendar of the library: leap year 182 (366 days) and common year 181. -/
example : ∃ l1 l2, (Cal.init sixPm).isLeapYear 181 = .ok l1 ∧
    (Cal.init sixPm).isLeapYear 182 = .ok l2 ∧ l1 ≠ l2 := by
  refine ⟨_, _, init_isLeap sixPm_tehran (by omega) (by omega),
    init_isLeap sixPm_tehran (by omega) (by omega), ?_⟩
  decide +kernel

/-! ## C04 -/

/-- C04. Every short form date accepted by the library (whole day number, time of day before hour 24)
has a long form; the long form denotes the same year and is the only one that does; month, day and
time are kept; and converting it back gives the same date. -/
theorem C04_short_long_short (C : Cal) (y m d : ℤ) (t : List ℚ)
    (hok : C.checkShort ⟨y, m, d, t⟩ = .ok ()) (hh : t.getD 0 0 < 24) (trim trim' : Bool) :
    ∃ k v w : ℤ, ∃ t1 t2 : List ℚ,
      C.longFromShort ⟨y, m, d, t⟩ trim = .ok ⟨k, v, w, m, d, t1⟩ ∧
      C.shortFromLong ⟨k, v, w, m, d, t1⟩ trim' = .ok ⟨y, m, d, t2⟩ ∧
      getHms t1 = getHms t ∧ getHms t2 = getHms t ∧
      DenotesYear k v w y ∧
      (∀ k' v' w', DenotesYear k' v' w' y → k' = k ∧ v' = v ∧ w' = w) := by
  obtain ⟨h0, h1, htail⟩ := checkShort_inv hok
  simp only at h0 h1 htail
  obtain ⟨hden, -, -⟩ := kvy_range y (by omega) (by omega)
  have hl := longFromShort_ok C ⟨y, m, d, t⟩ trim (by simp; omega) (by simp; omega)
  rw [show C.checkTail y m (d : ℚ) t = .ok () from htail, pyOk_bind] at hl
  have ht1 := getHms_time t trim
  set t1 := (if trim then trimHms [(getHms t).1, (getHms t).2.1, (getHms t).2.2.1, (getHms t).2.2.2]
      else [(getHms t).1, (getHms t).2.1, (getHms t).2.2.1, (getHms t).2.2.2]) with ht1d
  have hs := shortFromLong_ok (C := C) (t := t1) (m := m) (d := d) trim' hden h0 h1
    (by rw [checkTail_getHms ht1]; exact htail) (by rw [ht1]; exact hh)
  refine ⟨_, _, _, t1, _, hl, hs, ht1, ?_, hden, ?_⟩
  · rw [getHms_time, ht1]
  · intro k' v' w' h'
    unfold DenotesYear at h' hden
    simp only
    omega

/-- Witness for C04: a date with a time of day in the last year of a Kull-i-Shay. -/
example : (Cal.init sixPm).checkShort ⟨361, 19, ((19 : ℤ) : ℚ), [23, 59, 59.5]⟩ = .ok () := by
  unfold Cal.checkShort Cal.checkTail Cal.cycleOf
  decide +kernel

/-- C04, years outside the calendar. A short form date whose year the long form cannot represent is
refused, not converted into something else. -/
theorem C04_far_years_refused (C : Cal) (y m d : ℤ) (t : List ℚ) (trim : Bool)
    (h : y ≤ -2527 ∨ 1806 ≤ y) : C.longFromShort ⟨y, m, d, t⟩ trim = .error .assertion := by
  have hk := kvy_far h
  unfold Cal.longFromShort Cal.checkLong
  simp only []
  rw [pyAssert_false (by simp [kullishayMin, kullishayMax]; omega), pyErr_bind, pyErr_bind]

/-! ## C05 -/

/-- Seconds since the start of the given day, as the time fields say. -/
def specSeconds (t : List ℚ) : ℚ :=
  3600 * t.getD 0 0 + 60 * t.getD 1 0 + t.getD 2 0 + t.getD 3 0 / 1000000

/-- C05 is false: with the hour at its upper limit 24 the day is advanced by one but the hour only
drops to 23, so the result is 23 hours late. -/
theorem C05_hour_24_negation :
    ∃ (l : LongT) (s : ShortT), (Cal.init sixPm).checkLong l = .ok () ∧
      (Cal.init sixPm).shortFromLong l false = .ok s ∧ s.m = l.m ∧ s.d = l.d + 1 ∧ specSeconds s.t ≠ specSeconds l.t - 86400 := by
  refine ⟨⟨1, 10, 10, 1, 1, [24, 0, 0, 0]⟩, ⟨181, 1, 2, [23, 0, 0, 0]⟩, ?_, ?_, rfl, by norm_num, ?_⟩
  · decide +kernel
  · decide +kernel
  · norm_num [specSeconds]

/-- C05 is false: an hour of 24 on the last day of month 18 leads to day 19 of month 19 (the day is
not reset and Ayyám-i-Há is skipped). -/
theorem C05_month_18_negation :
    (Cal.init sixPm).checkLong ⟨1, 10, 10, 18, 19, [24, 0, 0, 0]⟩ = .ok () ∧
    (Cal.init sixPm).shortFromLong ⟨1, 10, 10, 18, 19, [24, 0, 0, 0]⟩ false =
      .ok ⟨181, 19, 19, [23, 0, 0, 0]⟩ := by
  constructor <;> decide +kernel

/-- C05 is false for a fractional day in the last day of a month: day 19.5 of month 1 becomes day
18.5 of month 2 although nothing overflows. -/
theorem C05_fractional_day_negation :
    (Cal.init sixPm).checkLong ⟨1, 10, 10, 1, 19.5, []⟩ = .ok () ∧
    (Cal.init sixPm).shortFromLong ⟨1, 10, 10, 1, 19.5, []⟩ false =
      .ok ⟨181, 2, 18.5, [0, 0, 0, 0]⟩ := by
  constructor <;> decide +kernel

/-- C05, partial: for valid long form dates with a whole day number and a time of day before hour
24 the short form denotes the same year, month, day and the same second of the day. Missing: hour
24 (refuted above) and fractional days (refuted above). -/
theorem C05_long_short_partial (C : Cal) (k v w m d : ℤ) (t : List ℚ)
    (hok : C.checkLong ⟨k, v, w, m, d, t⟩ = .ok ())
    (hr : -1843 ≤ 361 * (k - 1) + 19 * (v - 1) + w ∧ 361 * (k - 1) + 19 * (v - 1) + w ≤ 1162)
    (hh : t.getD 0 0 < 24) (trim : Bool) :
    ∃ (y : ℤ) (t' : List ℚ), C.shortFromLong ⟨k, v, w, m, d, t⟩ trim = .ok ⟨y, m, d, t'⟩ ∧
      DenotesYear k v w y ∧ specSeconds t' = specSeconds t := by
  unfold Cal.checkLong at hok
  by_cases hk : kullishayMin - 1 ≤ k ∧ k ≤ kullishayMax + 1
  swap
  · rw [pyAssert_false hk, pyErr_bind] at hok; cases hok
  rw [pyAssert_true hk, pyOk_bind] at hok
  by_cases hv : 1 ≤ v ∧ v < 20
  swap
  · rw [pyAssert_false hv, pyErr_bind] at hok; cases hok
  rw [pyAssert_true hv, pyOk_bind] at hok
  by_cases hw : 1 ≤ w ∧ w < 20
  swap
  · rw [pyAssert_false hw, pyErr_bind] at hok; cases hok
  rw [pyAssert_true hw, pyOk_bind] at hok
  simp only at hok
  have hden : DenotesYear k v w (longYear k v w) := by unfold DenotesYear longYear; omega
  have hs := shortFromLong_ok (C := C) (t := t) (m := m) (d := d) trim hden
    (by unfold longYear; omega) (by unfold longYear; omega) hok hh
  refine ⟨_, _, hs, hden, ?_⟩
  have key : ∀ t : List ℚ, specSeconds t
      = 3600 * (getHms t).1 + 60 * (getHms t).2.1 + (getHms t).2.2.1 + (getHms t).2.2.2 / 1000000 :=
    fun _ => rfl
  rw [key, key, getHms_time]

/-- Witness for C05: last second of the last day of month 18. -/
example : (Cal.init sixPm).checkLong ⟨1, 10, 10, 18, ((19 : ℤ) : ℚ), [23, 59, 59]⟩ = .ok () := by
  decide +kernel

end Verif
