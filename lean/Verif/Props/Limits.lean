import Verif.Model.Limits
import Verif.Props.Date
import Verif.Props.Ordinal
import Verif.Props.DateTime

/-!
# Property C89: the limits `min` and `max` of the classes
-/

namespace Verif

theorem dateMin_day {A : Astro} (hE : TehranEvening A) :
    IsDay (Cal.init A) dateMin 78 ∧ IsDay (Cal.init A) dateLongMin 78 := by
  have h : DayNumber (Cal.init A) (-1842) 1 1 78 := by
    rw [dayNumber_iff hE, ysInt_m1842]
    exact ⟨by norm_num, by norm_num, Or.inl ⟨by norm_num, by norm_num, by norm_num, by norm_num⟩, by simp [dBefore]⟩
  exact ⟨h, -1842, by unfold DenotesYear; omega, h⟩

theorem dateMax_day {A : Astro} (hE : TehranEvening A) :
    IsDay (Cal.init A) dateMax 1097267 ∧ IsDay (Cal.init A) dateLongMax 1097267 := by
  have h : DayNumber (Cal.init A) 1161 19 19 1097267 := by
    rw [dayNumber_iff hE]
    refine ⟨by norm_num, by norm_num, Or.inl ⟨by norm_num, by norm_num, by norm_num, by norm_num⟩, ?_⟩
    have := leapOf_len (y := 1161) (by norm_num) (by norm_num)
    rw [show (1161 : ℤ) + 1 = 1162 from rfl, ysInt_1162] at this
    revert this
    unfold dBefore
    cases leapOf 1161 <;> simp <;> omega
  exact ⟨h, 1161, by unfold DenotesYear; omega, h⟩

/-- C89, the limits of `date`: they exist, `min` and `longmin` are the first day of the year -1842 and `max` and `longmax`
the last day of the year 1161, so that every day of the documented years is between them. -/
theorem C89_date_days (A : Astro) (hE : TehranEvening A) :
    ((Cal.init A).newDate dateMin = .ok dateMin ∧ (Cal.init A).newDate dateMax = .ok dateMax ∧
      (Cal.init A).newDate dateLongMin = .ok dateLongMin ∧ (Cal.init A).newDate dateLongMax = .ok dateLongMax) ∧
    ∃ a b, IsDay (Cal.init A) dateMin a ∧ IsDay (Cal.init A) dateLongMin a ∧ IsDay (Cal.init A) dateMax b ∧
      IsDay (Cal.init A) dateLongMax b ∧
      ∀ o y n, IsDay (Cal.init A) o n → YearOf o y → -1842 ≤ y → a ≤ n ∧ n ≤ b := by
  obtain ⟨m1, m2⟩ := dateMin_day hE
  obtain ⟨m3, m4⟩ := dateMax_day hE
  refine ⟨⟨newDate_ok hE m1, newDate_ok hE m3, newDate_ok hE m2, newDate_ok hE m4⟩, 78, 1097267, m1, m2, m3, m4, ?_⟩
  intro o y n h hy y0
  have key : ∀ m d, DayNumber (Cal.init A) y m d n → 78 ≤ n ∧ n ≤ 1097267 := by
    intro m d h
    obtain ⟨-, y1, hv, e⟩ := (dayNumber_iff hE).mp h
    have h1 := dBefore_range hv
    have h2 := leapOf_len (y := y) (by omega) y1
    have h3 := ysInt_mono (a := -1842) (b := y) (by norm_num) y0 (by omega)
    have h4 := ysInt_mono (a := y + 1) (b := 1162) (by omega) (by omega) (by norm_num)
    rw [ysInt_m1842] at h3
    rw [ysInt_1162] at h4
    constructor
    · omega
    · split_ifs at h1 h2 <;> omega
  cases o with
  | short y' m d =>
    obtain rfl : y' = y := hy
    exact key m d h
  | long k v w m d =>
    obtain ⟨y', hden, hd⟩ := h
    have : y' = y := by
      have e : DenotesYear k v w y := hy
      unfold DenotesYear at hden e
      omega
    subst this
    exact key m d hd

/-- The fifth intercalary day of the year 182. -/
example : TehranEvening newYearSun ∧ IsDay (Cal.init newYearSun) (.short 182 0 5) 739675 ∧ YearOf (.short 182 0 5) 182 ∧
    (-1842 : ℤ) ≤ 182 := ⟨newYearSun_tehran, witness_days.1, rfl, by norm_num⟩

/-- C89, partial: by the comparisons of the class every date of the years -1842 to 1161 is between `min` and `max` of its
form. Missing: the days of Ayyám-i-Há of the year -1842 and the years -1843 and 1162, which the constructor accepts; see
the negations. -/
theorem C89_date_order_partial (A : Astro) (hE : TehranEvening A) (o : DateObj) (y n : ℤ) (h : IsDay (Cal.init A) o n)
    (hy : YearOf o y) (y0 : -1842 ≤ y) (hm : y ≠ -1842 ∨ o.month ≠ 0) :
    dateLe (if o.isShort then dateMin else dateLongMin) o = .ok true ∧
    dateLe o (if o.isShort then dateMax else dateLongMax) = .ok true := by
  cases o with
  | short y' m d =>
    obtain rfl : y' = y := hy
    obtain ⟨-, y1, hv, -⟩ := (dayNumber_iff hE).mp h
    obtain ⟨m0, m1, d0, d1⟩ : 0 ≤ m ∧ m ≤ 19 ∧ 1 ≤ d ∧ d ≤ 19 := by
      rcases hv with ⟨a, b, c, e⟩ | ⟨a, b, c⟩ <;> [omega; (split_ifs at c <;> omega)]
    have hm' : y' ≠ -1842 ∨ m ≠ 0 := hm
    have e1 : tupleCmp [-1842, 1, 1] [y', m, d] ≤ 0 := by simp only [tupleCmp]; split_ifs <;> omega
    have e2 : tupleCmp [y', m, d] [1161, 19, 19] ≤ 0 := by simp only [tupleCmp]; split_ifs <;> omega
    constructor
    · simp [DateObj.isShort, dateLe, dateMin, dateCmp, DateObj.ymd, Except.map, e1]
    · simp [DateObj.isShort, dateLe, dateMax, dateCmp, DateObj.ymd, Except.map, e2]
  | long k v w m d =>
    obtain ⟨y', hden, hd⟩ := h
    have hden' : DenotesYear k v w y := hy
    have : y' = y := by unfold DenotesYear at hden hden'; omega
    subst this
    obtain ⟨-, y1, hv, -⟩ := (dayNumber_iff hE).mp hd
    obtain ⟨m0, m1, d0, d1⟩ : 0 ≤ m ∧ m ≤ 19 ∧ 1 ≤ d ∧ d ≤ 19 := by
      rcases hv with ⟨a, b, c, e⟩ | ⟨a, b, c⟩ <;> [omega; (split_ifs at c <;> omega)]
    have hm' : y' ≠ -1842 ∨ m ≠ 0 := hm
    obtain ⟨v0, v1, w0, w1, e⟩ := hden
    have e1 : tupleCmp [-5, 18, 1, 1, 1] [k, v, w, m, d] ≤ 0 := by simp only [tupleCmp]; split_ifs <;> omega
    have e2 : tupleCmp [k, v, w, m, d] [4, 5, 2, 19, 19] ≤ 0 := by simp only [tupleCmp]; split_ifs <;> omega
    constructor
    · simp [DateObj.isShort, dateLe, dateLongMin, dateCmp, Except.map, e1]
    · simp [DateObj.isShort, dateLe, dateLongMax, dateCmp, Except.map, e2]

example : IsDay (Cal.init newYearSun) (.short 182 0 5) 739675 ∧ YearOf (.short 182 0 5) 182 ∧
    (-1842 : ℤ) ≤ 182 ∧ ((182 : ℤ) ≠ -1842 ∨ (DateObj.short 182 0 5).month ≠ 0) :=
  ⟨witness_days.1, rfl, by norm_num, Or.inl (by norm_num)⟩

/-- C89 is false for Ayyám-i-Há of the year -1842: these dates are in the documented years and more than 300 days after
`date.min`, and are less than `date.min`. -/
theorem C89_ayyam_negation (A : Astro) (hE : TehranEvening A) (d : ℤ) (d0 : 1 ≤ d) (d1 : d ≤ 4) :
    (Cal.init A).newDate (.short (-1842) 0 d) = .ok (.short (-1842) 0 d) ∧ dateLt (.short (-1842) 0 d) dateMin = .ok true ∧
    ∃ n n', IsDay (Cal.init A) dateMin n ∧ IsDay (Cal.init A) (.short (-1842) 0 d) n' ∧ n + 300 < n' := by
  have h : IsDay (Cal.init A) (.short (-1842) 0 d) (419 + d) := by
    show DayNumber (Cal.init A) (-1842) 0 d (419 + d)
    rw [dayNumber_iff hE, ysInt_m1842]
    refine ⟨by norm_num, by norm_num, Or.inr ⟨rfl, d0, by split_ifs <;> omega⟩, ?_⟩
    simp [dBefore]
    omega
  refine ⟨newDate_ok hE h, ?_, 78, _, (dateMin_day hE).1, h, by omega⟩
  simp [dateLt, dateMin, dateCmp, DateObj.ymd, Except.map, tupleCmp]

example : (1 : ℤ) ≤ 4 ∧ (4 : ℤ) ≤ 4 := ⟨by norm_num, le_refl _⟩

/-- C89 is false outside the documented years: the constructor accepts the dates of the year -1843, which are before
`date.min`, and those of the year 1162, which are after `date.max`. -/
theorem C89_outside_negation (A : Astro) (hE : TehranEvening A) (m d : ℤ) (m0 : 1 ≤ m) (m1 : m ≤ 19) (d0 : 1 ≤ d) (d1 : d ≤ 19) :
    ((Cal.init A).newDate (.short (-1843) m d) = .ok (.short (-1843) m d) ∧ dateLt (.short (-1843) m d) dateMin = .ok true) ∧
    ((Cal.init A).newDate (.short 1162 m d) = .ok (.short 1162 m d) ∧ dateGt (.short 1162 m d) dateMax = .ok true) := by
  refine ⟨⟨?_, ?_⟩, ?_, ?_⟩
  · exact C22_early_year_negation A m d _ (init_isLeap hE (by omega) (by omega)) (Or.inl ⟨m0, m1, d0, d1⟩)
  · simp [dateLt, dateMin, dateCmp, DateObj.ymd, Except.map, tupleCmp]
  · exact (C22_outside_years_negation A hE (.short 1162 m d) 1162 m d rfl ⟨rfl, rfl, rfl⟩).1 m0 m1 d0 d1
  · simp [dateGt, dateMax, dateCmp, DateObj.ymd, Except.map, tupleCmp]

example : (1 : ℤ) ≤ 19 ∧ (19 : ℤ) ≤ 19 := ⟨by norm_num, le_refl _⟩

/-- C89 is false for arithmetic at the upper limit: from `date.max` no day of its own year can be reached, itself
included; the addition raises AssertionError. -/
theorem C89_max_arithmetic_negation (A : Astro) (hE : TehranEvening A) (hO : NewYearOrder (Cal.init A)) (t : TimeDelta)
    (t0 : -365 < t.days) (t1 : t.days ≤ 0) : (Cal.init A).addDelta dateMax t = .error .assertion := by
  rw [addDelta_eq hE hO (dateMax_day hE).1 t (by omega) (by omega)]
  exact fromOrdinal_late hE (by omega) (by omega) _

example : (-365 : ℤ) < (TimeDelta.ofDays (-3)).days ∧ (TimeDelta.ofDays (-3)).days ≤ 0 := by decide

/-- C89: before `date.min` and after `date.max` addition raises OverflowError. -/
theorem C89_overflow (A : Astro) (hE : TehranEvening A) (hO : NewYearOrder (Cal.init A)) (t : TimeDelta) :
    (t.days < 0 → (Cal.init A).addDelta dateMin t = .error .overflow) ∧
    (0 < t.days → (Cal.init A).addDelta dateMax t = .error .overflow) := by
  constructor
  · intro h
    unfold Cal.addDelta
    rw [toOrdinal_ok hE hO (dateMin_day hE).1, pyOk_bind, if_neg (by unfold daysBefore1stYear maxOrdinal; omega)]
  · intro h
    unfold Cal.addDelta
    rw [toOrdinal_ok hE hO (dateMax_day hE).1, pyOk_bind, if_neg (by unfold daysBefore1stYear maxOrdinal; omega)]

example : (TimeDelta.ofDays (-1)).days < 0 ∧ 0 < (TimeDelta.ofDays 1).days := by decide

/-- C89, partial: every naive time up to 24:00:03 is between `time.min` and `time.max`. Missing: later times at hour 24,
which the constructor accepts; see the negation. -/
theorem C89_time_partial (t : TimeObj) (hv : ValidTime t) (hz : t.tz = none)
    (h : t.h * 3600000000 + t.mi * 60000000 + t.s * 1000000 + t.us ≤ 86403000000) (hs : t.s ≤ 59) :
    newTime timeMin = .ok timeMin ∧ newTime timeMax = .ok timeMax ∧ timeLe timeMin t = .ok true ∧ timeLe t timeMax = .ok true := by
  obtain ⟨h0, h1, m0, m1, s0, s1, u0, u1, -⟩ := hv
  have so : SameOffset timeMin.tz t.tz := by rw [hz]; trivial
  have so' : SameOffset t.tz timeMax.tz := by rw [hz]; trivial
  have e1 : tupleCmp [0, 0, 0, 0] [t.h, t.mi, t.s, t.us] ≤ 0 := by simp only [tupleCmp]; split_ifs <;> omega
  have e2 : tupleCmp [t.h, t.mi, t.s, t.us] [24, 0, 3, 0] ≤ 0 := by simp only [tupleCmp]; split_ifs <;> omega
  refine ⟨by decide, by decide, ?_, ?_⟩
  · unfold timeLe
    rw [timeCmp_same so]
    simp [timeMin, Except.map, e1]
  · unfold timeLe
    rw [timeCmp_same so']
    simp [timeMax, Except.map, e2]

example : ValidTime ⟨24, 0, 2, 999999, none, 0⟩ ∧ (24 : ℤ) * 3600000000 + 0 * 60000000 + 2 * 1000000 + 999999 ≤ 86403000000 :=
  ⟨by constructor <;> simp, by norm_num⟩

/-- C89 is false for the times after 24:00:03: the constructor accepts them, and they are greater than `time.max`. -/
theorem C89_time_negation (t : TimeObj) (hv : ValidTime t) (hz : t.tz = none) (hh : t.h = 24)
    (h : 3000000 < t.mi * 60000000 + t.s * 1000000 + t.us) (hs : t.s ≤ 59) :
    newTime t = .ok t ∧ timeGt t timeMax = .ok true := by
  refine ⟨(C51_time_accepts t).1 hv, ?_⟩
  obtain ⟨h0, h1, m0, m1, s0, s1, u0, u1, -⟩ := hv
  have so' : SameOffset t.tz timeMax.tz := by rw [hz]; trivial
  have e2 : 0 < tupleCmp [t.h, t.mi, t.s, t.us] [24, 0, 3, 0] := by simp only [tupleCmp]; split_ifs <;> omega
  unfold timeGt
  rw [timeCmp_same so']
  simp [timeMax, Except.map, e2]

example : ValidTime ⟨24, 0, 4, 0, none, 0⟩ ∧ (3000000 : ℤ) < 0 * 60000000 + 4 * 1000000 + 0 :=
  ⟨by constructor <;> simp, by norm_num⟩

/-- C89, partial: every naive datetime in the short form from the start of the year -1842 up to the start of the last day
of the year 1161 is between `datetime.min` and `datetime.max`. Missing: the exceptions of the dates, and the last day;
see the negation. -/
theorem C89_datetime_partial (A : Astro) (hE : TehranEvening A) (x : DT) (y m d n : ℤ) (hx : IsDT (Cal.init A) x n)
    (hd : x.d = .short y m d) (hz : x.tz = none) (y0 : -1842 ≤ y) (hm : y ≠ -1842 ∨ m ≠ 0)
    (hl : y = 1161 → m = 19 → d = 19 → x.h = 0 ∧ x.mi = 0 ∧ x.s = 0 ∧ x.us = 0) :
    (Cal.init A).newDT dtMin = .ok dtMin ∧ (Cal.init A).newDT dtMax = .ok dtMax ∧
    (Cal.init A).dtLe dtMin x = .ok true ∧ (Cal.init A).dtLe x dtMax = .ok true := by
  have hvt := hx.time
  obtain ⟨h0, h1, mi0, mi1, s0, s1, u0, u1, -⟩ := hvt
  simp only [DT.timetz] at h0 h1 mi0 mi1 s0 s1 u0 u1
  have hday := hx.day
  rw [hd] at hday
  obtain ⟨-, y1, hv, -⟩ := (dayNumber_iff hE).mp hday
  obtain ⟨m0, m1, d0, d1⟩ : 0 ≤ m ∧ m ≤ 19 ∧ 1 ≤ d ∧ d ≤ 19 := by
    rcases hv with ⟨a, b, c, e⟩ | ⟨a, b, c⟩ <;> [omega; (split_ifs at c <;> omega)]
  have so : SameOffset dtMin.tz x.tz := by rw [hz]; trivial
  have so' : SameOffset x.tz dtMax.tz := by rw [hz]; trivial
  have e1 : tupleCmp [-1842, 1, 1, 0, 0, 0, 0] [y, m, d, x.h, x.mi, x.s, x.us] ≤ 0 := by
    simp only [tupleCmp]; split_ifs <;> omega
  have e2 : tupleCmp [y, m, d, x.h, x.mi, x.s, x.us] [1161, 19, 19, 0, 0, 0, 0] ≤ 0 := by
    simp only [tupleCmp]; split_ifs <;> omega
  have vt : ∀ t : TimeObj, t = ⟨0, 0, 0, 0, none, 0⟩ → ValidTime t := by
    rintro t rfl
    constructor <;> simp
  refine ⟨newDT_ok hE (n := 78) ⟨(dateMin_day hE).1, vt _ rfl⟩, newDT_ok hE (n := 1097267) ⟨(dateMax_day hE).1, vt _ rfl⟩, ?_, ?_⟩
  · unfold Cal.dtLe
    rw [dtCmp_same so]
    simp [DT.cmpFields, dtMin, hd, DateObj.ymd, Except.map, e1]
  · unfold Cal.dtLe
    rw [dtCmp_same so']
    simp [DT.cmpFields, dtMax, hd, DateObj.ymd, Except.map, e2]

example : IsDT (Cal.init newYearSun) (witnessDT none 0) 739675 := witnessDT_is _ (Or.inl rfl)

/-- C89 is false on the last day of the year 1161: every datetime after its start is greater than `datetime.max`. -/
theorem C89_datetime_negation (A : Astro) (hE : TehranEvening A) (t : TimeObj) (hv : ValidTime t) (hz : t.tz = none)
    (h : 0 < t.h ∨ 0 < t.mi ∨ 0 < t.s ∨ 0 < t.us) :
    ∃ x, (Cal.init A).combine dateMax t = .ok x ∧ (Cal.init A).dtGt x dtMax = .ok true := by
  have hx : IsDT (Cal.init A) ⟨dateMax, t.h, t.mi, t.s, t.us, t.tz, t.fold⟩ 1097267 := ⟨(dateMax_day hE).1, hv⟩
  refine ⟨_, newDT_ok hE hx, ?_⟩
  obtain ⟨h0, h1, m0, m1, s0, s1, u0, u1, -⟩ := hv
  have e2 : 0 < tupleCmp [1161, 19, 19, t.h, t.mi, t.s, t.us] [1161, 19, 19, 0, 0, 0, 0] := by
    simp only [tupleCmp]; split_ifs <;> omega
  unfold Cal.dtGt
  rw [dtCmp_same (by simp only [hz]; trivial)]
  simp [DT.cmpFields, dateMax, dtMax, DateObj.ymd, Except.map, e2]

example : ValidTime ⟨12, 0, 0, 0, none, 0⟩ := by constructor <;> simp

end Verif
