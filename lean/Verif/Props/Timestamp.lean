import Verif.Props.DateTime
import Verif.Props.Convert

/-!
# C50: `timestamp()` of a naive `datetime`
-/

namespace Verif

theorem checkShort_time {C : Cal} {y m d h mi s us : ℤ} {rest : List ℚ} {leap : Bool} (hl : C.isLeapYear y = .ok leap)
    (hy0 : -1843 ≤ y) (hy1 : y ≤ 1162) (hv : ValidMD leap m d) (h0 : 0 ≤ h) (h1 : h ≤ 24)
    (mi0 : 0 ≤ mi) (mi1 : mi ≤ 59) (s0 : 0 ≤ s) (s1 : s ≤ 59) (u0 : 0 ≤ us) (u1 : us ≤ 999999) :
    C.checkShort ⟨y, m, d, (h : ℚ) :: (mi : ℚ) :: (s : ℚ) :: (us : ℚ) :: rest⟩ = .ok () := by
  obtain ⟨c, hc, d0, d1, m0, m1⟩ := cycleOf_valid hl hv
  have g : getHms ((h : ℚ) :: (mi : ℚ) :: (s : ℚ) :: (us : ℚ) :: rest) = ((h : ℚ), (mi : ℚ), (s : ℚ), (us : ℚ)) := rfl
  unfold Cal.checkShort
  rw [pyAssert_true (by simp [minYear, maxYear]; omega), pyOk_bind]
  unfold Cal.checkTail
  simp only [g]
  rw [pyAssert_true (by omega), pyOk_bind, hc, pyOk_bind,
    pyAssert_true (by constructor <;> exact_mod_cast (by omega)), pyOk_bind]
  unfold checkValidBadiTime
  have a1 : (h : ℚ) < 25 := by exact_mod_cast (by omega : h < 25)
  have a2 : (0 : ℚ) ≤ h := by exact_mod_cast h0
  have a3 : (mi : ℚ) < 60 := by exact_mod_cast (by omega : mi < 60)
  have a4 : (0 : ℚ) ≤ mi := by exact_mod_cast mi0
  have a5 : (s : ℚ) < 60 := by exact_mod_cast (by omega : s < 60)
  have a6 : (0 : ℚ) ≤ s := by exact_mod_cast s0
  have a7 : (us : ℚ) < 1000000 := by exact_mod_cast (by omega : us < 1000000)
  have a8 : (0 : ℚ) ≤ us := by exact_mod_cast u0
  rw [pyAssert_true ⟨a2, a1⟩, pyOk_bind, pyAssert_true ⟨a4, a3⟩, pyOk_bind, pyAssert_true ⟨a6, a5⟩, pyOk_bind,
    pyAssert_true ⟨a8, a7⟩, pyOk_bind, checkFractions_int]

theorem decimalDay_us {h mi s us : ℤ} (h0 : 0 ≤ h) (h1 : h ≤ 24) (mi0 : 0 ≤ mi) (mi1 : mi ≤ 59)
    (s0 : 0 ≤ s) (s1 : s ≤ 59) (u0 : 0 ≤ us) (u1 : us ≤ 999999) :
    ∃ f, decimalDayFromHms h mi s us = .ok f ∧ 0 ≤ f ∧
      |f - (3600 * h + 60 * mi + s + us / 1000000) / 86400| ≤ 1 / 100000000000000 := by
  unfold decimalDayFromHms
  rw [if_pos (by rw [pyMod1_int]; by_cases h : (us : ℚ) = 0 <;> simp [h])]
  have hq0 : (0 : ℚ) ≤ h := by exact_mod_cast h0
  have hq1 : (h : ℚ) ≤ 24 := by exact_mod_cast h1
  have mq0 : (0 : ℚ) ≤ mi := by exact_mod_cast mi0
  have mq1 : (mi : ℚ) ≤ 59 := by exact_mod_cast mi1
  have sq0 : (0 : ℚ) ≤ s := by exact_mod_cast s0
  have sq1 : (s : ℚ) ≤ 59 := by exact_mod_cast s1
  have uq0 : (0 : ℚ) ≤ us := by exact_mod_cast u0
  have uq1 : (us : ℚ) ≤ 999999 := by exact_mod_cast u1
  have e1 : fl ((h : ℚ) * 3600) = h * 3600 := by
    have := fl_int (h * 3600) (by rw [abs_le]; constructor <;> omega)
    exact_mod_cast this
  have e2 : fl ((mi : ℚ) * 60) = mi * 60 := by
    have := fl_int (mi * 60) (by rw [abs_le]; constructor <;> omega)
    exact_mod_cast this
  have e3 : fl ((h : ℚ) * 3600 + mi * 60) = h * 3600 + mi * 60 := by
    have := fl_int (h * 3600 + mi * 60) (by rw [abs_le]; constructor <;> omega)
    exact_mod_cast this
  have e4 : fl ((h : ℚ) * 3600 + mi * 60 + s) = h * 3600 + mi * 60 + s := by
    have := fl_int (h * 3600 + mi * 60 + s) (by rw [abs_le]; constructor <;> omega)
    exact_mod_cast this
  rw [e1, e2, e3, e4]
  have c0 : 0 ≤ fl ((us : ℚ) / 1000000) := fl_nonneg (by positivity)
  have c := abs_le.mp (fl_err_le (x := (us : ℚ) / 1000000) (B := 1)
    (by rw [abs_of_nonneg (by positivity)]; linarith))
  generalize fl ((us : ℚ) / 1000000) = w at *
  have a := abs_le.mp (fl_err_le (x := (h : ℚ) * 3600 + mi * 60 + s + w) (B := 90002)
    (by rw [abs_of_nonneg (by positivity)]; linarith))
  have hT : 0 ≤ fl ((h : ℚ) * 3600 + mi * 60 + s + w) := fl_nonneg (by positivity)
  have b := abs_le.mp (fl_err_le (x := fl ((h : ℚ) * 3600 + mi * 60 + s + w) / 86400) (B := 2)
    (by rw [abs_of_nonneg (by positivity)]; linarith))
  refine ⟨_, rfl, fl_nonneg (by positivity), ?_⟩
  rw [abs_le]; constructor <;> linarith

/-- The arithmetic of the timestamp. -/
theorem timestamp_err {J f : ℚ} {P us : ℤ} (hJ0 : (P : ℚ) ≤ J) (hJ1 : J ≤ P + 1) (hP0 : 1721000 ≤ P)
    (hP1 : P ≤ 2820000) (f0 : 0 ≤ f) (f1 : f ≤ 2) (u0 : 0 ≤ us) (u1 : us ≤ 999999) :
    |fl (pyRound (fl (fl (pyRound (fl (J + f)) 12 - 2440585.5) * 86400)) 12 + fl (us / 1000000)) -
      ((J + f - 2440585.5) * 86400 + us / 1000000)| ≤ 98 / 1000000 := by
  have p0 : (1721000 : ℚ) ≤ P := by exact_mod_cast hP0
  have p1 : (P : ℚ) ≤ 2820000 := by exact_mod_cast hP1
  have uq0 : (0 : ℚ) ≤ us := by exact_mod_cast u0
  have uq1 : (us : ℚ) ≤ 999999 := by exact_mod_cast u1
  norm_num only
  have a := abs_le.mp (fl_err_le (x := J + f) (B := 2820004) (by rw [abs_of_nonneg (by linarith)]; linarith))
  have ax : IsF64 (fl (J + f)) := isF64_fl _
  have ar : pyRound (fl (J + f)) 12 = fl (J + f) := by
    apply pyRound12_id ax
    have : (1720000 : ℚ) ≤ fl (J + f) := by linarith [a.1]
    rw [abs_of_nonneg (by linarith)]
    linarith
  rw [ar]
  generalize fl (J + f) = x at *
  have b := abs_le.mp (fl_err_le (x := x - 4881171 / 2) (B := 800000) (by rw [abs_le]; constructor <;> linarith))
  generalize fl (x - 4881171 / 2) = z at *
  have c := abs_le.mp (fl_err_le (x := z * 86400) (B := 70000000000) (by rw [abs_le]; constructor <;> linarith))
  generalize fl (z * 86400) = w at *
  have d := pyRound_err w 12
  have dw : |w| ≤ 70000000001 := by rw [abs_le]; constructor <;> linarith
  have d := abs_le.mp d
  norm_num only [] at d
  generalize pyRound w 12 = v at *
  have e := abs_le.mp (fl_err_le (x := (us : ℚ) / 1000000) (B := 1)
    (by rw [abs_of_nonneg (by positivity)]; linarith))
  generalize fl ((us : ℚ) / 1000000) = q at *
  have dw' : |w| / 9007199254740992 ≤ 70000000001 / 9007199254740992 := by
    apply div_le_div_of_nonneg_right dw (by norm_num)
  have g := abs_le.mp (fl_err_le (x := v + q) (B := 70000000004) (by
    rw [abs_le]; constructor <;> linarith [abs_le.mp dw, d.1, d.2, e.1, e.2]))
  rw [abs_le]
  constructor <;> linarith [a.1, a.2, b.1, b.2, c.1, c.2, d.1, d.2, e.1, e.2, g.1, g.2]

/-- What the timestamp is: the seconds from the epoch to the start of the date, the time of day, and the microseconds
once more. -/
theorem timestamp_value {A : Astro} (hE : TehranEvening A) {y m d n : ℤ} (hd : DayNumber (Cal.init A) y m d n)
    (hb : n + 1721423 ∉ badDays) {h mi s us w : ℤ} {rest : List ℚ} (h0 : 0 ≤ h) (h1 : h ≤ 24) (mi0 : 0 ≤ mi)
    (mi1 : mi ≤ 59) (s0 : 0 ≤ s) (s1 : s ≤ 59) (u0 : 0 ≤ us) (u1 : us ≤ 999999) (w0 : 0 ≤ w) (w1 : w ≤ 999999) :
    ∃ j t : ℚ, (Cal.init A).jdFromBadiDateDefault ⟨y, m, d, []⟩ = .ok j ∧
      ((Cal.init A).timestampFromBadiDate ⟨y, m, d, (h : ℚ) :: (mi : ℚ) :: (s : ℚ) :: (us : ℚ) :: rest⟩ tehranLat tehranLon
        >>= fun r => .ok (fl (r + fl (w / 1000000)))) = (.ok t : Py ℚ) ∧
      |t - ((j - 2440585.5) * 86400 + (3600 * h + 60 * mi + s + us / 1000000) + w / 1000000)| ≤ 1 / 10000 := by
  obtain ⟨y0, y1, n0, n1⟩ := dayNumber_year hE hd
  have q0 := ysInt_mono (le_refl (-1843)) y0 (by omega)
  rw [ysInt_m1843] at q0
  obtain ⟨g0, g1, hv, hn⟩ := (dayNumber_iff hE).mp hd
  have hl := init_isLeap hE g0 g1
  have q1 : n + 1721423 ≤ 2819900 := by
    have hr := dBefore_range hv
    have := nrN_bounds g0 (by omega)
    have := getDayCoeff_cases y
    unfold nrN at *
    unfold ysInt at hn
    split_ifs at hr <;> omega
  obtain ⟨sf, b0, b1⟩ := ssE_bounds hE (P := n + 1721423) (by omega) (by omega)
  obtain ⟨f, ef, f0, f1⟩ := decimalDay_us h0 h1 mi0 mi1 s0 s1 u0 u1
  have hchk := checkShort_time (C := Cal.init A) (rest := rest) hl g0 (by omega) hv h0 h1 mi0 mi1 s0 s1 u0 u1
  have hj := date_jd_time hE hd hb hchk
  have gh : getHms ((h : ℚ) :: (mi : ℚ) :: (s : ℚ) :: (us : ℚ) :: rest) = ((h : ℚ), (mi : ℚ), (s : ℚ), (us : ℚ)) := rfl
  rw [gh] at hj
  simp only at hj
  rw [ef, pyOk_bind] at hj
  refine ⟨_, fl (pyRound (fl (fl (pyRound (fl (ssE A (n + 1721423) + f)) 12 - 2440585.5) * 86400)) 12 +
    fl (w / 1000000)), date_jd' hE hd hb, ?_, ?_⟩
  · unfold Cal.timestampFromBadiDate
    unfold Cal.jdFromBadiDateDefault at hj
    rw [hj]; rfl
  · have hq0 : (0 : ℚ) ≤ h := by exact_mod_cast h0
    have hq1 : (h : ℚ) ≤ 24 := by exact_mod_cast h1
    have mq0 : (0 : ℚ) ≤ mi := by exact_mod_cast mi0
    have mq1 : (mi : ℚ) ≤ 59 := by exact_mod_cast mi1
    have sq0 : (0 : ℚ) ≤ s := by exact_mod_cast s0
    have sq1 : (s : ℚ) ≤ 59 := by exact_mod_cast s1
    have uq0 : (0 : ℚ) ≤ us := by exact_mod_cast u0
    have uq1 : (us : ℚ) ≤ 999999 := by exact_mod_cast u1
    have ff := abs_le.mp f1
    have := timestamp_err (J := ssE A (n + 1721423)) (f := f) (P := n + 1721423) (us := w) (by linarith) (by linarith)
      (by omega) (by omega) f0 (by linarith [ff.1, ff.2]) w0 w1
    rw [abs_le] at this ⊢
    constructor <;> linarith [this.1, this.2, ff.1, ff.2]

/-- The dates whose Julian day cannot be computed, or is that of another date (C29). -/
def LostDate (y m d : ℤ) : Prop := (y, m, d) ∈ changeEves ∨ (y, m, d) ∈ reformDates ∨ (y, m, d) = reformEnd

/-- C50 at full strength is that two naive datetimes of one date differ in their timestamps by the elapsed time. What
holds, up to a tenth of a millisecond: they differ by the elapsed time and by the difference of the microseconds
once more. -/
theorem C50_counted_twice (A : Astro) (hE : TehranEvening A) (y m d n : ℤ) (hd : DayNumber (Cal.init A) y m d n)
    (hb : ¬ LostDate y m d) (h mi s us fold h' mi' s' us' fold' : ℤ)
    (h0 : 0 ≤ h) (h1 : h ≤ 24) (mi0 : 0 ≤ mi) (mi1 : mi ≤ 59) (s0 : 0 ≤ s) (s1 : s ≤ 59) (u0 : 0 ≤ us)
    (u1 : us ≤ 999999) (h0' : 0 ≤ h') (h1' : h' ≤ 24) (mi0' : 0 ≤ mi') (mi1' : mi' ≤ 59) (s0' : 0 ≤ s')
    (s1' : s' ≤ 59) (u0' : 0 ≤ us') (u1' : us' ≤ 999999) :
    ∃ t t' : ℚ,
      (Cal.init A).naiveTimestamp ⟨.short y m d, h, mi, s, us, none, fold⟩ tehranLat tehranLon = .ok t ∧
      (Cal.init A).naiveTimestamp ⟨.short y m d, h', mi', s', us', none, fold'⟩ tehranLat tehranLon = .ok t' ∧
      |(t' - t) - (3600 * (h' - h) + 60 * (mi' - mi) + (s' - s) + 2 * (us' - us) / 1000000)| ≤ 1 / 5000 := by
  unfold LostDate at hb
  push Not at hb
  have hb' := notin_badDays hE hd hb.1 hb.2.1 hb.2.2
  obtain ⟨j, t, ej, et, he⟩ := timestamp_value hE hd hb' (rest := []) h0 h1 mi0 mi1 s0 s1 u0 u1 u0 u1
  obtain ⟨j', t', ej', et', he'⟩ := timestamp_value hE hd hb' (rest := []) h0' h1' mi0' mi1' s0' s1' u0' u1' u0' u1'
  rw [ej] at ej'
  cases ej'
  refine ⟨t, t', et, et', ?_⟩
  rw [abs_le] at *
  constructor <;> linarith [he.1, he.2, he'.1, he'.2]

example : DayNumber (Cal.init newYearSun) 182 0 5 739675 ∧ ¬ LostDate 182 0 5 :=
  ⟨witness_days.1, by unfold LostDate; decide⟩

/-- C50 for datetimes with the same microseconds: the timestamps differ by the elapsed time, up to a fifth of a
millisecond (the precision of a Julian day). Missing from the full property: different microseconds, where it is
false (below); the long form, where it is false (below); second 60, which raises; the 23 lost dates of C29. -/
theorem C50_same_micro_partial (A : Astro) (hE : TehranEvening A) (y m d n : ℤ) (hd : DayNumber (Cal.init A) y m d n)
    (hb : ¬ LostDate y m d) (h mi s h' mi' s' us fold fold' : ℤ)
    (h0 : 0 ≤ h) (h1 : h ≤ 24) (mi0 : 0 ≤ mi) (mi1 : mi ≤ 59) (s0 : 0 ≤ s) (s1 : s ≤ 59) (u0 : 0 ≤ us)
    (u1 : us ≤ 999999) (h0' : 0 ≤ h') (h1' : h' ≤ 24) (mi0' : 0 ≤ mi') (mi1' : mi' ≤ 59) (s0' : 0 ≤ s')
    (s1' : s' ≤ 59) :
    ∃ t t' : ℚ,
      (Cal.init A).naiveTimestamp ⟨.short y m d, h, mi, s, us, none, fold⟩ tehranLat tehranLon = .ok t ∧
      (Cal.init A).naiveTimestamp ⟨.short y m d, h', mi', s', us, none, fold'⟩ tehranLat tehranLon = .ok t' ∧
      |(t' - t) - (3600 * (h' - h) + 60 * (mi' - mi) + (s' - s))| ≤ 1 / 5000 := by
  obtain ⟨t, t', e, e', he⟩ := C50_counted_twice A hE y m d n hd hb h mi s us fold h' mi' s' us fold' h0 h1 mi0 mi1 s0
    s1 u0 u1 h0' h1' mi0' mi1' s0' s1' u0 u1
  refine ⟨t, t', e, e', ?_⟩
  rw [sub_self] at he
  simpa using he

example : DayNumber (Cal.init newYearSun) 182 0 5 739675 ∧ ¬ LostDate 182 0 5 :=
  ⟨witness_days.1, by unfold LostDate; decide⟩

/-- C50 is false on every date: half a second later is almost exactly a second later. -/
theorem C50_micro_negation (A : Astro) (hE : TehranEvening A) (y m d n : ℤ) (hd : DayNumber (Cal.init A) y m d n)
    (hb : ¬ LostDate y m d) :
    ∃ t t' : ℚ, (Cal.init A).naiveTimestamp ⟨.short y m d, 12, 0, 0, 0, none, 0⟩ tehranLat tehranLon = .ok t ∧
      (Cal.init A).naiveTimestamp ⟨.short y m d, 12, 0, 0, 500000, none, 0⟩ tehranLat tehranLon = .ok t' ∧
      999 / 1000 < t' - t ∧ t' - t < 1001 / 1000 := by
  obtain ⟨t, t', e, e', he⟩ := C50_counted_twice A hE y m d n hd hb 12 0 0 0 0 12 0 0 500000 0 (by omega) (by omega)
    (by omega) (by omega) (by omega) (by omega) (by omega) (by omega) (by omega) (by omega) (by omega) (by omega)
    (by omega) (by omega) (by omega) (by omega)
  refine ⟨t, t', e, e', ?_⟩
  rw [abs_le] at he
  push_cast at he
  constructor <;> linarith [he.1, he.2]

example : DayNumber (Cal.init newYearSun) 182 0 5 739675 ∧ ¬ LostDate 182 0 5 :=
  ⟨witness_days.1, by unfold LostDate; decide⟩

/-- C50 is false for the long form: the Kull-i-Shay' is taken for the year, the Váḥid for the month, the year for the
day, the month for the hour and the day for the minute. The timestamp is the one of that other time. -/
theorem C50_long_negation (A : Astro) (hE : TehranEvening A) (k v y m d n h mi s us fold : ℤ)
    (hd : DayNumber (Cal.init A) k v y n) (hb : ¬ LostDate k v y) (m0 : 0 ≤ m) (m1 : m ≤ 19) (d0 : 1 ≤ d) (d1 : d ≤ 19)
    (h0 : 0 ≤ h) (h1 : h ≤ 24) (mi0 : 0 ≤ mi) (mi1 : mi ≤ 59) (us0 : 0 ≤ us) (us1 : us ≤ 999999) :
    ∃ j t : ℚ, (Cal.init A).jdFromBadiDateDefault ⟨k, v, y, []⟩ = .ok j ∧
      (Cal.init A).naiveTimestamp ⟨.long k v y m d, h, mi, s, us, none, fold⟩ tehranLat tehranLon = .ok t ∧
      |t - ((j - 2440585.5) * 86400 + (3600 * m + 60 * d + h + mi / 1000000) + us / 1000000)| ≤ 1 / 10000 := by
  unfold LostDate at hb
  push Not at hb
  have hb' := notin_badDays hE hd hb.1 hb.2.1 hb.2.2
  obtain ⟨j, t, ej, et, he⟩ := timestamp_value hE hd hb' (rest := [(s : ℚ), (us : ℚ)]) m0 (by omega)
    (show 0 ≤ d by omega) (by omega) h0 (by omega) mi0 (by omega) us0 us1
  exact ⟨j, t, ej, et, he⟩

/-- Every day of the years 172 to 190 in the long form is given a timestamp on the eleventh day of the tenth month of
year 1, for instance. -/
example : ∃ n, DayNumber (Cal.init newYearSun) 1 10 11 n ∧ ¬ LostDate 1 10 11 :=
  ⟨_, (dayNumber_iff newYearSun_tehran).mpr ⟨by omega, by omega, Or.inl ⟨by omega, by omega, by omega, by omega⟩, rfl⟩,
    by unfold LostDate; decide⟩

end Verif
