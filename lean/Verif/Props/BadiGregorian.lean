import Verif.Lemmas.BadiGreg
import Verif.Lemmas.Ordinal
import Verif.Props.Convert
import Verif.Spec.Witness

/-!
# Properties C54 to C56: Badí' dates, Gregorian dates and timestamps
-/

namespace Verif

/-! ## C54 -/

/-- C54: in every supported year, whatever the evening sunset times in Tehran are, Naw-Rúz starts in the evening
of 18, 19, 20 or 21 March of Gregorian year `y + 1843`, and the first day of Riḍván starts in the evening of the
day of April with the same number, both as fraction of a day and as hour, minute and second. -/
theorem C54_naw_ruz (A : Astro) (hE : TehranEvening A) (y : ℤ) (h0 : -1842 ≤ y) (h1 : y ≤ 1161) :
    ∃ (d : ℤ) (f r : ℚ), 18 ≤ d ∧ d ≤ 21 ∧
      (Cal.init A).nawRuzGDate y tehranLat tehranLon tehranZone false = .ok ⟨y + 1843, 3, f, []⟩ ∧
      (Cal.init A).ridvanGDate y tehranLat tehranLon tehranZone false = .ok ⟨y + 1843, 4, r, []⟩ ∧
      ⌊f⌋ = d ∧ ⌊r⌋ = d ∧
      664 / 1000 ≤ Int.fract f ∧ Int.fract f ≤ 842 / 1000 ∧
      664 / 1000 ≤ Int.fract r ∧ Int.fract r ≤ 842 / 1000 ∧
      ∃ (h mi h' mi' : ℤ) (s s' : ℚ),
        (Cal.init A).nawRuzGDate y tehranLat tehranLon tehranZone true
          = .ok ⟨y + 1843, 3, d, [(h : ℚ), (mi : ℚ), s]⟩ ∧
        (Cal.init A).ridvanGDate y tehranLat tehranLon tehranZone true
          = .ok ⟨y + 1843, 4, d, [(h' : ℚ), (mi' : ℚ), s']⟩ ∧
        15 ≤ h ∧ h ≤ 20 ∧ 0 ≤ mi ∧ mi < 60 ∧ 0 ≤ s ∧ s < 60 ∧
        15 ≤ h' ∧ h' ≤ 20 ∧ 0 ≤ mi' ∧ mi' < 60 ∧ 0 ≤ s' ∧ s' < 60 := by
  obtain ⟨t0, t1⟩ := nawRuz_table y (by simp; omega)
  obtain ⟨d, hd⟩ : ∃ d, d = ysInt y - dayG (y + 1843) 3 0 := ⟨_, rfl⟩
  rw [← hd] at t0 t1
  have n1 : DayNumber (Cal.init A) y 1 1 (ysInt y) := (dayNumber_iff hE).mpr
    ⟨by omega, h1, Or.inl ⟨by omega, by omega, by omega, by omega⟩, by
      rw [show dBefore (leapOf y) 1 = 0 by unfold dBefore; simp]; ring⟩
  have n2 : DayNumber (Cal.init A) y 2 13 (ysInt y + 31) := (dayNumber_iff hE).mpr
    ⟨by omega, h1, Or.inl ⟨by omega, by omega, by omega, by omega⟩, by
      rw [show dBefore (leapOf y) 2 = 19 by unfold dBefore; simp]; ring⟩
  have q0 := ysInt_mono (a := -1842) (b := y) (by omega) h0 (by omega)
  have q1 := ysInt_mono (a := y) (b := 1161) (by omega) h1 (by omega)
  rw [ysInt_m1842] at q0
  rw [ysInt_1161] at q1
  have L1 : ∀ p ∈ changeEves ++ reformDates ++ [reformEnd], p.2.1 ≠ 1 ∧ p.2.1 ≠ 2 := by decide
  have b1 : ysInt y + 1721423 ∉ badDays := notin_badDays hE n1
    (fun h => (L1 (y, 1, 1) (by simp [h])).1 rfl) (fun h => (L1 (y, 1, 1) (by simp [h])).1 rfl)
    (fun h => (L1 reformEnd (by simp)).1 (by rw [← h]))
  have b2 : ysInt y + 31 + 1721423 ∉ badDays := notin_badDays hE n2
    (fun h => (L1 (y, 2, 13) (by simp [h])).2 rfl) (fun h => (L1 (y, 2, 13) (by simp [h])).2 rfl)
    (fun h => (L1 reformEnd (by simp)).2 (by rw [← h]))
  have v3 : ValidG (y + 1843) 3 d := ⟨by omega, by omega, by omega, by unfold specMonthLen; norm_num; omega⟩
  have v4 : ValidG (y + 1843) 4 d := ⟨by omega, by omega, by omega, by unfold specMonthLen; norm_num; omega⟩
  have g3 : dayG (y + 1843) 3 d = ysInt y := by
    have : dayG (y + 1843) 3 d = dayG (y + 1843) 3 0 + d := by unfold dayG; ring
    omega
  have g4 : dayG (y + 1843) 4 d = ysInt y + 31 := by
    have e : ∀ leap : Bool, cumDays leap 4 = cumDays leap 3 + 31 := by decide +kernel
    have : dayG (y + 1843) 4 d = dayG (y + 1843) 3 d + 31 := by unfold dayG; rw [e]; ring
    omega
  obtain ⟨x, f, e1, e2, e3, e4, e5, h, mi, s, e6, e7⟩ :=
    greg_start hE n1 b1 (by omega) (by omega) v3 g3 (by omega) (by omega)
  obtain ⟨x', r, e1', e2', e3', e4', e5', h', mi', s', e6', e7'⟩ :=
    greg_start hE n2 b2 (by omega) (by omega) v4 g4 (by omega) (by omega)
  push_cast at e1 e1'
  refine ⟨d, f, r, t0, t1, ?_, ?_, e3, e3', e4, e5, e4', e5', h, mi, h', mi', s, s', ?_, ?_,
    e7.1, e7.2.1, e7.2.2.1, e7.2.2.2.1, e7.2.2.2.2.1, e7.2.2.2.2.2, e7'⟩
  · unfold Cal.nawRuzGDate; rw [e1, pyOk_bind, e2]
  · unfold Cal.ridvanGDate; rw [e1', pyOk_bind, e2']
  · unfold Cal.nawRuzGDate; rw [e1, pyOk_bind, e6]
  · unfold Cal.ridvanGDate; rw [e1', pyOk_bind, e6']

/-- A witness sunset function. -/
example : TehranEvening sixPm ∧ (-1842 : ℤ) ≤ 182 ∧ (182 : ℤ) ≤ 1161 := ⟨sixPm_tehran, by omega, by omega⟩

/-! ## C55 -/

theorem jd_isF64 {C : Cal} {b : ShortT} {lat lon j : ℚ} (h : C.jdFromBadiDate b lat lon = .ok j) : IsF64 j := by
  unfold Cal.jdFromBadiDate at h
  simp only [bind, Except.bind] at h
  repeat' split at h
  all_goals first
    | (injection h with h; rw [← h]; unfold pyRound; exact isF64_fl _)
    | cases h

/-- C55, the instant: at every location and in every zone, when a date and time has a Julian Period day `j` in
the Gregorian era, its Gregorian date is a valid date whose day count and time of day are `j` in that zone, up to
three milliseconds. The hour can be 24, see `C55_hour_24_negation`. -/
theorem C55_instant_partial (C : Cal) (b : ShortT) (lat lon zone j : ℚ)
    (hj : C.jdFromBadiDate b lat lon = .ok j) (h0 : 1721425 ≤ j) (h1 : j ≤ 2820000)
    (z0 : -24 ≤ zone) (z1 : zone ≤ 24) :
    ∃ (y m d h mi : ℤ) (s : ℚ),
      C.gregorianFromBadi b lat lon zone false = .ok ⟨y, m, d, [(h : ℚ), (mi : ℚ), s]⟩ ∧
      ValidG y m d ∧ 0 ≤ h ∧ h ≤ 24 ∧ 0 ≤ mi ∧ mi < 60 ∧ 0 ≤ s ∧ s < 60 ∧
      (h = 24 → mi = 0 ∧ s = 0) ∧
      |(86400 * (dayG y m d : ℚ) + 3600 * h + 60 * mi + s) - (86400 * (j - 1721422.5) + 3600 * zone)|
        ≤ 3 / 1000 := by
  have zq := abs_le.mp (fl_err_le (x := zone / 24) (B := 1) (by rw [abs_le]; constructor <;> linarith))
  have er := abs_le.mp (fl_err_le (x := j + fl (zone / 24)) (B := 4194304)
    (by rw [abs_le]; constructor <;> linarith))
  obtain ⟨x, hx⟩ : ∃ x, x = fl (j + fl (zone / 24)) := ⟨_, rfl⟩
  rw [← hx] at er
  have ez : C.zoneJd b lat lon zone = .ok x := by unfold Cal.zoneJd; rw [hj, pyOk_bind, hx]
  have x64 : IsF64 x := by rw [hx]; exact isF64_fl _
  norm_num at zq er
  obtain ⟨n, hn⟩ : ∃ n : ℤ, n = ⌊x - 1721422.5⌋ := ⟨_, rfl⟩
  have f0 := Int.floor_le (x - 1721422.5)
  have f1 := Int.lt_floor_add_one (x - 1721422.5)
  rw [← hn] at f0 f1
  norm_num at f0 f1
  have n0 : 1 ≤ n := by
    have : (0 : ℚ) < n := by linarith
    have : 0 < n := by exact_mod_cast this
    omega
  have n1 : n ≤ 1098600 := by
    have : (n : ℚ) < 1098600 := by linarith
    have : n < 1098600 := by exact_mod_cast this
    omega
  obtain ⟨y, m, d, -, hv, hdn, hy0⟩ := iterate_from_one (n - 1).toNat
  have hdn : dayG y m d = n := by rw [hdn]; omega
  have hy1 : y ≤ 4713 := by
    by_contra hc
    have := (dayG_bounds hv).1
    have h2 := daysInYears_mono (show (4713 : ℤ) ≤ y - 1 by omega)
    have h3 : daysInYears 4713 = 1721387 := by decide +kernel
    omega
  obtain ⟨f, ef, f64, ff, fe⟩ := greg_of_jd x64 hv hy0 hy1 (by rw [hdn]; norm_num; linarith)
    (by rw [hdn]; norm_num; linarith)
  have fe := abs_le.mp fe
  rw [hdn] at fe
  have hfr : Int.fract f = f - d := by rw [← ff]; rfl
  have d1 : (1 : ℚ) ≤ d := by exact_mod_cast hv.2.2.1
  have fn := Int.fract_nonneg f
  have hs := hms_spec (dec := f) (by linarith)
  simp only at hs
  obtain ⟨b1, b2, b3, b4, b5, b6, b7, -, b9⟩ := hs
  refine ⟨y, m, d, (hmsFromDecimalDay f).1, (hmsFromDecimalDay f).2.1, (hmsFromDecimalDay f).2.2, ?_, hv,
    b1, b2, b3, b4, b5, b6, b9, ?_⟩
  · unfold Cal.gregorianFromBadi gregorianDateFromJd
    rw [ez, pyOk_bind, ef]
    exact ymdhms_frac hv ff f64
  · have b7 := abs_le.mp b7
    rw [hfr] at b7
    rw [hdn]
    norm_num at fe b7 ⊢
    rw [abs_le]
    constructor <;> linarith

example : ∃ j, (Cal.init sixPm).jdFromBadiDate ⟨182, 5, 7, [7, 30, 12.5]⟩ 36 (-79) = .ok j ∧ 1721425 ≤ j ∧
    j ≤ 2820000 :=
  ⟨5284602454966029 / 2147483648, by decide +kernel, by norm_num, by norm_num⟩

/-- C55, the start of the day in Tehran: the day with number `n` starts in the evening of the Gregorian day
`n - 1` days after 1 January of year 1. Missing from the full property: the 22 dates that have no Julian day
(`C29_lost_dates_negation`), the date after the reform gap, and year -1843. -/
theorem C55_start_partial (A : Astro) (hE : TehranEvening A) (y m d : ℤ) (n : ℕ)
    (hd : DayNumber (Cal.init A) y m d n) (hy : -1842 ≤ y) (h1 : (y, m, d) ∉ changeEves)
    (h3 : (y, m, d) ∉ reformDates) (h4 : (y, m, d) ≠ reformEnd) :
    ∃ (gy gm gd h mi : ℤ) (s : ℚ),
      (fun g : ℤ × ℤ × ℤ => nextG g.1 g.2.1 g.2.2)^[n - 1] (1, 1, 1) = (gy, gm, gd) ∧
      (Cal.init A).gregorianFromBadi ⟨y, m, d, []⟩ tehranLat tehranLon tehranZone false
        = .ok ⟨gy, gm, gd, [(h : ℚ), (mi : ℚ), s]⟩ ∧
      15 ≤ h ∧ h ≤ 20 ∧ 0 ≤ mi ∧ mi < 60 ∧ 0 ≤ s ∧ s < 60 := by
  have hb := notin_badDays hE hd h1 h3 h4
  obtain ⟨y0, y1, n0, n1⟩ := dayNumber_year hE hd
  have q0 := ysInt_mono (a := -1842) (b := y) (by omega) hy (by omega)
  rw [ysInt_m1842] at q0
  have q1 := ysInt_mono (a := y) (b := 1161) (by omega) y1 (by omega)
  have q2 := ysInt_step (y := y) (by omega) (by omega)
  rw [ysInt_1161] at q1
  obtain ⟨gy, gm, gd, e, hv, hdn, hy0⟩ := iterate_from_one (n - 1)
  have hdn : dayG gy gm gd = n := by rw [hdn]; omega
  have hy1 : gy ≤ 4713 := by
    by_contra hc
    have := (dayG_bounds hv).1
    have h2 := daysInYears_mono (show (4713 : ℤ) ≤ gy - 1 by omega)
    have h3 : daysInYears 4713 = 1721387 := by decide +kernel
    omega
  obtain ⟨x, f, e1, e2, e3, e4, e5, h, mi, s, e6, e7⟩ :=
    greg_start hE hd hb (by omega) (by omega) hv hdn hy0 hy1
  refine ⟨gy, gm, gd, h, mi, s, e, ?_, e7⟩
  unfold Cal.gregorianFromBadi
  rw [e1, pyOk_bind, e6]

example : ∃ n : ℕ, DayNumber (Cal.init sixPm) 182 0 5 n ∧ (182, 0, 5) ∉ changeEves ++ reformDates ++ [reformEnd] :=
  ⟨739675, by
    refine (dayNumber_iff sixPm_tehran).mpr
      ⟨by omega, by omega, Or.inr ⟨rfl, by omega, by decide +kernel⟩, by decide +kernel⟩, by decide⟩

/-- C55 is false at the end of a Gregorian day: the hour can be 24, and the date is then refused when it is
converted back. -/
theorem C55_hour_24_negation :
    (Cal.init sixPm).gregorianFromBadi ⟨182, 5, 7, [5, 55, 9.288]⟩ tehranLat tehranLon tehranZone false
      = .ok ⟨2025, 6, 9, [24, 0, 0]⟩ ∧
    (Cal.init sixPm).badiFromGregorian ⟨2025, 6, 9, [24, 0, 0]⟩ tehranLat tehranLon { short := true }
      = .error .assertion := by
  have e1 : (Cal.init sixPm).jdFromBadiDate ⟨182, 5, 7, [5, 55, 9.288]⟩ tehranLat tehranLon
      = .ok (5284601536009551 / 2147483648) := by decide +kernel
  have e2 : fl ((5284601536009551 / 2147483648 : ℚ) + fl (tehranZone / 24)) = 2642300924592125 / 1073741824 := by
    decide +kernel
  have e3 : gregorianFromJdExact (2642300924592125 / 1073741824)
      = ⟨2025, 6, 2814749766320119 / 281474976710656, []⟩ := by
    have := gregorianFromJdExact_eq (y := 2025) (m := 6) (d := 9) (j := 4294967284) (by decide) rfl (by omega)
      (by omega) (by omega) (by omega) (Or.inr (by omega))
    rw [show dayG 2025 6 9 = 739411 by decide +kernel] at this
    norm_num at this
    rw [this, show pyRound (10737418237 / 1073741824) 12 = 2814749766320119 / 281474976710656 by decide +kernel]
  constructor
  · unfold Cal.gregorianFromBadi Cal.zoneJd gregorianDateFromJd
    rw [e1, pyOk_bind, pyOk_bind, e2, e3]
    decide +kernel
  · decide +kernel

/-- C55 is false for the way back: the Gregorian date is in the given zone and is read back as a date in
Greenwich, so that the zone (3:30 hours) is added to the time of day, and 22:00 becomes 1:30 of the next day. -/
theorem C55_back_negation :
    ∃ g, (Cal.init sixPm).gregorianFromBadi ⟨182, 5, 7, [22]⟩ tehranLat tehranLon tehranZone false = .ok g ∧
      (Cal.init sixPm).badiFromGregorian g tehranLat tehranLon { short := true }
        = .ok (.short ⟨182, 5, 8, [1, 30]⟩) := by
  have e1 : (Cal.init sixPm).jdFromBadiDate ⟨182, 5, 7, [22]⟩ tehranLat tehranLon
      = .ok (2642301487445501 / 1073741824) := by decide +kernel
  have e2 : fl ((2642301487445501 / 1073741824 : ℚ) + fl (tehranZone / 24)) = 5284603288065701 / 2147483648 := by
    decide +kernel
  have e3 : jdFromGregorianExact ⟨2025, 6, 10, [16, 4, 7136910624489367 / 140737488355328]⟩
      = .ok (5284603288065677 / 2147483648) := by decide +kernel
  have e4 : gregorianFromJdExact (5284603288065701 / 2147483648)
      = ⟨2025, 6, 6006693671731245 / 562949953421312, []⟩ := by
    have := gregorianFromJdExact_eq (y := 2025) (m := 6) (d := 10) (j := 2877762890) (by decide) rfl (by omega)
      (by omega) (by omega) (by omega) (Or.inr (by omega))
    rw [show dayG 2025 6 10 = 739412 by decide +kernel] at this
    norm_num at this
    rw [this, show pyRound (22913717925 / 2147483648) 12 = 6006693671731245 / 562949953421312 by decide +kernel]
  refine ⟨⟨2025, 6, 10, [16, 4, 7136910624489367 / 140737488355328]⟩, ?_, ?_⟩
  · unfold Cal.gregorianFromBadi Cal.zoneJd gregorianDateFromJd
    rw [e1, pyOk_bind, pyOk_bind, e2, e4]
    decide +kernel
  · unfold Cal.badiFromGregorian
    rw [e3, pyOk_bind]
    decide +kernel

/-! ## C56 -/

/-- C56, the instant: at every location, the timestamp of a date and time is the number of seconds between its
Julian Period day and 2440585.5 up to ten microseconds, and the timestamp is read back as exactly the same Julian
Period day, at every location and with every option. -/
theorem C56_same_instant (C : Cal) (b : ShortT) (lat lon j : ℚ)
    (hj : C.jdFromBadiDate b lat lon = .ok j) (h0 : 1721000 ≤ j) (h1 : j ≤ 2820000) :
    ∃ t, C.timestampFromBadiDate b lat lon = .ok t ∧ |t - (j - 2440585.5) * 86400| ≤ 1 / 100000 ∧
      ∀ lat' lon' o, C.badiDateFromTimestamp t lat' lon' o = C.badiDateFromJd j lat' lon' o := by
  obtain ⟨e1, e2⟩ := timestamp_jd (jd_isF64 hj) h0 h1
  refine ⟨_, by unfold Cal.timestampFromBadiDate; rw [hj, pyOk_bind], e2, ?_⟩
  intro lat' lon' o
  unfold Cal.badiDateFromTimestamp
  rw [e1]

example : ∃ j, (Cal.init sixPm).jdFromBadiDate ⟨182, 5, 7, [7, 30, 12.5]⟩ 36 (-79) = .ok j ∧ 1721000 ≤ j ∧
    j ≤ 2820000 :=
  ⟨5284602454966029 / 2147483648, by decide +kernel, by norm_num, by norm_num⟩

/-- C56, the start of the day: the timestamp of a date is read back as this date. Missing from the full property:
the dates excluded in `C29_start_of_day_partial`. -/
theorem C56_start_of_day_partial (A : Astro) (hE : TehranEvening A) (y m d n last : ℤ)
    (hd : DayNumber (Cal.init A) y m d n) (hlast : (Cal.init A).yearStart 1161 = some last)
    (hn : n ≤ last) (h1 : (y, m, d) ∉ changeEves) (h2 : (y, m, d) ∉ changeDates)
    (h3 : (y, m, d) ∉ reformDates) (h4 : (y, m, d) ≠ reformEnd) (trim : Bool) :
    ∃ t : ℚ, (Cal.init A).timestampFromBadiDate ⟨y, m, d, []⟩ tehranLat tehranLon = .ok t ∧
      (Cal.init A).badiDateFromTimestamp t tehranLat tehranLon { short := true, trim := trim }
        = .ok (.short ⟨y, m, d, []⟩) ∧
      ∃ k v w : ℤ, DenotesYear k v w y ∧
        (Cal.init A).badiDateFromTimestamp t tehranLat tehranLon { short := false, trim := trim }
          = .ok (.long ⟨k, v, w, m, d, []⟩) := by
  obtain ⟨j, hj, c1, k, v, w, hw, c2⟩ := C29_start_of_day_partial A hE y m d n last hd hlast hn h1 h2 h3 h4 trim
  have hb := notin_badDays hE hd h1 h3 h4
  have hj' := date_jd' hE hd hb
  rw [hj] at hj'
  injection hj' with hj'
  rw [init_yearStart hE, if_pos (by omega), ysInt_1161] at hlast
  obtain rfl := Option.some.inj hlast
  obtain ⟨y0, y1, n0, n1⟩ := dayNumber_year hE hd
  have q0 := ysInt_mono (le_refl (-1843)) y0 (by omega)
  rw [ysInt_m1843] at q0
  obtain ⟨sf, s0, s1⟩ := ssE_bounds hE (P := n + 1721423) (by omega) (by omega)
  have nq0 : (-287 : ℚ) ≤ n := by exact_mod_cast (by omega : -287 ≤ n)
  have nq1 : (n : ℚ) ≤ 1096902 := by exact_mod_cast hn
  push_cast at s0 s1
  obtain ⟨t, t1, -, t2⟩ := C56_same_instant (Cal.init A) ⟨y, m, d, []⟩ tehranLat tehranLon j hj
    (by rw [hj']; linarith) (by rw [hj']; linarith)
  exact ⟨t, t1, by rw [t2, c1], k, v, w, hw, by rw [t2, c2]⟩

/-- The hypotheses of `C56_start_of_day_partial` are those of `C29_start_of_day_partial`. -/
example : ∃ n, DayNumber (Cal.init sixPm) 182 0 5 n ∧ n ≤ 1096902 ∧
    (182, 0, 5) ∉ changeEves ++ changeDates ++ reformDates ++ [reformEnd] :=
  ⟨ysInt 182 + 346, (dayNumber_iff sixPm_tehran).mpr
    ⟨by omega, by omega, Or.inr ⟨rfl, by omega, by decide +kernel⟩, by decide +kernel⟩,
    by decide +kernel, by decide⟩

/-- C56 is false for 22 dates: they have no timestamp, `timestamp_from_badi_date` raises `ValueError` whatever valid
time of day is given. -/
theorem C56_lost_dates_negation (A : Astro) (hE : TehranEvening A) (y m d : ℤ) (t : List ℚ)
    (h : (y, m, d) ∈ changeEves ++ reformDates)
    (hchk : (Cal.init A).checkShort ⟨y, m, d, t⟩ = .ok ()) :
    (∃ n, DayNumber (Cal.init A) y m d n) ∧
    (Cal.init A).timestampFromBadiDate ⟨y, m, d, t⟩ tehranLat tehranLon = .error .value := by
  obtain ⟨h1, h2⟩ := C29_lost_dates_negation A hE y m d t h hchk
  refine ⟨h1, ?_⟩
  unfold Cal.timestampFromBadiDate
  rw [show (Cal.init A).jdFromBadiDate ⟨y, m, d, t⟩ tehranLat tehranLon = .error .value from h2, pyErr_bind]

/-- Such a date with a time of day is a valid date of the library. -/
example : (-1644, 0, 5) ∈ changeEves ++ reformDates ∧
    (Cal.init sixPm).checkShort ⟨-1644, 0, 5, [7, 30, 12.5]⟩ = .ok () :=
  ⟨by decide, by decide +kernel⟩

/-- C56 is false for the dates after the twelve changes: the timestamp of the start of the date is not accepted
back. -/
theorem C56_change_dates_negation (A : Astro) (hE : TehranEvening A) (y m d : ℤ) (h : (y, m, d) ∈ changeDates) :
    ∃ t : ℚ, (Cal.init A).timestampFromBadiDate ⟨y, m, d, []⟩ tehranLat tehranLon = .ok t ∧
      ∀ o : JdOpts, xorBoolean [o.fraction, o.us, o.rtd] = true →
        (Cal.init A).badiDateFromTimestamp t tehranLat tehranLon o = .error .value := by
  have hn : ∃ q ∈ lostTable, q.2 = (y, m, d) ∧ q.1 ∉ badDays ∧ 1721100 ≤ q.1 ∧ q.1 ≤ 2299000 := by
    have : ∀ p ∈ changeDates, ∃ q ∈ lostTable, q.2 = p ∧ q.1 ∉ badDays ∧ 1721100 ≤ q.1 ∧ q.1 ≤ 2299000 := by decide
    exact this _ h
  obtain ⟨q, hq, e, hb, q0, q1⟩ := hn
  have hd := lostTable_day hE q hq
  rw [e] at hd
  have hj := date_jd' hE hd (by rw [show q.1 - 1721423 + 1721423 = q.1 by ring]; exact hb)
  rw [show q.1 - 1721423 + 1721423 = q.1 by ring] at hj
  obtain ⟨sf, s0, s1⟩ := ssE_bounds hE (P := q.1) (by omega) (by omega)
  have q0' : (1721100 : ℚ) ≤ q.1 := by exact_mod_cast q0
  have q1' : (q.1 : ℚ) ≤ 2299000 := by exact_mod_cast q1
  obtain ⟨t, t1, -, t2⟩ := C56_same_instant (Cal.init A) ⟨y, m, d, []⟩ tehranLat tehranLon _ hj
    (by linarith) (by linarith)
  refine ⟨t, t1, fun o ho => ?_⟩
  obtain ⟨j, j1, j2⟩ := C29_change_dates_negation A hE y m d h o ho
  rw [hj] at j1
  injection j1 with j1
  rw [t2, j1, j2]

example : (-1744, 19, 2) ∈ changeDates ∧ xorBoolean [false, true, false] = true := by decide

/-- C56 is false for the date after the reform gap: its timestamp is read back as the date ten days earlier. -/
theorem C56_reform_negation (A : Astro) (hE : TehranEvening A) :
    ∃ t : ℚ, (Cal.init A).timestampFromBadiDate ⟨-261, 11, 19, []⟩ tehranLat tehranLon = .ok t ∧
      (Cal.init A).badiDateFromTimestamp t tehranLat tehranLon { short := true }
        = .ok (.short ⟨-261, 11, 9, []⟩) := by
  obtain ⟨j, j1, j2, j3⟩ := C29_reform_negation A hE
  obtain ⟨j4, j5⟩ := Int.floor_eq_iff.mp j2
  push_cast at j4 j5
  obtain ⟨t, t1, -, t2⟩ := C56_same_instant (Cal.init A) ⟨-261, 11, 19, []⟩ tehranLat tehranLon j j1
    (by linarith) (by linarith)
  exact ⟨t, t1, by rw [t2, j3]⟩

/-- The hypothesis of `C56_reform_negation` is met. -/
example : TehranEvening sixPm := sixPm_tehran

end Verif
