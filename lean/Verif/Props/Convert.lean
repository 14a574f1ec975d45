import Verif.Lemmas.Forward
import Verif.Spec.Witness

/-!
# Properties C29 and C30: Badí' dates and Julian days
-/

namespace Verif

/-! ## C29 -/

/-- C29, start of the day. Missing from the full property: the dates of `changeEves`, `changeDates`,
`reformDates`, `reformEnd`, and the dates after the first day of year 1161; for all of them it is false, see
the `_negation` theorems below. -/
theorem C29_start_of_day_partial (A : Astro) (hE : TehranEvening A) (y m d n last : ℤ)
    (hd : DayNumber (Cal.init A) y m d n) (hlast : (Cal.init A).yearStart 1161 = some last)
    (hn : n ≤ last) (h1 : (y, m, d) ∉ changeEves) (h2 : (y, m, d) ∉ changeDates)
    (h3 : (y, m, d) ∉ reformDates) (h4 : (y, m, d) ≠ reformEnd) (trim : Bool) :
    ∃ j : ℚ, (Cal.init A).jdFromBadiDateDefault ⟨y, m, d, []⟩ = .ok j ∧
      (Cal.init A).badiDateFromJd j tehranLat tehranLon { short := true, trim := trim }
        = .ok (.short ⟨y, m, d, []⟩) ∧
      ∃ k v w : ℤ, DenotesYear k v w y ∧
        (Cal.init A).badiDateFromJd j tehranLat tehranLon { short := false, trim := trim }
          = .ok (.long ⟨k, v, w, m, d, []⟩) := by
  rw [init_yearStart hE, if_pos (by omega), ysInt_1161] at hlast
  obtain rfl := Option.some.inj hlast
  have hb := notin_badDays hE hd h1 h3 h4
  have hc := notin_changeDays hE hd h2
  obtain ⟨y0, y1, n0, n1⟩ := dayNumber_year hE hd
  have q0 := ysInt_mono (le_refl (-1843)) y0 (by omega)
  rw [ysInt_m1843] at q0
  have hP0 : 1721100 ≤ n + 1721423 := by omega
  have hP1 : n + 1721423 ≤ 2819700 := by omega
  obtain ⟨sf, s0, s1⟩ := ssE_bounds hE (P := n + 1721423) (by omega) (by omega)
  obtain ⟨tf, t0, t1⟩ := ssE_bounds hE (P := n + 1721423 + 1) (by omega) (by omega)
  push_cast at s0 s1 t0 t1
  have l0 := lonFracT_lo; have l1 := lonFracT_hi
  have hu : (Cal.init A).utcToBadiTime (ssE A (n + 1721423)) tehranLat tehranLon
      = .ok (ssE A (n + 1721423), 0) := by
    have := utc_cases hE sf hP0 hP1 (le_refl _) (by linarith)
    simp only [sub_self] at this
    rcases this with ⟨-, h | h⟩ | ⟨h, -⟩ | ⟨-, h, -⟩ | ⟨-, h⟩ | ⟨-, -, h⟩
    · exact absurd h hb
    · exact absurd h.1 hc
    · exact h
    · norm_num at h
    · exact absurd (by rw [h]; decide) hb
    · have := abs_le.mp h
      push_cast at this
      linarith
  have hy := ymd_ok hE hu (civilDay_ssE (by omega) (by omega) (by push_cast; linarith)
    (by push_cast; linarith)) hn hd
  have hz : trimHms [((hmsFromDecimalDay 0).1 : ℚ), ((hmsFromDecimalDay 0).2.1 : ℚ),
      (hmsFromDecimalDay 0).2.2] = [] := by decide +kernel
  obtain ⟨k, v, w, hden, e1⟩ := badiDate_ok hE true trim hd hy (le_refl _) (by norm_num)
  obtain ⟨k', v', w', hden', e2⟩ := badiDate_ok hE false trim hd hy (le_refl _) (by norm_num)
  rw [hz] at e1 e2
  exact ⟨_, date_jd' hE hd hb, by simpa using e1, k', v', w', hden', by simpa using e2⟩

/-- The hypotheses of `C29_start_of_day_partial` are met by the last day of Ayyám-i-Há of leap
year 182 (with a witness sunset function). -/
example : ∃ n, DayNumber (Cal.init sixPm) 182 0 5 n ∧ n ≤ 1096902 ∧
    (182, 0, 5) ∉ changeEves ++ changeDates ++ reformDates ++ [reformEnd] :=
  ⟨ysInt 182 + 346, (dayNumber_iff sixPm_tehran).mpr
    ⟨by omega, by omega, Or.inr ⟨rfl, by omega, by decide +kernel⟩, by decide +kernel⟩,
    by decide +kernel, by decide⟩

/-- C29 is false for 22 dates: their conversion to a Julian day raises `ValueError`, whatever the
sunset times are and whatever valid time of day is given. -/
theorem C29_lost_dates_negation (A : Astro) (hE : TehranEvening A) (y m d : ℤ) (t : List ℚ)
    (h : (y, m, d) ∈ changeEves ++ reformDates)
    (hchk : (Cal.init A).checkShort ⟨y, m, d, t⟩ = .ok ()) :
    (∃ n, DayNumber (Cal.init A) y m d n) ∧
    (Cal.init A).jdFromBadiDateDefault ⟨y, m, d, t⟩ = .error .value := by
  have hn : ∃ q ∈ lostTable, q.2 = (y, m, d) := by
    have : ∀ p ∈ changeEves ++ reformDates, ∃ q ∈ lostTable, q.2 = p := by decide
    exact this _ h
  obtain ⟨q, hq, e⟩ := hn
  have hd := lostTable_day hE q hq
  rw [e] at hd
  exact ⟨⟨_, hd⟩, date_jd_err hE hd h hchk⟩

/-- Such a date is a valid date of the library. -/
example : (Cal.init sixPm).checkShort ⟨-1644, 0, ((5 : ℤ) : ℚ), []⟩ = .ok () :=
  checkShort_day (init_isLeap sixPm_tehran (by omega) (by omega)) (by omega) (by omega)
    (Or.inr ⟨rfl, by omega, by decide +kernel⟩)

/-- C29 is false for the dates after the twelve changes: the Julian day of the start of the date
is not accepted back. -/
theorem C29_change_dates_negation (A : Astro) (hE : TehranEvening A) (y m d : ℤ)
    (h : (y, m, d) ∈ changeDates) (o : JdOpts) (ho : xorBoolean [o.fraction, o.us, o.rtd] = true) :
    ∃ j : ℚ, (Cal.init A).jdFromBadiDateDefault ⟨y, m, d, []⟩ = .ok j ∧
      (Cal.init A).badiDateFromJd j tehranLat tehranLon o = .error .value := by
  have hn : ∃ q ∈ lostTable, q.2 = (y, m, d) ∧ q.1 ∉ badDays ∧ q.1 - 1 ∈ changeDays ∧
      1721100 ≤ q.1 ∧ q.1 ≤ 2299000 := by
    have : ∀ p ∈ changeDates, ∃ q ∈ lostTable, q.2 = p ∧ q.1 ∉ badDays ∧ q.1 - 1 ∈ changeDays ∧
      1721100 ≤ q.1 ∧ q.1 ≤ 2299000 := by decide
    exact this _ h
  obtain ⟨q, hq, e, hb, hc, q0, q1⟩ := hn
  have hd := lostTable_day hE q hq
  rw [e] at hd
  have hj := date_jd' hE hd (by rw [show q.1 - 1721423 + 1721423 = q.1 by ring]; exact hb)
  rw [show q.1 - 1721423 + 1721423 = q.1 by ring] at hj
  refine ⟨_, hj, ?_⟩
  obtain ⟨sf, s0, s1⟩ := ssE_bounds hE (P := q.1) (by omega) (by omega)
  have l0 := lonFracT_lo; have l1 := lonFracT_hi
  have hu := utc_evening (C := Cal.init A) hE rfl sf q0 (by omega) (le_refl _) (by linarith) (by omega)
  rw [if_pos hc] at hu
  unfold Cal.badiDateFromJd
  rw [ho, show pyAssert true = .ok () from rfl, pyOk_bind, ymd_err hu, pyErr_bind]

example : (-1744, 19, 2) ∈ changeDates := by decide

/-- C29 is false for the date after the reform gap: its Julian day is the one of the date
(-261, 11, 9), ten days earlier. -/
theorem C29_reform_negation (A : Astro) (hE : TehranEvening A) :
    ∃ j : ℚ, (Cal.init A).jdFromBadiDateDefault ⟨-261, 11, 19, []⟩ = .ok j ∧
      ⌊j⌋ = 2299148 ∧
      (Cal.init A).badiDateFromJd j tehranLat tehranLon { short := true }
        = .ok (.short ⟨-261, 11, 9, []⟩) := by
  refine ⟨_, date_jd_reform hE, ?_⟩
  obtain ⟨sf, s0, s1⟩ := ssE_bounds hE (P := 2299148) (by omega) (by omega)
  push_cast at s0 s1
  have l0 := lonFracT_lo; have l1 := lonFracT_hi
  refine ⟨by rw [Int.floor_eq_iff]; push_cast; constructor <;> linarith, ?_⟩
  have hu := utc_evening (C := Cal.init A) hE rfl sf (by omega) (by omega) (le_refl _)
    (by push_cast; linarith) (by omega)
  rw [if_neg (by decide), sub_self, fl_zero] at hu
  have hd := lostTable_day hE (2299148, -261, 11, 9) (by decide)
  have hy := ymd_ok hE (n := 577725) hu (civilDay_ssE (by omega) (by omega) (by push_cast; linarith)
    (by push_cast; linarith)) (by omega) hd
  obtain ⟨k, v, w, hden, e1⟩ := badiDate_ok hE true false hd hy (le_refl _) (by norm_num)
  have hz : trimHms [((hmsFromDecimalDay 0).1 : ℚ), ((hmsFromDecimalDay 0).2.1 : ℚ),
      (hmsFromDecimalDay 0).2.2] = [] := by decide +kernel
  rw [hz] at e1
  simpa using e1

/-- C29 is false for the dates after the first day of year 1161: they have a Julian day, which is not
accepted back. -/
theorem C29_last_year_negation (A : Astro) (hE : TehranEvening A) (m d n last : ℤ)
    (hd : DayNumber (Cal.init A) 1161 m d n) (hlast : (Cal.init A).yearStart 1161 = some last)
    (hn : last < n) (o : JdOpts) (ho : xorBoolean [o.fraction, o.us, o.rtd] = true) :
    ∃ j : ℚ, (Cal.init A).jdFromBadiDateDefault ⟨1161, m, d, []⟩ = .ok j ∧
      (Cal.init A).badiDateFromJd j tehranLat tehranLon o = .error .assertion := by
  rw [init_yearStart hE, if_pos (by omega), ysInt_1161] at hlast
  obtain rfl := Option.some.inj hlast
  obtain ⟨-, -, n0, n1⟩ := dayNumber_year hE hd
  rw [show (1161 : ℤ) + 1 = 1162 by ring, ysInt_1162] at n1
  have hb : ∀ Q ∈ badDays, Q < 2300000 := by decide
  have hk : ∀ Q ∈ changeDays, Q < 2300000 := by decide
  have hj := date_jd' hE hd (fun h => by have := hb _ h; omega)
  refine ⟨_, hj, ?_⟩
  obtain ⟨sf, s0, s1⟩ := ssE_bounds hE (P := n + 1721423) (by omega) (by omega)
  have l0 := lonFracT_lo; have l1 := lonFracT_hi
  have hu := utc_evening (C := Cal.init A) hE rfl sf (by omega) (by omega) (le_refl _) (by linarith)
    (by omega)
  rw [if_neg (fun h => by have := hk _ h; omega)] at hu
  have hl := ymd_late hE (n := n) hu (civilDay_ssE (by omega) (by omega) (by linarith) (by linarith))
    (by omega)
  unfold Cal.badiDateFromJd
  rw [ho, show pyAssert true = .ok () from rfl, pyOk_bind, hl, pyErr_bind]

example : DayNumber (Cal.init sixPm) 1161 1 2 1096903 :=
  (dayNumber_iff sixPm_tehran).mpr
    ⟨by omega, by omega, Or.inl ⟨by omega, by omega, by omega, by omega⟩, by decide +kernel⟩

/-- C29 with a time of day. The date fields are preserved exactly and the time of day up to 2.5
milliseconds. Missing from the full property: the dates excluded in
`C29_start_of_day_partial`, the last hundredth of a second before hour 24 (see `C30_short_form_negation`), times
after the following sunset (the day ends there), and a tenth of a second around one local midnight of
the year -814, where the code takes the sunset of the day before (`C29_midnight_negation`). -/
theorem C29_time_of_day_partial (A : Astro) (hE : TehranEvening A) (y m d n last h mi : ℤ) (s : ℚ)
    (hd : DayNumber (Cal.init A) y m d n) (hlast : (Cal.init A).yearStart 1161 = some last)
    (hn : n ≤ last) (h1 : (y, m, d) ∉ changeEves) (h2 : (y, m, d) ∉ changeDates)
    (h3 : (y, m, d) ∉ reformDates) (h4 : (y, m, d) ≠ reformEnd)
    (hh0 : 0 ≤ h) (mi0 : 0 ≤ mi) (mi1 : mi < 60) (s0 : 0 ≤ s) (s1 : s < 60)
    (hT : 3600 * h + 60 * mi + s ≤ 86399.99)
    (y' m' d' : ℤ) (j' : ℚ) (hnext : DayNumber (Cal.init A) y' m' d' (n + 1))
    (hj' : (Cal.init A).jdFromBadiDateDefault ⟨y', m', d', []⟩ = .ok j')
    (hne : (y', m', d') ≠ reformEnd) (j : ℚ)
    (hj : (Cal.init A).jdFromBadiDateDefault ⟨y, m, d, [(h : ℚ), (mi : ℚ), s]⟩ = .ok j)
    (h5 : n = 375721 → 1 / 1000000 < |j - 2097144.3575315|) (hlt : j < j') (trim : Bool) :
    ∃ (h' mi' : ℤ) (s' : ℚ), (Cal.init A).badiDateFromJd j tehranLat tehranLon
        { short := true, trim := trim } = .ok (.short ⟨y, m, d, trimHms [(h' : ℚ), (mi' : ℚ), s']⟩) ∧
      0 ≤ h' ∧ h' < 24 ∧ 0 ≤ mi' ∧ mi' < 60 ∧ 0 ≤ s' ∧ s' < 60 ∧
      |(3600 * h' + 60 * mi' + s') - (3600 * h + 60 * mi + s)| ≤ 1 / 400 := by
  rw [init_yearStart hE, if_pos (by omega), ysInt_1161] at hlast
  obtain rfl := Option.some.inj hlast
  have hb := notin_badDays hE hd h1 h3 h4
  have hc := notin_changeDays hE hd h2
  obtain ⟨y0, y1, n0, n1⟩ := dayNumber_year hE hd
  have q0 := ysInt_mono (le_refl (-1843)) y0 (by omega)
  rw [ysInt_m1843] at q0
  have hP0 : 1721100 ≤ n + 1721423 := by omega
  have hP1 : n + 1721423 ≤ 2819700 := by omega
  -- the next sunset
  have hj2 : j' = ssE A (n + 1721423 + 1) := by
    have hb' : n + 1 + 1721423 ∉ badDays := by
      obtain ⟨z0, z1, hv, -⟩ := (dayNumber_iff hE).mp hnext
      have hchk := checkShort_day (init_isLeap hE z0 z1) z0 (by omega) hv
      apply notin_badDays hE hnext _ _ hne
      · intro hbad
        rw [date_jd_err hE hnext (List.mem_append_left _ hbad) hchk] at hj'
        cases hj'
      · intro hbad
        rw [date_jd_err hE hnext (List.mem_append_right _ hbad) hchk] at hj'
        cases hj'
    have := date_jd' hE hnext hb'
    rw [this] at hj'
    injection hj' with hj'
    rw [← hj', show n + 1 + 1721423 = n + 1721423 + 1 by ring]
  subst hj2
  obtain ⟨sf, s0', s1'⟩ := ssE_bounds hE (P := n + 1721423) (by omega) (by omega)
  have hPq : (1721100 : ℚ) ≤ ((n + 1721423 : ℤ) : ℚ) := by exact_mod_cast hP0
  have hPq1 : ((n + 1721423 : ℤ) : ℚ) ≤ 2819700 := by exact_mod_cast hP1
  have mq0 : (0 : ℚ) ≤ mi := by exact_mod_cast mi0
  have hh1 : h < 24 := by
    have : (h : ℚ) < ((24 : ℤ) : ℚ) := by push_cast; norm_num at hT; linarith
    exact Int.cast_lt.mp this
  -- the instant
  obtain ⟨c, hcy, d0, d1, m0, m1⟩ := dayNumber_cycle hE hd
  have hchk : (Cal.init A).checkShort ⟨y, m, d, [(h : ℚ), (mi : ℚ), s]⟩ = .ok () := by
    unfold Cal.checkShort
    rw [pyAssert_true (by simp [minYear, maxYear]; omega), pyOk_bind]
    exact checkTail_hms m0 m1 hcy d0 d1 hh0 (by omega) mi0 mi1 s0 s1
  obtain ⟨f, hf, f0, fe⟩ := decimalDay_err hh0 (by omega) mi0 mi1 s0 s1
  rw [date_jd_time hE hd hb hchk] at hj
  change (decimalDayFromHms h mi s 0 >>= _) = _ at hj
  rw [hf, pyOk_bind] at hj
  have fe := abs_le.mp fe
  norm_num at hT
  have xe := abs_le.mp (fl_err_le (x := ssE A (n + 1721423) + f) (B := 4194304)
    (by rw [abs_of_nonneg (by linarith)]; linarith))
  have xf := isF64_fl (ssE A (n + 1721423) + f)
  have xge : ssE A (n + 1721423) ≤ fl (ssE A (n + 1721423) + f) :=
    le_fl_of_le (by linarith) sf
  rw [pyRound12_id xf (by rw [abs_of_nonneg (by linarith)]; linarith)] at hj
  injection hj with hj
  rw [hj] at xe xf xge
  clear hj
  have hfr0 : 0 ≤ j - ssE A (n + 1721423) := by linarith
  have hfr1 : j - ssE A (n + 1721423) ≤ 1 - 1 / 40000000 := by linarith
  have hu : (Cal.init A).utcToBadiTime j tehranLat tehranLon
      = .ok (ssE A (n + 1721423), j - ssE A (n + 1721423)) := by
    rcases utc_cases hE xf hP0 hP1 xge hlt with ⟨-, h | h⟩ | ⟨h, -⟩ | ⟨-, h, -⟩ | ⟨-, h⟩ | ⟨-, h, h'⟩
    · exact absurd h hb
    · exact absurd h.1 hc
    · exact h
    · linarith
    · exact absurd (by rw [h]; decide) hb
    · exact absurd h' (not_midnight h h5)
  have hy := ymd_ok hE hu (civilDay_ssE (by omega) (by omega) (by push_cast at *; linarith)
    (by push_cast at *; linarith)) hn hd
  obtain ⟨k, v, w, hden, e1⟩ := badiDate_ok hE true trim hd hy hfr0 (fun _ => hfr1)
  have hs := hms_spec hfr0
  simp only at hs
  rw [Int.fract_eq_self.mpr ⟨hfr0, by linarith⟩] at hs
  obtain ⟨a1, a2, a3, a4, a5, a6, a7, a8, -⟩ := hs
  refine ⟨_, _, _, by simpa using e1, a1, a8 hfr1, a3, a4, a5, a6, ?_⟩
  have a7 := abs_le.mp a7
  rw [abs_le]
  constructor <;> linarith

/-- The hypotheses of `C29_time_of_day_partial` are met by 12:30:15.5 on (181, 5, 7). -/
example : ∃ (n : ℤ) (j j' : ℚ), DayNumber (Cal.init sixPm) 181 5 7 n ∧
    DayNumber (Cal.init sixPm) 181 5 8 (n + 1) ∧ n ≤ 1096902 ∧
    (Cal.init sixPm).jdFromBadiDateDefault ⟨181, 5, 7, [12, 30, 15.5]⟩ = .ok j ∧
    (Cal.init sixPm).jdFromBadiDateDefault ⟨181, 5, 8, []⟩ = .ok j' ∧ j < j' := by
  have hd : ∀ d : ℤ, 1 ≤ d → d ≤ 19 → DayNumber (Cal.init sixPm) 181 5 d (ysInt 181 + 76 + d - 1) :=
    fun d h1 h2 => (dayNumber_iff sixPm_tehran).mpr
      ⟨by omega, by omega, Or.inl ⟨by omega, by omega, h1, h2⟩, by
        rw [show dBefore (leapOf 181) 5 = 76 by decide +kernel]⟩
  have e : ysInt 181 = 738964 := by decide +kernel
  have h7 := hd 7 (by omega) (by omega)
  have h8 := hd 8 (by omega) (by omega)
  rw [e] at h7 h8
  exact ⟨739046, 2641909146849563 / 1073741824, 5283819322316453 / 2147483648, h7, h8, by omega,
    by decide +kernel, by decide +kernel, by norm_num⟩

/-! ## C30 -/

/-- C30 for the date in the default (long) form: for any two instants of the era, whatever the evening
sunset times are, if both have a date then the date of the later instant is not before the date of the
earlier one. Missing from the full property: the time of day within the date, and the short
form; both are false, see below. -/
theorem C30_day_monotone_partial (A : Astro) (hE : TehranEvening A) (x1 x2 : ℚ) (hx1 : IsF64 x1)
    (hx2 : IsF64 x2) (hlo : 1721101 ≤ x1) (hle : x1 ≤ x2) (hhi : x2 ≤ 2819700) (trim : Bool)
    (l1 l2 : LongT)
    (h1 : (Cal.init A).badiDateFromJd x1 tehranLat tehranLon { trim := trim } = .ok (.long l1))
    (h2 : (Cal.init A).badiDateFromJd x2 tehranLat tehranLon { trim := trim } = .ok (.long l2)) :
    ∃ y1 y2 d1 d2 n1 n2 : ℤ, DenotesYear l1.k l1.v l1.y y1 ∧ DenotesYear l2.k l2.v l2.y y2 ∧
      l1.d = d1 ∧ l2.d = d2 ∧
      DayNumber (Cal.init A) y1 l1.m d1 n1 ∧ DayNumber (Cal.init A) y2 l2.m d2 n2 ∧ n1 ≤ n2 := by
  obtain ⟨P1, a0, a1, a2, a3⟩ := day_of_instant hE (x := x1) (by linarith) (by linarith)
  obtain ⟨P2, b0, b1, b2, b3⟩ := day_of_instant hE (x := x2) (by linarith) (by linarith)
  have lowP : ∀ (P : ℤ) (x : ℚ), 1721099 ≤ P → 1721101 ≤ x → x < ssE A (P + 1) → 1721100 ≤ P := by
    intro P x hP hx hlt
    by_contra hc
    have : P = 1721099 := by omega
    subst this
    obtain ⟨-, -, v⟩ := ssE_bounds hE (P := 1721100) (by omega) (by omega)
    norm_num at hlt v
    linarith
  have P1lo := lowP P1 x1 a0 hlo a3
  have P2lo := lowP P2 x2 b0 (by linarith) b3
  -- the first half of the conversion succeeded
  have inv : ∀ (x : ℚ) (l : LongT) (P : ℤ), IsF64 x → 1721100 ≤ P → P ≤ 2819700 →
      ssE A P ≤ x → x < ssE A (P + 1) →
      (Cal.init A).badiDateFromJd x tehranLat tehranLon { trim := trim } = .ok (.long l) →
      ∃ y d n, DenotesYear l.k l.v l.y y ∧ l.d = ((d : ℤ) : ℚ) ∧ DayNumber (Cal.init A) y l.m d n ∧
        ((n + 1721423 = P ∧ x - ssE A P < 1 ∧ ¬ (2299149 ≤ P ∧ P ≤ 2299158)) ∨
         (n + 1721423 = P + 1 ∧ 1 ≤ x - ssE A P ∧ ¬ (2299148 ≤ P ∧ P ≤ 2299158)) ∨
         (n + 1721423 = 2299149 ∧ P = 2299158)) := by
    intro x l P hx p0 p1 q0 q1 h
    rcases hy : (Cal.init A).badiYmdFromJd x tehranLat tehranLon with e | ⟨y, m, d, fr⟩
    · unfold Cal.badiDateFromJd at h
      rw [show xorBoolean [false, false, false] = true by decide] at h
      simp only [pyAssert, hy] at h
      cases h
    · obtain ⟨n, hd, hf, hc⟩ := ymd_day hE hx p0 p1 q0 q1 hy
      obtain ⟨k, v, w, hden, e⟩ := badiDate_ok hE false trim hd hy hf (by simp)
      rw [h] at e
      simp only [Bool.false_eq_true, if_false, Except.ok.injEq, BDate.long.injEq] at e
      subst e
      exact ⟨y, d, n, hden, rfl, hd, hc⟩
  obtain ⟨y1, d1, n1, e1, f1, g1, c1⟩ := inv x1 l1 P1 hx1 P1lo a1 a2 a3 h1
  obtain ⟨y2, d2, n2, e2, f2, g2, c2⟩ := inv x2 l2 P2 hx2 P2lo b1 b2 b3 h2
  refine ⟨y1, y2, d1, d2, n1, n2, e1, e2, f1, f2, g1, g2, ?_⟩
  have hP : P1 ≤ P2 := by
    by_contra hc
    push Not at hc
    obtain ⟨-, u0, -⟩ := ssE_bounds hE (P := P1) (by omega) (by omega)
    obtain ⟨-, -, v1⟩ := ssE_bounds hE (P := P2 + 1) (by omega) (by omega)
    rcases eq_or_lt_of_le (show P2 + 1 ≤ P1 by omega) with h | h
    · rw [h] at b3; linarith
    · have : ((P2 + 1 + 1 : ℤ) : ℚ) ≤ P1 := by exact_mod_cast (by omega : P2 + 1 + 1 ≤ P1)
      push_cast at this v1
      linarith
  rcases eq_or_lt_of_le hP with h | h
  · subst h
    rcases c1 with ⟨a, b, c⟩ | ⟨a, b, c⟩ | ⟨a, b⟩ <;> rcases c2 with ⟨a', b', c'⟩ | ⟨a', b', c'⟩ | ⟨a', b'⟩ <;>
      first | omega | (exfalso; linarith)
  · rcases c1 with ⟨a, b, c⟩ | ⟨a, b, c⟩ | ⟨a, b⟩ <;> rcases c2 with ⟨a', b', c'⟩ | ⟨a', b', c'⟩ | ⟨a', b'⟩ <;>
      omega

/-- Two instants meeting the hypotheses: sunset of Naw-Rúz 181 and a sunset later that year. -/
example : ∃ l1 l2 : LongT,
    (Cal.init sixPm).badiDateFromJd (ssE sixPm 2460388) tehranLat tehranLon {} = .ok (.long l1) ∧
    (Cal.init sixPm).badiDateFromJd (ssE sixPm 2460400) tehranLat tehranLon {} = .ok (.long l2) ∧
    ssE sixPm 2460388 ≤ ssE sixPm 2460400 ∧ l1 ≠ l2 := by
  refine ⟨⟨1, 10, 10, 1, 2, []⟩, ⟨1, 10, 10, 1, 14, []⟩, ?_⟩
  decide +kernel

/-- The sun sets at 17:45:36 until a day of the year 181 and at 18:14:24 from then on. -/
def laterSunset : Astro := ⟨fun j _ _ => if j < 2460407 then 74 / 100 else 76 / 100⟩

theorem laterSunset_tehran : TehranEvening laterSunset := by
  intro D _ _
  unfold sunsetTime laterSunset
  simp only
  split_ifs <;> norm_num

/-- The sun sets at 17:45:36 until the second of the tenth month of the year -814 and at 18:14:24 from then on. -/
def midnightJump : Astro := ⟨fun j _ _ => if j < 2097151 then 74 / 100 else 76 / 100⟩

theorem midnightJump_tehran : TehranEvening midnightJump := by
  intro D _ _
  unfold sunsetTime midnightJump
  simp only
  split_ifs <;> norm_num

/-- C29 is false at the midnight excluded in `C29_time_of_day_partial`: a quarter to six comes back half an hour later,
because the code counts from the sunset of the day before. A hundred microseconds earlier and later the time comes
back. -/
theorem C29_midnight_negation :
    ∃ (A : Astro) (j : ℚ), TehranEvening A ∧ IsF64 j ∧
      (Cal.init A).jdFromBadiDateDefault ⟨-814, 10, 3, [5, 45, 36 - 3 / 131072]⟩ = .ok j ∧
      (Cal.init A).badiDateFromJd j tehranLat tehranLon { short := true }
        = .ok (.short ⟨-814, 10, 3, [6, 14, 24]⟩) ∧
      ∀ e ∈ [(-1 / 1000000000 : ℚ), 1 / 1000000000],
        (Cal.init A).badiDateFromJd (fl (j + e)) tehranLat tehranLon { short := true }
          = .ok (.short ⟨-814, 10, 3, [5, 45, 36]⟩) := by
  refine ⟨midnightJump, 4503583215294117 / 2147483648, midnightJump_tehran, ?_⟩
  unfold IsF64
  decide +kernel

/-- C30 is false with the time of day: when the sun sets later than the day before, the date changes 24
hours after the previous sunset, and at the real sunset the time of day jumps back to zero. -/
theorem C30_time_of_day_negation :
    ∃ (A : Astro) (x1 x2 : ℚ), TehranEvening A ∧ IsF64 x1 ∧ IsF64 x2 ∧ x1 < x2 ∧
      (Cal.init A).badiDateFromJd x1 tehranLat tehranLon { short := true }
        = .ok (.short ⟨181, 2, 1, [0, 14, 24]⟩) ∧
      (Cal.init A).badiDateFromJd x2 tehranLat tehranLon { short := true }
        = .ok (.short ⟨181, 2, 1, []⟩) := by
  refine ⟨laterSunset, fl (ssE laterSunset 2460405 + 101 / 100), ssE laterSunset 2460406,
    laterSunset_tehran, ?_⟩
  unfold IsF64
  decide +kernel

/-- C30 is false in the short form: in the last 1.8 milliseconds of a 24 hour day, the short form
of the last day of the first month is the last day of the second month, at 23:00; at the sunset that
follows it is the first day of the second month. -/
theorem C30_short_form_negation :
    ∃ (A : Astro) (x1 x2 : ℚ), TehranEvening A ∧ IsF64 x1 ∧ IsF64 x2 ∧ x1 < x2 ∧
      (Cal.init A).badiDateFromJd x1 tehranLat tehranLon { short := true }
        = .ok (.short ⟨181, 2, 19, [23]⟩) ∧
      (Cal.init A).badiDateFromJd x2 tehranLat tehranLon { short := true }
        = .ok (.short ⟨181, 2, 1, []⟩) := by
  refine ⟨sixPm, 1320920470840745 / 536870912, 5283681883362981 / 2147483648, sixPm_tehran, ?_⟩
  unfold IsF64
  decide +kernel

end Verif
