import Verif.Lemmas.Place
import Verif.Model.Place
import Verif.Spec.Witness

/-!
# C94: dates and Julian days at places other than Tehran
-/

namespace Verif

/-! ## C94 -/

/-- Every date from year -260 (1583) on is an ordinary day. -/
theorem ordinary_of_year {A : Astro} (hE : TehranEvening A) {y m d n : ℤ}
    (hd : DayNumber (Cal.init A) y m d n) (hy : -260 ≤ y) : OrdinaryDay n := by
  obtain ⟨y0, y1, n0, n1⟩ := dayNumber_year hE hd
  have := ysInt_mono (a := -260) (b := y) (by omega) hy (by omega)
  have e : 577740 ≤ ysInt (-260) := by decide +kernel
  refine ⟨?_, by omega, by omega⟩
  simp only [scaleChanges, List.forall_mem_cons, List.not_mem_nil, false_imp_iff, implies_true, and_true]
  omega

theorem day_lo {A : Astro} (hE : TehranEvening A) {y m d n : ℤ}
    (hd : DayNumber (Cal.init A) y m d n) : -300 ≤ n := by
  obtain ⟨y0, y1, n0, n1⟩ := dayNumber_year hE hd
  have := ysInt_mono (a := -1843) (b := y) (by omega) y0 (by omega)
  have e : -300 ≤ ysInt (-1843) := by decide +kernel
  omega

theorem noon_place {lon : ℚ} (l0 : -180 ≤ lon) (l1 : lon ≤ 179.9999) {n c : ℤ} (h0 : -1000 ≤ n)
    (h1 : n ≤ 1200000) (c0 : 0 ≤ c) (c1 : c ≤ 12) :
    civilDay ((n + 1721423 + c : ℤ) : ℚ) (fl (lon / 360)) = n + 1721423 + c := by
  norm_num at l1
  apply civilDay_noon (by omega) (by omega) (lonFrac_lo l0)
  have := abs_le.mp (fl_err_le (x := lon / 360) (B := 1) (abs_le.mpr ⟨by linarith, by linarith⟩))
  linarith

/-- The start of an ordinary day at a place west of the date line. -/
theorem start_place {A : Astro} {lat lon : ℚ} (hE : TehranEvening A) (hS : SunSets A lat lon) (l0 : -180 ≤ lon)
    (l1 : lon ≤ 179.9999) {y m d n : ℤ} (hd : DayNumber (Cal.init A) y m d n) (hP : Quiet (n + 1721423)) :
    (Cal.init A).jdFromBadiDate ⟨y, m, d, []⟩ lat lon = .ok (ssP A lat lon (n + 1721423)) := by
  have p0 := hP.1
  have p1 := hP.2.1
  obtain ⟨b0, b1⟩ := scaleDiff_bounds (n + 1721423)
  exact jd_place_start hE hS (lonFrac_abs l0 (by norm_num at l1; linarith)) hd hP
    (noon_place l0 l1 (by omega) (by omega) b0 b1) (by omega) (by omega)

/-- At every place west of longitude 179.9999 where the sun sets on every local civil day, whatever
the sunset times are, and for every instant `x` from the start of a date to the start of the next
one, less than 24 hours after the first: `badi_date_from_jd` at that place gives this date in the long
form, and in the short form if `x` is not in the last two milliseconds of the 24 hours. The time of
day is the time elapsed since the start of the date, up to 2.5 ms. For the ordinary days up to the first
day of year 1161 (all days from year -260, by `ordinary_of_year`). Missing from the full property: the other 96
days, instants more than 24 hours after the start of their date, and longitudes up to 180 (see
`C94_date_line_negation`). -/
theorem C94_instant_partial (A : Astro) (hE : TehranEvening A) (lat lon zone : ℚ)
    (l0 : -180 ≤ lon) (l1 : lon ≤ 179.9999) (hS : SunSets A lat lon)
    (y m d n last : ℤ) (hd : DayNumber (Cal.init A) y m d n) (ho : OrdinaryDay n)
    (hlast : (Cal.init A).yearStart 1161 = some last) (hn : n ≤ last)
    (y' m' d' : ℤ) (hnext : DayNumber (Cal.init A) y' m' d' (n + 1)) (j j' x : ℚ)
    (hj : (Cal.init A).jdFromBadiDateAt ⟨y, m, d, []⟩ (some lat) (some lon) (some zone) = .ok j)
    (hj' : (Cal.init A).jdFromBadiDateAt ⟨y', m', d', []⟩ (some lat) (some lon) (some zone) = .ok j')
    (hx : IsF64 x) (hx0 : j ≤ x) (hx1 : x < j') (hx2 : x < j + 1) (trim : Bool) :
    ∃ (h mi : ℤ) (s : ℚ),
      (∃ k v w : ℤ, DenotesYear k v w y ∧
        (Cal.init A).badiDateFromJdAt x (some lat) (some lon) (some zone)
          { short := false, trim := trim }
          = .ok (.long ⟨k, v, w, m, d, trimHms [(h : ℚ), (mi : ℚ), s]⟩)) ∧
      (x ≤ j + 1 - 1 / 40000000 →
        (Cal.init A).badiDateFromJdAt x (some lat) (some lon) (some zone)
          { short := true, trim := trim }
          = .ok (.short ⟨y, m, d, trimHms [(h : ℚ), (mi : ℚ), s]⟩) ∧ h < 24) ∧
      0 ≤ h ∧ h ≤ 24 ∧ 0 ≤ mi ∧ mi < 60 ∧ 0 ≤ s ∧ s < 60 ∧
      |(3600 * h + 60 * mi + s) - 86400 * (x - j)| ≤ 1 / 400 := by
  rw [init_yearStart hE, if_pos (by omega), ysInt_1161] at hlast
  obtain rfl := Option.some.inj hlast
  have hl := lonFrac_abs l0 (by norm_num at l1; linarith : lon ≤ 180)
  have n0 := day_lo hE hd
  have q0 := ho.quiet n0 (by omega)
  have q1 := ho.quiet_next n0 (by omega)
  change (Cal.init A).jdFromBadiDate _ lat lon = _ at hj hj'
  rw [start_place hE hS l0 l1 hd q0] at hj
  rw [start_place hE hS l0 l1 hnext q1] at hj'
  injection hj with hj
  injection hj' with hj'
  rw [show n + 1 + 1721423 = n + 1721423 + 1 by ring] at hj'
  subst hj hj'
  have hu := utc_place (A := A) (C := Cal.init A) rfl hS hl hx q0 hx0
    hx1 hx2
  have hc := civilDay_ssP hS hl (P := n + 1721423) (by omega) (by omega)
  have hyy := ymd_ok hE hu hc hn hd
  have f0 : 0 ≤ x - ssP A lat lon (n + 1721423) := by linarith
  have hs := hms_spec f0
  simp only at hs
  rw [Int.fract_eq_self.mpr ⟨f0, by linarith⟩] at hs
  obtain ⟨a1, a2, a3, a4, a5, a6, a7, a8, -⟩ := hs
  refine ⟨_, _, _, ?_, ?_, a1, a2, a3, a4, a5, a6, a7.trans (by norm_num)⟩
  · obtain ⟨k, v, w, hden, e⟩ := badiDate_ok hE false trim hd hyy f0 (by simp)
    exact ⟨k, v, w, hden, by simpa [Cal.badiDateFromJdAt, placeOr] using e⟩
  · intro hx3
    obtain ⟨k, v, w, hden, e⟩ := badiDate_ok hE true trim hd hyy f0 (fun _ => by linarith)
    exact ⟨by simpa [Cal.badiDateFromJdAt, placeOr] using e, a8 (by linarith)⟩

/-- At every place west of longitude 179.9999 where the sun sets on every local civil day, and for
every ordinary day up to the first day of year 1161, `badi_date_from_jd` undoes
`jd_from_badi_date`, in both forms. -/
theorem C94_round_trip_partial (A : Astro) (hE : TehranEvening A) (lat lon zone : ℚ)
    (l0 : -180 ≤ lon) (l1 : lon ≤ 179.9999) (hS : SunSets A lat lon)
    (y m d n last : ℤ) (hd : DayNumber (Cal.init A) y m d n) (ho : OrdinaryDay n)
    (hlast : (Cal.init A).yearStart 1161 = some last) (hn : n ≤ last) (trim : Bool) :
    ∃ j : ℚ,
      (Cal.init A).jdFromBadiDateAt ⟨y, m, d, []⟩ (some lat) (some lon) (some zone) = .ok j ∧
      (Cal.init A).badiDateFromJdAt j (some lat) (some lon) (some zone)
        { short := true, trim := trim } = .ok (.short ⟨y, m, d, []⟩) ∧
      ∃ k v w : ℤ, DenotesYear k v w y ∧
        (Cal.init A).badiDateFromJdAt j (some lat) (some lon) (some zone)
          { short := false, trim := trim } = .ok (.long ⟨k, v, w, m, d, []⟩) := by
  rw [init_yearStart hE, if_pos (by omega), ysInt_1161] at hlast
  obtain rfl := Option.some.inj hlast
  have hl := lonFrac_abs l0 (by norm_num at l1; linarith : lon ≤ 180)
  have n0 := day_lo hE hd
  have q0 := ho.quiet n0 (by omega)
  have q1 := ho.quiet_next n0 (by omega)
  refine ⟨_, start_place hE hS l0 l1 hd q0, ?_⟩
  obtain ⟨sf, s0, s1⟩ := ssP_bounds hS hl (P := n + 1721423) (by omega) (by omega)
  obtain ⟨tf, t0, t1⟩ := ssP_bounds hS hl (P := n + 1721423 + 1) (by omega) (by omega)
  push_cast at s0 s1 t0 t1
  have hu := utc_place (A := A) (C := Cal.init A) rfl hS hl sf q0
    (le_refl _) (by linarith) (by linarith)
  rw [sub_self] at hu
  have hc := civilDay_ssP hS hl (P := n + 1721423) (by omega) (by omega)
  have hyy := ymd_ok hE hu hc hn hd
  have hz : trimHms [((hmsFromDecimalDay 0).1 : ℚ), ((hmsFromDecimalDay 0).2.1 : ℚ),
      (hmsFromDecimalDay 0).2.2] = [] := by decide +kernel
  obtain ⟨k, v, w, hden, e1⟩ := badiDate_ok hE true trim hd hyy (le_refl _) (by norm_num)
  obtain ⟨k', v', w', hden', e2⟩ := badiDate_ok hE false trim hd hyy (le_refl _) (by norm_num)
  rw [hz] at e1 e2
  exact ⟨by simpa [Cal.badiDateFromJdAt, placeOr] using e1, k', v', w', hden', by simpa [Cal.badiDateFromJdAt, placeOr] using e2⟩

/-- The hypotheses are met at latitude 60 north, longitude 150 west, where the sun of the witness sets at
18:00, by the fifth day of Ayyám-i-Há of year 182 and by the first of Jalál of year -900. -/
example : TehranEvening sixPm ∧ SunSets sixPm 60 (-150) ∧
    (∃ n, DayNumber (Cal.init sixPm) 182 0 5 n ∧ OrdinaryDay n ∧ n ≤ 1096902) ∧
    ∃ n, DayNumber (Cal.init sixPm) (-900) 2 1 n ∧ OrdinaryDay n ∧ n ≤ 1096902 :=
  ⟨sixPm_tehran, fun D _ _ => by constructor <;> norm_num [sunsetTime, sixPm],
    ⟨ysInt 182 + 346, (dayNumber_iff sixPm_tehran).mpr
      ⟨by omega, by omega, Or.inr ⟨rfl, by omega, by decide +kernel⟩, by decide +kernel⟩,
    by decide +kernel, by decide +kernel⟩,
    ysInt (-900) + 19, (dayNumber_iff sixPm_tehran).mpr
      ⟨by omega, by omega, Or.inl ⟨by omega, by omega, by omega, by omega⟩, by decide +kernel⟩,
    by decide +kernel, by decide +kernel⟩

/-- Times of day: for every date of the same range and every time of day up to 23:59:59.99 that
lies before the start of the next date, `badi_date_from_jd` gives the date back, and the time up
to 2.5 ms. -/
theorem C94_time_of_day_partial (A : Astro) (hE : TehranEvening A) (lat lon zone : ℚ)
    (l0 : -180 ≤ lon) (l1 : lon ≤ 179.9999) (hS : SunSets A lat lon)
    (y m d n last h mi : ℤ) (s : ℚ) (hd : DayNumber (Cal.init A) y m d n) (ho : OrdinaryDay n)
    (hlast : (Cal.init A).yearStart 1161 = some last) (hn : n ≤ last)
    (hh0 : 0 ≤ h) (mi0 : 0 ≤ mi) (mi1 : mi < 60) (s0 : 0 ≤ s) (s1 : s < 60)
    (hT : 3600 * h + 60 * mi + s ≤ 86399.99)
    (y' m' d' : ℤ) (hnext : DayNumber (Cal.init A) y' m' d' (n + 1)) (j' : ℚ)
    (hj' : (Cal.init A).jdFromBadiDateAt ⟨y', m', d', []⟩ (some lat) (some lon) (some zone) = .ok j')
    (j : ℚ)
    (hj : (Cal.init A).jdFromBadiDateAt ⟨y, m, d, [(h : ℚ), (mi : ℚ), s]⟩ (some lat) (some lon)
      (some zone) = .ok j) (hlt : j < j') (trim : Bool) :
    ∃ (h' mi' : ℤ) (s' : ℚ), (Cal.init A).badiDateFromJdAt j (some lat) (some lon) (some zone)
        { short := true, trim := trim }
        = .ok (.short ⟨y, m, d, trimHms [(h' : ℚ), (mi' : ℚ), s']⟩) ∧
      0 ≤ h' ∧ h' < 24 ∧ 0 ≤ mi' ∧ mi' < 60 ∧ 0 ≤ s' ∧ s' < 60 ∧
      |(3600 * h' + 60 * mi' + s') - (3600 * h + 60 * mi + s)| ≤ 1 / 200 := by
  have hlast' := hlast
  rw [init_yearStart hE, if_pos (by omega), ysInt_1161] at hlast'
  obtain rfl := Option.some.inj hlast'
  have hl := lonFrac_abs l0 (by norm_num at l1; linarith : lon ≤ 180)
  have n0 := day_lo hE hd
  have q0 := ho.quiet n0 (by omega)
  have q1 := ho.quiet_next n0 (by omega)
  obtain ⟨y0, y1, -, -⟩ := dayNumber_year hE hd
  have cb := scaleDiff_bounds (n + 1721423)
  have hQ := noon_place l0 l1 (n := n) (by omega) (by omega) cb.1 cb.2
  have hst := start_place hE hS l0 l1 hd q0
  obtain ⟨sf, b0, b1⟩ := ssP_bounds hS hl (P := n + 1721423) (by omega) (by omega)
  have ha := abs_le.mp hl
  obtain ⟨hPq, hPq1⟩ := q0.cast
  have mq0 : (0 : ℚ) ≤ mi := by exact_mod_cast mi0
  have hh1 : h < 24 := by
    have : (h : ℚ) < ((24 : ℤ) : ℚ) := by push_cast; norm_num at hT; linarith
    exact Int.cast_lt.mp this
  obtain ⟨c, hcy, d0, d1, m0, m1⟩ := dayNumber_cycle hE hd
  have hchk : (Cal.init A).checkShort ⟨y, m, d, [(h : ℚ), (mi : ℚ), s]⟩ = .ok () := by
    unfold Cal.checkShort
    rw [pyAssert_true (by simp [minYear, maxYear]; omega), pyOk_bind]
    exact checkTail_hms m0 m1 hcy d0 d1 hh0 (by omega) mi0 mi1 s0 s1
  obtain ⟨f, hf, f0, fe⟩ := decimalDay_err hh0 (by omega) mi0 mi1 s0 s1
  change (Cal.init A).jdFromBadiDate _ lat lon = _ at hj
  rw [jd_place hE hS hl hd q0 hchk hQ (by omega) (by omega)] at hj
  change (decimalDayFromHms h mi s 0 >>= _) = _ at hj
  rw [hf, pyOk_bind] at hj
  have fe := abs_le.mp fe
  norm_num at hT
  have xe := abs_le.mp (fl_err_le (x := ssP A lat lon (n + 1721423) + f) (B := 4194304)
    (by rw [abs_of_nonneg (by linarith)]; linarith))
  have xf := isF64_fl (ssP A lat lon (n + 1721423) + f)
  have xge : ssP A lat lon (n + 1721423) ≤ fl (ssP A lat lon (n + 1721423) + f) :=
    le_fl_of_le (by linarith) sf
  rw [pyRound12_id xf (by rw [abs_of_nonneg (by linarith)]; linarith)] at hj
  injection hj with hj
  rw [hj] at xe xf xge
  obtain ⟨h', mi', s', -, e, a1, -, a3, a4, a5, a6, a7⟩ := C94_instant_partial A hE lat lon zone l0 l1
    hS y m d n _ hd ho hlast hn y' m' d' hnext _ j' j hst hj' xf xge hlt (by linarith) trim
  obtain ⟨e1, e2⟩ := e (by linarith)
  refine ⟨h', mi', s', e1, a1, e2, a3, a4, a5, a6, ?_⟩
  have a7 := abs_le.mp a7
  rw [abs_le]
  constructor <;> linarith

/-- The hypotheses of `C94_time_of_day_partial` are met by 12:30:15.5 on (181, 5, 7) at longitude
150 west. -/
example : ∃ (n : ℤ) (j j' : ℚ), DayNumber (Cal.init sixPm) 181 5 7 n ∧
    DayNumber (Cal.init sixPm) 181 5 8 (n + 1) ∧ OrdinaryDay n ∧ n ≤ 1096902 ∧
    (Cal.init sixPm).jdFromBadiDateAt ⟨181, 5, 7, [12, 30, 15.5]⟩ (some 60) (some (-150)) (some (-9))
      = .ok j ∧
    (Cal.init sixPm).jdFromBadiDateAt ⟨181, 5, 8, []⟩ (some 60) (some (-150)) (some (-9)) = .ok j' ∧
    j < j' := by
  have hd : ∀ d : ℤ, 1 ≤ d → d ≤ 19 → DayNumber (Cal.init sixPm) 181 5 d (ysInt 181 + 76 + d - 1) :=
    fun d h1 h2 => (dayNumber_iff sixPm_tehran).mpr
      ⟨by omega, by omega, Or.inl ⟨by omega, by omega, h1, h2⟩, by
        rw [show dBefore (leapOf 181) 5 = 76 by decide +kernel]⟩
  have e : ysInt 181 = 738964 := by decide +kernel
  have h7 := hd 7 (by omega) (by omega)
  have h8 := hd 8 (by omega) (by omega)
  rw [e] at h7 h8
  have c1 : ∃ j : ℚ, (Cal.init sixPm).jdFromBadiDateAt ⟨181, 5, 7, [12, 30, 15.5]⟩ (some 60)
      (some (-150)) (some (-9)) = .ok j ∧ j < 2460470.3 := by
    refine ⟨((Cal.init sixPm).jdFromBadiDateAt ⟨181, 5, 7, [12, 30, 15.5]⟩ (some 60)
      (some (-150)) (some (-9))).toOption.getD 0, ?_, ?_⟩ <;> decide +kernel
  have c2 : ∃ j : ℚ, (Cal.init sixPm).jdFromBadiDateAt ⟨181, 5, 8, []⟩ (some 60)
      (some (-150)) (some (-9)) = .ok j ∧ 2460470.3 < j := by
    refine ⟨((Cal.init sixPm).jdFromBadiDateAt ⟨181, 5, 8, []⟩ (some 60)
      (some (-150)) (some (-9))).toOption.getD 0, ?_, ?_⟩ <;> decide +kernel
  obtain ⟨j, e1, e2⟩ := c1
  obtain ⟨j', e3, e4⟩ := c2
  exact ⟨739046, j, j', h7, h8, by decide, by omega, e1, e3, e2.trans e4⟩

/-- C94 is false on the date line: at longitude 180, at any latitude where the sun sets on every
local civil day, every ordinary day up to the last but one of year 1160 comes back as the date
that follows it. -/
theorem C94_date_line_negation (A : Astro) (hE : TehranEvening A) (lat zone : ℚ)
    (hS : SunSets A lat 180) (y m d n last : ℤ) (hd : DayNumber (Cal.init A) y m d n) (ho : OrdinaryDay n)
    (hlast : (Cal.init A).yearStart 1161 = some last) (hn : n < last)
    (y' m' d' : ℤ) (hnext : DayNumber (Cal.init A) y' m' d' (n + 1)) (trim : Bool) :
    ∃ j : ℚ,
      (Cal.init A).jdFromBadiDateAt ⟨y, m, d, []⟩ (some lat) (some 180) (some zone) = .ok j ∧
      (Cal.init A).badiDateFromJdAt j (some lat) (some 180) (some zone)
        { short := true, trim := trim } = .ok (.short ⟨y', m', d', []⟩) := by
  rw [init_yearStart hE, if_pos (by omega), ysInt_1161] at hlast
  obtain rfl := Option.some.inj hlast
  have hl : |fl ((180 : ℚ) / 360)| ≤ 1 / 2 := lonFrac_abs (by norm_num) (le_refl _)
  have n0 := day_lo hE hd
  have q0 := ho.quiet n0 (by omega)
  have q1 := ho.quiet_next n0 (by omega)
  have cb := scaleDiff_bounds (n + 1721423)
  refine ⟨_, jd_place_start (Q := n + 1 + 1721423) hE hS hl hd q0
    (by rw [civilDay_dateLine (by omega) (by omega)]; ring) (by omega) (by omega), ?_⟩
  obtain ⟨sf, s0, s1⟩ := ssP_bounds hS hl (P := n + 1 + 1721423) (by omega) (by omega)
  obtain ⟨tf, t0, t1⟩ := ssP_bounds hS hl (P := n + 1 + 1721423 + 1) (by omega) (by omega)
  push_cast at s0 s1 t0 t1
  have hu := utc_place (A := A) (C := Cal.init A) rfl hS hl sf q1
    (le_refl _) (by linarith) (by linarith)
  rw [sub_self] at hu
  have hc := civilDay_ssP hS hl (P := n + 1 + 1721423) (by omega) (by omega)
  have hyy := ymd_ok hE hu hc (by omega) hnext
  have hz : trimHms [((hmsFromDecimalDay 0).1 : ℚ), ((hmsFromDecimalDay 0).2.1 : ℚ),
      (hmsFromDecimalDay 0).2.2] = [] := by decide +kernel
  obtain ⟨k, v, w, hden, e1⟩ := badiDate_ok hE true trim hnext hyy (le_refl _) (by norm_num)
  rw [hz] at e1
  simpa [Cal.badiDateFromJdAt, placeOr] using e1

/-- The hypotheses are met: the sun of the witness sets on the date line, and (182, 1, 1) follows
(181, 19, 19). -/
example : SunSets sixPm (-17) 180 ∧ ∃ n, DayNumber (Cal.init sixPm) 181 19 19 n ∧
    DayNumber (Cal.init sixPm) 182 1 1 (n + 1) ∧ OrdinaryDay n ∧ n < 1096902 :=
  ⟨fun D _ _ => by constructor <;> norm_num [sunsetTime, sixPm], ysInt 182 - 1,
    (dayNumber_iff sixPm_tehran).mpr
      ⟨by omega, by omega, Or.inl ⟨by omega, by omega, by omega, by omega⟩, by decide +kernel⟩,
    (dayNumber_iff sixPm_tehran).mpr
      ⟨by omega, by omega, Or.inl ⟨by omega, by omega, by omega, by omega⟩, by decide +kernel⟩,
    by decide +kernel, by decide +kernel⟩

/-- The coordinates are ignored when the zone is left out: at every place west of longitude 20
west with the same evening window as Tehran, the start of every date asked for with `lat` and `lon` only is
the sunset of Tehran, and never the one found with a zone. -/
theorem C94_no_zone_negation (A : Astro) (hE : TehranEvening A) (lat lon zone : ℚ)
    (l0 : -180 ≤ lon) (l1 : lon ≤ -20) (hS : Evening A lat lon)
    (y m d n : ℤ) (hd : DayNumber (Cal.init A) y m d n) (ho : OrdinaryDay n) :
    ∃ j j' : ℚ,
      (Cal.init A).jdFromBadiDateAt ⟨y, m, d, []⟩ (some lat) (some lon) none = .ok j ∧
      (Cal.init A).jdFromBadiDateAt ⟨y, m, d, []⟩ none none none = .ok j ∧
      (Cal.init A).jdFromBadiDateAt ⟨y, m, d, []⟩ (some lat) (some lon) (some zone) = .ok j' ∧
      j < j' := by
  have toSets : ∀ {lat lon}, Evening A lat lon → SunSets A lat lon := by
    intro lat lon h D h0 h1
    obtain ⟨a, b⟩ := h D (by have : eraFirst = 1721000 := rfl; omega) h1
    constructor <;> linarith
  have hl := lonFrac_abs l0 (by linarith : lon ≤ 180)
  have n0 := day_lo hE hd
  obtain ⟨y0, y1, -, n1⟩ := dayNumber_year hE hd
  have n2 := ysInt_mono (a := y + 1) (b := 1162) (by omega) (by omega) (by omega)
  rw [ysInt_1162] at n2
  have q0 := ho.quiet n0 (by omega)
  have t0 : (-180 : ℚ) ≤ tehranLon := by decide +kernel
  have t1 : tehranLon ≤ (179.9999 : ℚ) := by decide +kernel
  have jT := start_place hE (toSets hE) t0 t1 hd q0
  have jP := start_place hE (toSets hS) l0 (by norm_num; linarith) hd q0
  refine ⟨_, _, jT, jT, jP, ?_⟩
  have e0 : eraFirst = 1721000 := rfl
  have e1 : eraLast = 2820000 := rfl
  have cb := scaleDiff_bounds (n + 1721423)
  obtain ⟨a0, a1⟩ := hE (n + 1721423 + scaleDiff (n + 1721423)) (by omega) (by omega)
  obtain ⟨b0, b1⟩ := hS (n + 1721423 + scaleDiff (n + 1721423)) (by omega) (by omega)
  have sT := abs_le.mp (ssOf_spec (A := A) (lat := tehranLat) lonT_abs (D := n + 1721423 + scaleDiff (n + 1721423))
    (by omega) (by omega) ⟨by linarith, by linarith⟩).2
  have sP := abs_le.mp (ssOf_spec (A := A) (lat := lat) hl (D := n + 1721423 + scaleDiff (n + 1721423))
    (by omega) (by omega) ⟨by linarith, by linarith⟩).2
  have lT := lonFracT_lo
  unfold lonFracT at lT
  have lP := abs_le.mp (fl_err_le (x := lon / 360) (B := 1) (abs_le.mpr ⟨by linarith, by linarith⟩))
  unfold ssP
  linarith

/-- The hypotheses are met by the witness at longitude 150 west. -/
example : Evening sixPm 60 (-150) ∧ ∃ n, DayNumber (Cal.init sixPm) 182 0 5 n ∧ OrdinaryDay n :=
  ⟨sixPm_evening _ _, ysInt 182 + 346, (dayNumber_iff sixPm_tehran).mpr
    ⟨by omega, by omega, Or.inr ⟨rfl, by omega, by decide +kernel⟩, by decide +kernel⟩,
    by decide +kernel⟩

/-- On the local civil day the sun sets between 00:02 and 23:58 Universal Time of the same day. -/
def SetsSameDayUt (A : Astro) (lat lon : ℚ) : Prop :=
  ∀ D : ℤ, eraFirst ≤ D → D ≤ eraLast →
    1 / 720 ≤ sunsetTime A lat lon D - lon / 360 ∧ sunsetTime A lat lon D - lon / 360 ≤ 719 / 720

/-- C94 is false for 22 of the days that are not ordinary. The ten dates of the reform have no Julian day at any
place; nor have the dates on the eve of the twelve changes of the scales, at all places where the sun sets on the same day
in Universal Time, whatever valid time of day is given. -/
theorem C94_lost_dates_negation (A : Astro) (hE : TehranEvening A) (lat lon zone : ℚ)
    (l0 : -180 ≤ lon) (l1 : lon ≤ 179.9999) (y m d : ℤ) (t : List ℚ)
    (hchk : (Cal.init A).checkShort ⟨y, m, d, t⟩ = .ok ())
    (h : (y, m, d) ∈ reformDates ∨ ((y, m, d) ∈ changeEves ∧ SunSets A lat lon ∧ SetsSameDayUt A lat lon)) :
    (∃ n, DayNumber (Cal.init A) y m d n ∧ ¬ OrdinaryDay n) ∧
    (Cal.init A).jdFromBadiDateAt ⟨y, m, d, t⟩ (some lat) (some lon) (some zone) = .error .value := by
  have hn : ∃ q ∈ lostTable, q.2 = (y, m, d) ∧ ¬ OrdinaryDay (q.1 - 1721423) := by
    have : ∀ p ∈ changeEves ++ reformDates, ∃ q ∈ lostTable, q.2 = p ∧ ¬ OrdinaryDay (q.1 - 1721423) := by decide +kernel
    exact this _ (by rw [List.mem_append]; tauto)
  obtain ⟨q, hq, e, ho⟩ := hn
  have hd := lostTable_day hE q hq
  rw [e] at hd
  refine ⟨⟨_, hd, ho⟩, ?_⟩
  obtain ⟨h0, h1, -, -⟩ := (dayNumber_iff hE).mp hd
  have hl' := init_isLeap hE h0 h1
  change (Cal.init A).jdFromBadiDate ⟨y, m, d, t⟩ lat lon = _
  unfold Cal.jdFromBadiDate
  rw [hchk, pyOk_bind]
  simp only []
  rw [daysBefore_eq hl', pyOk_bind, epochFloor]
  obtain ⟨N, hN⟩ : ∃ N, N = daysInYears (y - 1) + 2394644 + dBefore (leapOf y) m + d := ⟨_, rfl⟩
  have hNb : 1721010 ≤ N ∧ N ≤ 2819980 ∧ ((y, m, d) ∈ reformDates → 2299149 ≤ N ∧ N ≤ 2299158) ∧
      ((y, m, d) ∈ changeEves → ¬ (2299149 ≤ N ∧ N ≤ 2299158) ∧ histDay y N ∈ iInvalid) := by
    have key : ∀ q ∈ changeEves ++ reformDates,
        let N := daysInYears (q.1 - 1) + 2394644 + dBefore (leapOf q.1) q.2.1 + q.2.2
        1721010 ≤ N ∧ N ≤ 2819980 ∧ (q ∈ reformDates → 2299149 ≤ N ∧ N ≤ 2299158) ∧
          (q ∈ changeEves → ¬ (2299149 ≤ N ∧ N ≤ 2299158) ∧ histDay q.1 N ∈ iInvalid) := by decide +kernel
    have := key (y, m, d) (by rw [List.mem_append]; tauto)
    rw [hN]
    exact this
  obtain ⟨n0, n1, k1, k2⟩ := hNb
  have hjd : fl (((daysInYears (y - 1) + 2394644 + dBefore (leapOf y) m : ℤ) : ℚ) + (d : ℚ)) = (N : ℚ) := by
    have : ((daysInYears (y - 1) + 2394644 + dBefore (leapOf y) m : ℤ) : ℚ) + (d : ℚ) = (N : ℚ) := by
      rw [hN]; push_cast; ring
    rw [this]; apply fl_int; rw [abs_le]; constructor <;> norm_num <;> omega
  change (meeusFromExact (fl (((daysInYears (y - 1) + 2394644 + dBefore (leapOf y) m : ℤ) : ℚ) + (d : ℚ))) >>= _) = _
  rw [hjd, meeus_int (le_refl _) (by linarith)]
  rcases h with h | ⟨h, hS, hU⟩
  · rw [if_pos (k1 h), pyErr_bind]
  · obtain ⟨k3, k4⟩ := k2 h
    have bm := iMeeus_bounds N
    have bc := getDayCoeff_cases y
    have hM : histDay y N = N + iLookup N iMeeusTable + getDayCoeff y := rfl
    have hj0 : fl ((N : ℚ) + (iLookup N iMeeusTable : ℚ)) = ((N + iLookup N iMeeusTable : ℤ) : ℚ) := by
      rw [← Int.cast_add]; apply fl_int; rw [abs_le]; constructor <;> norm_num <;> omega
    have hj1 : fl (((N + iLookup N iMeeusTable : ℤ) : ℚ) + (getDayCoeff y : ℚ)) = ((histDay y N : ℤ) : ℚ) := by
      rw [← Int.cast_add, hM]; apply fl_int; rw [abs_le]; constructor <;> norm_num <;> omega
    have e0 : eraFirst = 1721000 := rfl
    have e1 : eraLast = 2820000 := rfl
    have lP := abs_le.mp (fl_err_le (x := lon / 360) (B := 1) (abs_le.mpr ⟨by linarith, by norm_num at l1; linarith⟩))
    have hc : civilDay ((histDay y N : ℤ) : ℚ) (fl (lon / 360)) = histDay y N :=
      civilDay_noon (by omega) (by omega) (lonFrac_lo l0) (by norm_num at l1; linarith)
    have hm := hS (histDay y N) (by omega) (by omega)
    obtain ⟨u0, u1⟩ := hU (histDay y N) (by omega) (by omega)
    have hs := abs_le.mp (ssOf_spec (A := A) (lat := lat) (lonFrac_abs l0 (by norm_num at l1; linarith)) (D := histDay y N)
      (by omega) (by omega) ⟨by linarith [hm.1], by linarith [hm.2]⟩).2
    have hf : ⌊ssOf A lat lon (histDay y N) + 1 / 2⌋ = histDay y N := by
      rw [Int.floor_eq_iff]
      constructor <;> linarith
    rw [if_neg k3, pyOk_bind, hj0, hj1, sunSetting_eq, hc, show (Cal.init A).astro = A from rfl, exact_floor, hf, if_pos k4,
      pyErr_bind]

/-- At longitude 80 west, with the sun setting at six. -/
example : SunSets sixPm 40 (-80) ∧ SetsSameDayUt sixPm 40 (-80) ∧
    (Cal.init sixPm).checkShort ⟨-1644, 0, ((5 : ℤ) : ℚ), []⟩ = .ok () ∧ (-1644, 0, 5) ∈ changeEves :=
  ⟨fun D _ _ => by norm_num [sunsetTime, sixPm], fun D _ _ => by norm_num [sunsetTime, sixPm],
    checkShort_day (init_isLeap sixPm_tehran (by omega) (by omega)) (by omega) (by omega)
      (Or.inr ⟨rfl, by omega, by decide +kernel⟩), by decide⟩

end Verif
