import Verif.Props.PlaceDays

/-!
# C97: the length of the day
-/

namespace Verif

theorem round12_near {x : ℚ} (h0 : 0 ≤ x) (h1 : x ≤ 4) : |pyRound x 12 - x| ≤ 1 / 1000000000000 := by
  unfold pyRound
  have e := abs_le.mp (roundHalfEven_err (x * 10 ^ 12))
  have b : |(roundHalfEven (x * 10 ^ 12) : ℚ) / 10 ^ 12 - x| ≤ 1 / 2000000000000 := by
    rw [abs_le]
    constructor
    · rw [le_sub_iff_add_le, le_div_iff₀ (by norm_num)]; linarith
    · rw [sub_le_iff_le_add, div_le_iff₀ (by norm_num)]; linarith
  have b := abs_le.mp b
  have f := abs_le.mp (fl_err_le (x := (roundHalfEven (x * 10 ^ 12) : ℚ) / 10 ^ 12) (B := 8) (abs_le.mpr ⟨by linarith, by linarith⟩))
  rw [abs_le]
  constructor <;> norm_num at f ⊢ <;> linarith

/-- The civil day of which the length is taken. -/
theorem dayLengthRaw_floor {A : Astro} {lat lon : ℚ} (l0 : -180 ≤ lon) (l1 : lon ≤ 179.9999) (hS : SunSets A lat lon)
    {x : ℚ} {P : ℤ} (hP : ⌊x⌋ = P) (hq : Quiet P) :
    (Cal.init A).dayLengthRaw x lat lon = .ok (ssP A lat lon (P + 1) - ssP A lat lon P) := by
  have hl := lonFrac_abs l0 (by norm_num at l1; linarith : lon ≤ 180)
  have l2 : fl (lon / 360) ≤ 1 / 2 - 1 / 100000000 := by
    norm_num at l1
    have := abs_le.mp (fl_err_le (x := lon / 360) (B := 1) (abs_le.mpr ⟨by linarith, by linarith⟩))
    linarith
  have h0 := hq.1
  have h1 := hq.2.1
  obtain ⟨P0, P1⟩ := hq.cast
  obtain ⟨b0, b1⟩ := scaleDiff_bounds P
  obtain ⟨c0, c1⟩ := scaleDiff_cast P
  unfold Cal.dayLengthRaw
  rw [hP]
  have i1 : ((P : ℚ) + 1) = ((P + 1 : ℤ) : ℚ) := by push_cast; ring
  have i2 : ∀ k : ℤ, 0 ≤ k → k ≤ 3000000 → fl ((k : ℚ) + (scaleDiff P : ℚ)) = ((k + scaleDiff P : ℤ) : ℚ) := by
    intro k k0 k1
    rw [show ((k : ℚ) + (scaleDiff P : ℚ)) = ((k + scaleDiff P : ℤ) : ℚ) by push_cast; ring]
    exact fl_int _ (by rw [abs_le]; constructor <;> omega)
  simp only
  rw [i1, meeus_quiet hq (by push_cast; linarith) (by push_cast; linarith), pyOk_bind,
    meeus_quiet hq (by linarith) (by linarith), pyOk_bind, i2 _ (by omega) (by omega),
    i2 _ (by omega) (by omega), sunSetting_eq, sunSetting_eq, civilDay_noon (by omega) (by omega) (lonFrac_lo l0) l2,
    civilDay_noon (by omega) (by omega) (lonFrac_lo l0) l2]
  obtain ⟨a1, a2, a3⟩ := ssOf_place hS hl (P := P) (by omega) (by omega)
  obtain ⟨b1, b2, b3⟩ := ssOf_place hS hl (P := P + 1) (by omega) (by omega)
  have e := hq.same (N := P + 1) (by omega) (by omega)
  rw [e] at b1 b2 b3
  push_cast at b2 b3
  have ea : (Cal.init A).astro = A := rfl
  rw [ea, fl_sub_jd b1 a1 (by linarith) (by linarith) (abs_le.mpr ⟨by linarith, by linarith⟩)]
  unfold ssP
  rw [e]
  congr 1
  ring

theorem starts_place {A : Astro} (hE : TehranEvening A) {lat lon zone : ℚ} (l0 : -180 ≤ lon) (l1 : lon ≤ 179.9999)
    (hS : SunSets A lat lon) {y m d n : ℤ} (hd : DayNumber (Cal.init A) y m d n) (hq : Quiet (n + 1721423))
    {j : ℚ} (hj : (Cal.init A).jdFromBadiDateAt ⟨y, m, d, []⟩ (some lat) (some lon) (some zone) = .ok j) :
    j = ssP A lat lon (n + 1721423) := by
  change (Cal.init A).jdFromBadiDate _ lat lon = _ at hj
  rw [start_place hE hS l0 l1 hd hq] at hj
  injection hj with hj
  exact hj.symm

theorem ssP_step {A : Astro} {lat lon : ℚ} (hS : SunSets A lat lon) (hl : |fl (lon / 360)| ≤ 1 / 2) {P : ℤ}
    (h0 : 1721100 ≤ P) (h1 : P ≤ 2819700) :
    0 ≤ ssP A lat lon (P + 1) - ssP A lat lon P ∧ ssP A lat lon (P + 1) - ssP A lat lon P ≤ 2 := by
  obtain ⟨-, a1, a2⟩ := ssP_bounds hS hl (P := P) (by omega) (by omega)
  obtain ⟨-, b1, b2⟩ := ssP_bounds hS hl (P := P + 1) (by omega) (by omega)
  push_cast at b1 b2
  constructor <;> linarith

theorem length_raw {A : Astro} (hE : TehranEvening A) {lat lon zone x : ℚ} (l0 : -180 ≤ lon) (l1 : lon ≤ 179.9999)
    (hS : SunSets A lat lon) {y m d n y' m' d' : ℤ} (hd : DayNumber (Cal.init A) y m d n) (ho : OrdinaryDay n)
    (hnext : DayNumber (Cal.init A) y' m' d' (n + 1)) {last : ℤ} (hlast : (Cal.init A).yearStart 1161 = some last)
    (hn : n < last) {j j' : ℚ}
    (hj : (Cal.init A).jdFromBadiDateAt ⟨y, m, d, []⟩ (some lat) (some lon) (some zone) = .ok j)
    (hj' : (Cal.init A).jdFromBadiDateAt ⟨y', m', d', []⟩ (some lat) (some lon) (some zone) = .ok j')
    (hx : ⌊x⌋ = n + 1721423) :
    (Cal.init A).dayLengthRaw x lat lon = .ok (j' - j) ∧ 0 ≤ j' - j ∧ j' - j ≤ 2 := by
  have hl := lonFrac_abs l0 (by norm_num at l1; linarith : lon ≤ 180)
  rw [init_yearStart hE, if_pos (by omega), ysInt_1161] at hlast
  obtain rfl := Option.some.inj hlast
  have n0 := day_lo hE hd
  have q0 := ho.quiet n0 (by omega)
  rw [starts_place hE l0 l1 hS hd q0 hj, starts_place hE l0 l1 hS hnext (ho.quiet_next n0 (by omega)) hj',
    show n + 1 + 1721423 = n + 1721423 + 1 by ring]
  exact ⟨dayLengthRaw_floor l0 l1 hS hx q0, ssP_step hS hl (by omega) (by omega)⟩

/-- C97: at every place west of longitude 179.9999 where the sun sets on every local civil day, whatever the sunset
times are, `_day_length` with `decimal=True` gives the time from the start of a date to the start of the next one, to
10^-12 of a day, for every instant from 12:00 UT of the civil day of the date to the next 12:00 UT. Missing from the
full property: the other instants of the date, for which it is false (the negations below), and the 83 days of the era that are not ordinary. -/
theorem C97_length_partial (A : Astro) (hE : TehranEvening A) (lat lon zone : ℚ)
    (l0 : -180 ≤ lon) (l1 : lon ≤ 179.9999) (hS : SunSets A lat lon)
    (y m d n last : ℤ) (hd : DayNumber (Cal.init A) y m d n) (ho : OrdinaryDay n)
    (hlast : (Cal.init A).yearStart 1161 = some last) (hn : n < last)
    (y' m' d' : ℤ) (hnext : DayNumber (Cal.init A) y' m' d' (n + 1)) (j j' : ℚ)
    (hj : (Cal.init A).jdFromBadiDateAt ⟨y, m, d, []⟩ (some lat) (some lon) (some zone) = .ok j)
    (hj' : (Cal.init A).jdFromBadiDateAt ⟨y', m', d', []⟩ (some lat) (some lon) (some zone) = .ok j')
    (x : ℚ) (hx0 : (n : ℚ) + 1721423 ≤ x) (hx1 : x < n + 1721424) :
    ∃ v, (Cal.init A).dayLength x lat lon = .ok v ∧ |v - (j' - j)| ≤ 1 / 1000000000000 := by
  have hf : ⌊x⌋ = n + 1721423 := by rw [Int.floor_eq_iff]; push_cast; constructor <;> linarith
  obtain ⟨e, a, b⟩ := length_raw hE l0 l1 hS hd ho hnext hlast hn hj hj' hf
  refine ⟨_, by unfold Cal.dayLength; rw [e, pyOk_bind], round12_near a (by linarith)⟩

/-- C97, hours, minutes and seconds: they are those of the time from the start of the date to the start of the next one
to two milliseconds, when that time is at least an hour and a second and less than 25 hours by a second. -/
theorem C97_hms_partial (A : Astro) (hE : TehranEvening A) (lat lon zone : ℚ)
    (l0 : -180 ≤ lon) (l1 : lon ≤ 179.9999) (hS : SunSets A lat lon)
    (y m d n last : ℤ) (hd : DayNumber (Cal.init A) y m d n) (ho : OrdinaryDay n)
    (hlast : (Cal.init A).yearStart 1161 = some last) (hn : n < last)
    (y' m' d' : ℤ) (hnext : DayNumber (Cal.init A) y' m' d' (n + 1)) (j j' : ℚ)
    (hj : (Cal.init A).jdFromBadiDateAt ⟨y, m, d, []⟩ (some lat) (some lon) (some zone) = .ok j)
    (hj' : (Cal.init A).jdFromBadiDateAt ⟨y', m', d', []⟩ (some lat) (some lon) (some zone) = .ok j')
    (x : ℚ) (hx0 : (n : ℚ) + 1721423 ≤ x) (hx1 : x < n + 1721424)
    (hlo : 3601 / 86400 ≤ j' - j) (hhi : j' - j ≤ 89999 / 86400) :
    ∃ (h mi : ℤ) (s : ℚ), (Cal.init A).dayLengthHms x lat lon = .ok (h, mi, s) ∧ 1 ≤ h ∧ h ≤ 24 ∧ 0 ≤ mi ∧ mi < 60 ∧
      0 ≤ s ∧ s < 60 ∧ |3600 * (h : ℚ) + 60 * mi + s - 86400 * (j' - j)| ≤ 1 / 500 := by
  have hf : ⌊x⌋ = n + 1721423 := by rw [Int.floor_eq_iff]; push_cast; constructor <;> linarith
  obtain ⟨e, a, b⟩ := length_raw hE l0 l1 hS hd ho hnext hlast hn hj hj' hf
  obtain ⟨r0, r1, r2, r3, r4, r5, r6, -, -⟩ := hms_spec a
  have q2 : (0 : ℚ) ≤ (hmsFromDecimalDay (j' - j)).2.1 := by exact_mod_cast r2
  have q3 : ((hmsFromDecimalDay (j' - j)).2.1 : ℚ) ≤ 59 := by exact_mod_cast (by omega : (hmsFromDecimalDay (j' - j)).2.1 ≤ 59)
  have r6' := abs_le.mp r6
  refine ⟨_, _, _, by unfold Cal.dayLengthHms; rw [e, pyOk_bind], by split <;> omega, by split <;> omega, r2, r3, r4, r5, ?_⟩
  rcases lt_or_ge (j' - j) 1 with c | c
  · have ef : Int.fract (j' - j) = j' - j := Int.fract_eq_self.mpr ⟨a, c⟩
    rw [ef] at r6 r6'
    rw [if_neg]
    · exact r6
    · intro h0
      rw [h0] at r6'
      push_cast at r6'
      linarith [r6'.1]
  · have ef : Int.fract (j' - j) = j' - j - 1 := by
      rw [Int.fract_eq_iff]; exact ⟨by linarith, by linarith, 1, by push_cast; ring⟩
    rw [ef] at r6 r6'
    have h0 : (hmsFromDecimalDay (j' - j)).1 = 0 := by
      by_contra hc
      have : (1 : ℚ) ≤ (hmsFromDecimalDay (j' - j)).1 := by
        exact_mod_cast (by omega : 1 ≤ (hmsFromDecimalDay (j' - j)).1)
      linarith [r6'.2]
    rw [if_pos h0]
    rw [h0] at r6'
    push_cast at r6' ⊢
    rw [abs_le]
    constructor <;> linarith [r6'.1, r6'.2]

/-- C97 is false for the instants of a date from the second 12:00 UT on: at every place west of longitude 179.9999 where
the sun sets on every local civil day `_day_length` gives the length of the next date. -/
theorem C97_after_noon_negation (A : Astro) (hE : TehranEvening A) (lat lon zone : ℚ)
    (l0 : -180 ≤ lon) (l1 : lon ≤ 179.9999) (hS : SunSets A lat lon)
    (y m d n last : ℤ) (hd : DayNumber (Cal.init A) y m d n) (ho : OrdinaryDay (n + 1))
    (hlast : (Cal.init A).yearStart 1161 = some last) (hn : n + 1 < last)
    (y1 m1 d1 y2 m2 d2 : ℤ) (hd1 : DayNumber (Cal.init A) y1 m1 d1 (n + 1))
    (hd2 : DayNumber (Cal.init A) y2 m2 d2 (n + 2)) (j1 j2 : ℚ)
    (hj1 : (Cal.init A).jdFromBadiDateAt ⟨y1, m1, d1, []⟩ (some lat) (some lon) (some zone) = .ok j1)
    (hj2 : (Cal.init A).jdFromBadiDateAt ⟨y2, m2, d2, []⟩ (some lat) (some lon) (some zone) = .ok j2)
    (x : ℚ) (hx0 : (n : ℚ) + 1721424 ≤ x) (hx1 : x < j1) :
    ∃ v, (Cal.init A).dayLength x lat lon = .ok v ∧ |v - (j2 - j1)| ≤ 1 / 1000000000000 := by
  have n0 := day_lo hE hd
  have hl := lonFrac_abs l0 (by norm_num at l1; linarith : lon ≤ 180)
  have hL := hlast
  rw [init_yearStart hE, if_pos (by omega), ysInt_1161] at hL
  have hL := Option.some.inj hL
  have q1 := ho.quiet (by omega) (by omega)
  have e1 := starts_place hE l0 l1 hS hd1 q1 hj1
  obtain ⟨-, -, s1⟩ := ssP_bounds hS hl (P := n + 1 + 1721423) (by omega) (by omega)
  have hb := abs_le.mp hl
  push_cast at s1
  have hf : ⌊x⌋ = n + 1 + 1721423 := by
    rw [Int.floor_eq_iff]; push_cast; constructor <;> linarith
  obtain ⟨e, a, b⟩ := length_raw hE l0 l1 hS hd1 ho (by rw [show n + 1 + 1 = n + 2 by ring]; exact hd2) hlast hn
    hj1 hj2 hf
  exact ⟨_, by unfold Cal.dayLength; rw [e, pyOk_bind], round12_near a (by linarith)⟩

/-- C97 is false where the sun sets before 12:00 UT, east of about longitude 90: from the start of a date to that
12:00 UT `_day_length` gives the length of the date before. -/
theorem C97_before_noon_negation (A : Astro) (hE : TehranEvening A) (lat lon zone : ℚ)
    (l0 : -180 ≤ lon) (l1 : lon ≤ 179.9999) (hS : SunSets A lat lon)
    (y0 m0 d0 n last : ℤ) (hd0 : DayNumber (Cal.init A) y0 m0 d0 n) (ho : OrdinaryDay n)
    (hlast : (Cal.init A).yearStart 1161 = some last) (hn : n < last)
    (y m d : ℤ) (hd : DayNumber (Cal.init A) y m d (n + 1)) (j0 j : ℚ)
    (hj0 : (Cal.init A).jdFromBadiDateAt ⟨y0, m0, d0, []⟩ (some lat) (some lon) (some zone) = .ok j0)
    (hj : (Cal.init A).jdFromBadiDateAt ⟨y, m, d, []⟩ (some lat) (some lon) (some zone) = .ok j)
    (x : ℚ) (hx0 : j ≤ x) (hx1 : x < n + 1721424) :
    ∃ v, (Cal.init A).dayLength x lat lon = .ok v ∧ |v - (j - j0)| ≤ 1 / 1000000000000 := by
  have n0 := day_lo hE hd0
  have hl := lonFrac_abs l0 (by norm_num at l1; linarith : lon ≤ 180)
  have hL := hlast
  rw [init_yearStart hE, if_pos (by omega), ysInt_1161] at hL
  have hL := Option.some.inj hL
  have q1 := ho.quiet_next n0 (by omega)
  have e1 := starts_place hE l0 l1 hS hd q1 hj
  obtain ⟨-, s1, -⟩ := ssP_bounds hS hl (P := n + 1 + 1721423) (by omega) (by omega)
  have hb := abs_le.mp hl
  push_cast at s1
  have hf : ⌊x⌋ = n + 1721423 := by
    rw [Int.floor_eq_iff]; push_cast; constructor <;> linarith
  obtain ⟨e, a, b⟩ := length_raw hE l0 l1 hS hd0 ho hd hlast hn hj0 hj hf
  exact ⟨_, by unfold Cal.dayLength; rw [e, pyOk_bind], round12_near a (by linarith)⟩

/-- C97 is false of the hours, minutes and seconds of a day of more than 25 hours: they are 24 hours too few. -/
theorem C97_hms_negation (A : Astro) (hE : TehranEvening A) (lat lon zone : ℚ)
    (l0 : -180 ≤ lon) (l1 : lon ≤ 179.9999) (hS : SunSets A lat lon)
    (y m d n last : ℤ) (hd : DayNumber (Cal.init A) y m d n) (ho : OrdinaryDay n)
    (hlast : (Cal.init A).yearStart 1161 = some last) (hn : n < last)
    (y' m' d' : ℤ) (hnext : DayNumber (Cal.init A) y' m' d' (n + 1)) (j j' : ℚ)
    (hj : (Cal.init A).jdFromBadiDateAt ⟨y, m, d, []⟩ (some lat) (some lon) (some zone) = .ok j)
    (hj' : (Cal.init A).jdFromBadiDateAt ⟨y', m', d', []⟩ (some lat) (some lon) (some zone) = .ok j')
    (x : ℚ) (hx0 : (n : ℚ) + 1721423 ≤ x) (hx1 : x < n + 1721424) (hlo : 90001 / 86400 ≤ j' - j) :
    ∃ (h mi : ℤ) (s : ℚ), (Cal.init A).dayLengthHms x lat lon = .ok (h, mi, s) ∧
      |3600 * (h : ℚ) + 60 * mi + s - 86400 * (j' - j - 1)| ≤ 1 / 500 := by
  have hf : ⌊x⌋ = n + 1721423 := by rw [Int.floor_eq_iff]; push_cast; constructor <;> linarith
  have n0 := day_lo hE hd
  obtain ⟨e, a, b⟩ := length_raw hE l0 l1 hS hd ho hnext hlast hn hj hj' hf
  obtain ⟨r0, r1, r2, r3, r4, r5, r6, -, -⟩ := hms_spec a
  have hl := lonFrac_abs l0 (by norm_num at l1; linarith : lon ≤ 180)
  have hL := hlast
  rw [init_yearStart hE, if_pos (by omega), ysInt_1161] at hL
  have hL := Option.some.inj hL
  have q0 := ho.quiet n0 (by omega)
  have q1 := ho.quiet_next n0 (by omega)
  have u : j' - j < 2 := by
    rw [starts_place hE l0 l1 hS hd q0 hj, starts_place hE l0 l1 hS hnext q1 hj']
    obtain ⟨-, a1, a2⟩ := ssP_bounds hS hl (P := n + 1721423) (by omega) (by omega)
    obtain ⟨-, b1, b2⟩ := ssP_bounds hS hl (P := n + 1 + 1721423) (by omega) (by omega)
    push_cast at a1 a2 b1 b2
    linarith
  have ef : Int.fract (j' - j) = j' - j - 1 := by
    rw [Int.fract_eq_iff]; exact ⟨by linarith, by linarith, 1, by push_cast; ring⟩
  rw [ef] at r6
  refine ⟨_, _, _, by unfold Cal.dayLengthHms; rw [e, pyOk_bind], ?_⟩
  rw [if_neg]
  · exact r6
  · intro h0
    have q3 : ((hmsFromDecimalDay (j' - j)).2.1 : ℚ) ≤ 59 := by
      exact_mod_cast (by omega : (hmsFromDecimalDay (j' - j)).2.1 ≤ 59)
    have r6' := abs_le.mp r6
    rw [h0] at r6'
    push_cast at r6'
    linarith [r6'.1]

/-! ## Cases that meet the hypotheses -/

/-- The sun of `newYearSun` at the longitude of Tehran; elsewhere the sun sets at 18:00 up to a day of year 182 and at
19:12 from then on. -/
def hourSun : Astro :=
  ⟨fun j lat lon => if lon = tehranLon then newYearSun.setFrac j lat lon
    else if j < 2460836 + 1 / 2 then 3 / 4 else 80 / 100⟩

theorem hourSun_tehran : TehranEvening hourSun := by
  intro D h0 h1
  have : sunsetTime hourSun tehranLat tehranLon D = sunsetTime newYearSun tehranLat tehranLon D := by
    simp [sunsetTime, hourSun]
  rw [this]
  exact newYearSun_tehran D h0 h1

theorem hourSun_sets {lat lon : ℚ} (h : lon ≠ tehranLon) : SunSets hourSun lat lon := by
  intro D _ _
  simp only [sunsetTime, hourSun, if_neg h]
  split <;> constructor <;> norm_num

theorem month5_days {A : Astro} (hE : TehranEvening A) (d : ℤ) (h1 : 1 ≤ d) (h2 : d ≤ 19) :
    DayNumber (Cal.init A) 182 5 d (739404 + d) := by
  have e : ysInt 182 = 739329 := by decide +kernel
  refine (dayNumber_iff hE).mpr ⟨by omega, by omega, Or.inl ⟨by omega, by omega, h1, h2⟩, ?_⟩
  rw [show dBefore (leapOf 182) 5 = 76 by decide +kernel, e]
  ring

theorem year_1161 {A : Astro} (hE : TehranEvening A) : (Cal.init A).yearStart 1161 = some 1096902 := by
  rw [init_yearStart hE, if_pos (by omega), ysInt_1161]

/-- Days of 24 hours 14 minutes (`laterSun`) meet the hypotheses of `C97_length_partial` and `C97_hms_partial`. -/
example : SunSets laterSun 60 (-150) ∧ DayNumber (Cal.init laterSun) 182 5 7 739411 ∧
    DayNumber (Cal.init laterSun) 182 5 8 (739411 + 1) ∧ (Cal.init laterSun).yearStart 1161 = some 1096902 ∧
    ∃ j j' : ℚ, (Cal.init laterSun).jdFromBadiDateAt ⟨182, 5, 7, []⟩ (some 60) (some (-150)) (some (-9)) = .ok j ∧
    (Cal.init laterSun).jdFromBadiDateAt ⟨182, 5, 8, []⟩ (some 60) (some (-150)) (some (-9)) = .ok j' ∧
    (2460834 : ℚ) ≤ j ∧ j < 2460835 ∧ 3601 / 86400 ≤ j' - j ∧ j' - j ≤ 89999 / 86400 ∧ 1009 / 1000 < j' - j := by
  refine ⟨laterSun_sets (by decide +kernel), month5_days laterSun_tehran 7 (by omega) (by omega),
    month5_days laterSun_tehran 8 (by omega) (by omega), year_1161 laterSun_tehran,
    ((Cal.init laterSun).jdFromBadiDateAt ⟨182, 5, 7, []⟩ (some 60) (some (-150)) (some (-9))).toOption.getD 0,
    ((Cal.init laterSun).jdFromBadiDateAt ⟨182, 5, 8, []⟩ (some 60) (some (-150)) (some (-9))).toOption.getD 0,
    ?_, ?_, ?_, ?_, ?_, ?_, ?_⟩ <;> decide +kernel

/-- `C97_after_noon_negation`: at longitude 0 the last hours of day 6 of month 5 of 182, a day of 24 hours, are given the 25 hours and
12 minutes of the next day. -/
example : SunSets hourSun 52 0 ∧ DayNumber (Cal.init hourSun) 182 5 6 739410 ∧
    DayNumber (Cal.init hourSun) 182 5 7 (739410 + 1) ∧ DayNumber (Cal.init hourSun) 182 5 8 (739410 + 2) ∧
    ∃ j0 j1 j2 x : ℚ, (Cal.init hourSun).jdFromBadiDateAt ⟨182, 5, 6, []⟩ (some 52) (some 0) (some 0) = .ok j0 ∧
    (Cal.init hourSun).jdFromBadiDateAt ⟨182, 5, 7, []⟩ (some 52) (some 0) (some 0) = .ok j1 ∧
    (Cal.init hourSun).jdFromBadiDateAt ⟨182, 5, 8, []⟩ (some 52) (some 0) (some 0) = .ok j2 ∧
    (739410 : ℚ) + 1721424 ≤ x ∧ x < j1 ∧ j1 - j0 < 1001 / 1000 ∧ 1049 / 1000 < j2 - j1 := by
  refine ⟨hourSun_sets (by decide +kernel), month5_days hourSun_tehran 6 (by omega) (by omega),
    month5_days hourSun_tehran 7 (by omega) (by omega), month5_days hourSun_tehran 8 (by omega) (by omega),
    ((Cal.init hourSun).jdFromBadiDateAt ⟨182, 5, 6, []⟩ (some 52) (some 0) (some 0)).toOption.getD 0,
    ((Cal.init hourSun).jdFromBadiDateAt ⟨182, 5, 7, []⟩ (some 52) (some 0) (some 0)).toOption.getD 0,
    ((Cal.init hourSun).jdFromBadiDateAt ⟨182, 5, 8, []⟩ (some 52) (some 0) (some 0)).toOption.getD 0,
    2460834 + 1 / 8, ?_, ?_, ?_, ?_, ?_, ?_, ?_⟩ <;> decide +kernel

/-- `C97_before_noon_negation`: at longitude 144 east the first hours of day 9 of month 5 of 182, a day of 24 hours, are given the 25
hours and 12 minutes of the day before. -/
example : SunSets hourSun (-30) 144 ∧ DayNumber (Cal.init hourSun) 182 5 8 739412 ∧
    DayNumber (Cal.init hourSun) 182 5 9 (739412 + 1) ∧
    ∃ j0 j j1 x : ℚ, (Cal.init hourSun).jdFromBadiDateAt ⟨182, 5, 8, []⟩ (some (-30)) (some 144) (some 10) = .ok j0 ∧
    (Cal.init hourSun).jdFromBadiDateAt ⟨182, 5, 9, []⟩ (some (-30)) (some 144) (some 10) = .ok j ∧
    (Cal.init hourSun).jdFromBadiDateAt ⟨182, 5, 10, []⟩ (some (-30)) (some 144) (some 10) = .ok j1 ∧
    j ≤ x ∧ x < (739412 : ℚ) + 1721424 ∧ 1049 / 1000 < j - j0 ∧ j1 - j < 1001 / 1000 := by
  refine ⟨hourSun_sets (by decide +kernel), month5_days hourSun_tehran 8 (by omega) (by omega),
    month5_days hourSun_tehran 9 (by omega) (by omega),
    ((Cal.init hourSun).jdFromBadiDateAt ⟨182, 5, 8, []⟩ (some (-30)) (some 144) (some 10)).toOption.getD 0,
    ((Cal.init hourSun).jdFromBadiDateAt ⟨182, 5, 9, []⟩ (some (-30)) (some 144) (some 10)).toOption.getD 0,
    ((Cal.init hourSun).jdFromBadiDateAt ⟨182, 5, 10, []⟩ (some (-30)) (some 144) (some 10)).toOption.getD 0,
    2460836 - 1 / 16, ?_, ?_, ?_, ?_, ?_, ?_, ?_⟩ <;> decide +kernel

/-- `C97_hms_negation`: day 7 of month 5 of 182 at longitude 0, of 25 hours and 12 minutes. -/
example : SunSets hourSun 52 0 ∧ DayNumber (Cal.init hourSun) 182 5 7 739411 ∧
    DayNumber (Cal.init hourSun) 182 5 8 (739411 + 1) ∧
    ∃ j j' x : ℚ, (Cal.init hourSun).jdFromBadiDateAt ⟨182, 5, 7, []⟩ (some 52) (some 0) (some 0) = .ok j ∧
    (Cal.init hourSun).jdFromBadiDateAt ⟨182, 5, 8, []⟩ (some 52) (some 0) (some 0) = .ok j' ∧
    (739411 : ℚ) + 1721423 ≤ x ∧ x < (739411 : ℚ) + 1721424 ∧ 90001 / 86400 ≤ j' - j := by
  refine ⟨hourSun_sets (by decide +kernel), month5_days hourSun_tehran 7 (by omega) (by omega),
    month5_days hourSun_tehran 8 (by omega) (by omega),
    ((Cal.init hourSun).jdFromBadiDateAt ⟨182, 5, 7, []⟩ (some 52) (some 0) (some 0)).toOption.getD 0,
    ((Cal.init hourSun).jdFromBadiDateAt ⟨182, 5, 8, []⟩ (some 52) (some 0) (some 0)).toOption.getD 0,
    2460834 + 1 / 2, ?_, ?_, ?_, ?_, ?_⟩ <;> decide +kernel

end Verif
