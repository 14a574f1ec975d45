import Verif.Lemmas.FromTimestamp
import Verif.Props.BadiGregorian
import Verif.Props.Timestamp

/-!
# Properties C57 and C58: `fromtimestamp`
-/

namespace Verif

/-- The instant of a timestamp between two others. -/
theorem instant_between {j j' t t0 t1 : ℚ} (hj : IsF64 j) (hj' : IsF64 j') (j0 : 1721000 ≤ j) (j1 : j ≤ 2820000)
    (j0' : 1721000 ≤ j') (j1' : j' ≤ 2820000)
    (e0 : t0 = pyRound (fl (fl (j - 2440585.5) * 86400)) 12) (e1 : t1 = pyRound (fl (fl (j' - 2440585.5) * 86400)) 12)
    (ht0 : t0 ≤ t) (ht1 : t ≤ t1 - 1 / 1000) :
    j ≤ fl (fl (t / 86400) + 2440585.5) ∧ fl (fl (t / 86400) + 2440585.5) < j' ∧
      |86400 * (fl (fl (t / 86400) + 2440585.5) - j) - (t - t0)| ≤ 1 / 10000 := by
  obtain ⟨a1, a2⟩ := timestamp_jd hj j0 j1
  obtain ⟨b1, b2⟩ := timestamp_jd hj' j0' j1'
  rw [← e0] at a1 a2
  rw [← e1] at b1 b2
  have a2 := abs_le.mp a2
  have b2 := abs_le.mp b2
  norm_num at *
  have c1 := abs_le.mp (fl_err_le (x := t / 86400) (B := 720000) (by rw [abs_le]; constructor <;> linarith))
  have c2 := abs_le.mp (fl_err_le (x := fl (t / 86400) + 4881171 / 2) (B := 2820010)
    (by rw [abs_le]; constructor <;> linarith))
  refine ⟨?_, by linarith, by rw [abs_le]; constructor <;> linarith⟩
  nth_rewrite 1 [← a1]
  exact fl_mono (by linarith [fl_mono (show t0 / 86400 ≤ t / 86400 by linarith)])

/-! ## C57 -/

/-- C57, every timestamp within a day: from the timestamp of the start of a date up to a millisecond before the one of
the next date (and at most 10 milliseconds before 24 hours), `date.fromtimestamp` is this date in both forms, and
`datetime.fromtimestamp` has this date and the elapsed time as its time of day, up to three milliseconds. Missing from
the full property: the milliseconds just named, the dates excluded in `C29_start_of_day_partial`, a tenth of a second around
one local midnight of year -814, locations other than the default one. -/
theorem C57_within_day_partial (A : Astro) (hE : TehranEvening A) (y m d n last : ℤ)
    (hd : DayNumber (Cal.init A) y m d n) (hlast : (Cal.init A).yearStart 1161 = some last)
    (hn : n ≤ last) (h1 : (y, m, d) ∉ changeEves) (h2 : (y, m, d) ∉ changeDates)
    (h3 : (y, m, d) ∉ reformDates) (h4 : (y, m, d) ≠ reformEnd)
    (y' m' d' : ℤ) (hnext : DayNumber (Cal.init A) y' m' d' (n + 1)) (hne : (y', m', d') ≠ reformEnd)
    (t0 t1 t : ℚ) (ht0 : (Cal.init A).timestampFromBadiDate ⟨y, m, d, []⟩ tehranLat tehranLon = .ok t0)
    (ht1 : (Cal.init A).timestampFromBadiDate ⟨y', m', d', []⟩ tehranLat tehranLon = .ok t1)
    (hta : t0 ≤ t) (htb : t ≤ t1 - 1 / 1000) (htc : t ≤ t0 + 86399.99)
    (h5 : n = 375721 → 1 / 10 < |t + 29673314709.2784|) (tz : Option Tz) :
    (Cal.init A).dateFromTimestamp t tehranLat tehranLon true = .ok (.short y m d) ∧
    (∃ k v w : ℤ, DenotesYear k v w y ∧
      (Cal.init A).dateFromTimestamp t tehranLat tehranLon false = .ok (.long k v w m d)) ∧
    ∃ h mi s us : ℤ,
      (Cal.init A).dtFromTimestamp t tehranLat tehranLon tz true = .ok ⟨.short y m d, h, mi, s, us, tz, 0⟩ ∧
      (∃ k v w : ℤ, DenotesYear k v w y ∧
        (Cal.init A).dtFromTimestamp t tehranLat tehranLon tz false = .ok ⟨.long k v w m d, h, mi, s, us, tz, 0⟩) ∧
      0 ≤ h ∧ h ≤ 23 ∧ 0 ≤ mi ∧ mi ≤ 59 ∧ 0 ≤ s ∧ s ≤ 59 ∧ 0 ≤ us ∧ us ≤ 999999 ∧
      |(3600 * h + 60 * mi + s + us / 1000000) - (t - t0)| ≤ 3 / 1000 := by
  rw [init_yearStart hE, if_pos (by omega), ysInt_1161] at hlast
  obtain rfl := Option.some.inj hlast
  have hb := notin_badDays hE hd h1 h3 h4
  have hc := notin_changeDays hE hd h2
  obtain ⟨y0, y1, n0, n1⟩ := dayNumber_year hE hd
  have q0 := ysInt_mono (le_refl (-1843)) y0 (by omega)
  rw [ysInt_m1843] at q0
  have hj := date_jd' hE hd hb
  unfold Cal.jdFromBadiDateDefault at hj
  have hb' : n + 1 + 1721423 ∉ badDays := by
    obtain ⟨z0, z1, hv, -⟩ := (dayNumber_iff hE).mp hnext
    have hchk := checkShort_day (init_isLeap hE z0 z1) z0 (by omega) hv
    apply notin_badDays hE hnext _ _ hne
    · intro hbad
      have := date_jd_err hE hnext (List.mem_append_left _ hbad) hchk
      unfold Cal.jdFromBadiDateDefault at this
      unfold Cal.timestampFromBadiDate at ht1
      rw [this] at ht1
      cases ht1
    · intro hbad
      have := date_jd_err hE hnext (List.mem_append_right _ hbad) hchk
      unfold Cal.jdFromBadiDateDefault at this
      unfold Cal.timestampFromBadiDate at ht1
      rw [this] at ht1
      cases ht1
  have hj' := date_jd' hE hnext hb'
  unfold Cal.jdFromBadiDateDefault at hj'
  rw [show n + 1 + 1721423 = n + 1721423 + 1 by ring] at hj'
  unfold Cal.timestampFromBadiDate at ht0 ht1
  rw [hj, pyOk_bind] at ht0
  rw [hj', pyOk_bind] at ht1
  injection ht0 with ht0
  injection ht1 with ht1
  obtain ⟨sf, s0, s1⟩ := ssE_bounds hE (P := n + 1721423) (by omega) (by omega)
  obtain ⟨sf', s0', s1'⟩ := ssE_bounds hE (P := n + 1721423 + 1) (by omega) (by omega)
  have nq0 : (-287 : ℚ) ≤ n := by exact_mod_cast (by omega : -287 ≤ n)
  have nq1 : (n : ℚ) ≤ 1096902 := by exact_mod_cast hn
  push_cast at s0 s1 s0' s1'
  obtain ⟨x0, x1, xe⟩ := instant_between sf sf' (by linarith) (by linarith) (by linarith) (by linarith) ht0.symm
    ht1.symm hta htb
  have xf : IsF64 (fl (fl (t / 86400) + 2440585.5)) := isF64_fl _
  have xe := abs_le.mp xe
  norm_num at htc
  have hfr : fl (fl (t / 86400) + 2440585.5) - ssE A (n + 1721423) ≤ 1 - 1 / 40000000 := by linarith
  have hy := ymd_within hE xf hd hn hb hc (fun h => midnight_ts (h5 h)) x0 x1 (by linarith)
  have isd : IsDay (Cal.init A) (.short y m d) n := hd
  obtain ⟨k, v, w, hden, e1⟩ := badiDate_ok hE true true hd hy (by linarith) (fun _ => hfr)
  obtain ⟨k', v', w', hden', e2⟩ := badiDate_ok hE false true hd hy (by linarith) (fun _ => hfr)
  obtain ⟨k4, v4, w4, h, mi, s, us, hden4, e3, a1, a2, a3, a4, a5, a6, a7, a8, a9⟩ :=
    badiDate_us hE hd hy (by linarith) hfr
  have fl0 : ∀ z : ℤ, ⌊(z : ℚ)⌋ = z := fun z => Int.floor_intCast z
  have s59 : min s 59 = s := by omega
  have vt : ∀ o : DateObj, ValidTime (DT.timetz ⟨o, h, mi, s, us, tz, 0⟩) := fun o =>
    ⟨a1, by show h ≤ 24; omega, a3, by show mi ≤ 59; omega, a5, by show s ≤ 60; omega, a7, by show us ≤ 999999; omega,
      Or.inl rfl⟩
  refine ⟨?_, ⟨k', v', w', hden', ?_⟩, h, mi, s, us, ?_, ⟨k4, v4, w4, hden4, ?_⟩, a1, a2, a3, a4, a5, a6, a7, a8, ?_⟩
  · unfold Cal.dateFromTimestamp Cal.badiDateFromTimestamp
    rw [e1, pyOk_bind]
    simp only [if_true, Cal.dateOfConversion, fl0]
    exact newDate_ok hE (n := n) hd
  · unfold Cal.dateFromTimestamp Cal.badiDateFromTimestamp
    rw [e2, pyOk_bind]
    simp only [Bool.false_eq_true, if_false, Cal.dateOfConversion, fl0]
    exact newDate_ok hE (n := n) ⟨y, hden', hd⟩
  · unfold Cal.dtFromTimestamp Cal.badiDateFromTimestamp
    rw [e3 true, pyOk_bind]
    simp only [if_true, Cal.dtOfTuple, fl0, s59]
    exact newDT_ok hE (n := n) ⟨hd, vt _⟩
  · unfold Cal.dtFromTimestamp Cal.badiDateFromTimestamp
    rw [e3 false, pyOk_bind]
    simp only [Bool.false_eq_true, if_false, Cal.dtOfTuple, fl0, s59]
    exact newDT_ok hE (n := n) ⟨⟨y, hden4, hd⟩, vt _⟩
  · have a9 := abs_le.mp a9
    rw [abs_le]
    constructor <;> linarith

/-- The hypotheses of `C57_within_day_partial` are met by a whole day of year 182. -/
example : ∃ (n : ℤ) (t0 t1 t : ℚ), DayNumber (Cal.init sixPm) 182 5 7 n ∧ DayNumber (Cal.init sixPm) 182 5 8 (n + 1) ∧
    n ≤ 1096902 ∧ n ≠ 375721 ∧
    (Cal.init sixPm).timestampFromBadiDate ⟨182, 5, 7, []⟩ tehranLat tehranLon = .ok t0 ∧
    (Cal.init sixPm).timestampFromBadiDate ⟨182, 5, 8, []⟩ tehranLat tehranLon = .ok t1 ∧
    t0 < t ∧ t ≤ t1 - 1 / 1000 ∧ t ≤ t0 + 86399.99 := by
  have hd : ∀ d : ℤ, 1 ≤ d → d ≤ 19 → DayNumber (Cal.init sixPm) 182 5 d (ysInt 182 + 76 + d - 1) :=
    fun d h1 h2 => (dayNumber_iff sixPm_tehran).mpr
      ⟨by omega, by omega, Or.inl ⟨by omega, by omega, h1, h2⟩, by
        rw [show dBefore (leapOf 182) 5 = 76 by decide +kernel]⟩
  have h7 := hd 7 (by omega) (by omega)
  have h8 := hd 8 (by omega) (by omega)
  have e : ysInt 182 = 739329 := by decide +kernel
  rw [e] at h7 h8
  exact ⟨739411, 1834462416167761 / 1048576, 1834553013134161 / 1048576, 1749500000, h7, h8, by omega, by omega,
    by decide +kernel, by decide +kernel, by norm_num, by norm_num, by norm_num⟩

/-- C57, order: a later timestamp does not give an earlier date. For all timestamps of the era for which the long form
is computed. -/
theorem C57_monotone (A : Astro) (hE : TehranEvening A) (t1 t2 : ℚ) (hle : t1 ≤ t2)
    (hlo : -62163460000 ≤ t1) (hhi : t2 ≤ 32755000000) (k1 v1 w1 m1 d1 k2 v2 w2 m2 d2 : ℤ)
    (h1 : (Cal.init A).dateFromTimestamp t1 tehranLat tehranLon false = .ok (.long k1 v1 w1 m1 d1))
    (h2 : (Cal.init A).dateFromTimestamp t2 tehranLat tehranLon false = .ok (.long k2 v2 w2 m2 d2)) :
    ∃ n1 n2, IsDay (Cal.init A) (.long k1 v1 w1 m1 d1) n1 ∧ IsDay (Cal.init A) (.long k2 v2 w2 m2 d2) n2 ∧
      n1 ≤ n2 := by
  have key : ∀ (t : ℚ) (k v w m d : ℤ),
      (Cal.init A).dateFromTimestamp t tehranLat tehranLon false = .ok (.long k v w m d) →
      ∃ l : LongT, (Cal.init A).badiDateFromJd (fl (fl (t / 86400) + 2440585.5)) tehranLat tehranLon { trim := true }
        = .ok (.long l) ∧ l.k = k ∧ l.v = v ∧ l.y = w ∧ l.m = m ∧ ⌊l.d⌋ = d := by
    intro t k v w m d h
    unfold Cal.dateFromTimestamp Cal.badiDateFromTimestamp at h
    cases hb : (Cal.init A).badiDateFromJd (fl (fl (t / 86400) + 2440585.5)) tehranLat tehranLon
        { short := false, trim := true } with
    | error e => rw [hb, pyErr_bind] at h; cases h
    | ok b =>
      rw [hb, pyOk_bind] at h
      cases b with
      | short s =>
        unfold Cal.dateOfConversion Cal.newDate at h
        simp only [] at h
        cases hc : (Cal.init A).checkShort ⟨s.y, s.m, (⌊s.d⌋ : ℚ), []⟩ with
        | error e => rw [hc, pyErr_bind] at h; cases h
        | ok u => rw [hc, pyOk_bind] at h; cases h
      | long l =>
        refine ⟨l, rfl, ?_⟩
        unfold Cal.dateOfConversion Cal.newDate at h
        simp only [] at h
        cases hc : (Cal.init A).checkLong ⟨l.k, l.v, l.y, l.m, (⌊l.d⌋ : ℚ), []⟩ with
        | error e => rw [hc, pyErr_bind] at h; cases h
        | ok u =>
          rw [hc, pyOk_bind] at h
          injection h with h
          injection h with e1 e2 e3 e4 e5
          exact ⟨e1, e2, e3, e4, e5⟩
  obtain ⟨l1, b1, a1, a2, a3, a4, a5⟩ := key _ _ _ _ _ _ h1
  obtain ⟨l2, b2, c1, c2, c3, c4, c5⟩ := key _ _ _ _ _ _ h2
  have bound : ∀ t : ℚ, -62163460000 ≤ t → t ≤ 32755000000 →
      1721101 ≤ fl (fl (t / 86400) + 2440585.5) ∧ fl (fl (t / 86400) + 2440585.5) ≤ 2819700 := by
    intro t g0 g1
    have e1 := abs_le.mp (fl_err_le (x := t / 86400) (B := 720000) (by rw [abs_le]; constructor <;> linarith))
    have e2 := abs_le.mp (fl_err_le (x := fl (t / 86400) + 2440585.5) (B := 2820010)
      (by norm_num; rw [abs_le]; constructor <;> linarith))
    norm_num at *
    constructor <;> linarith
  have mono : fl (fl (t1 / 86400) + 2440585.5) ≤ fl (fl (t2 / 86400) + 2440585.5) :=
    fl_mono (by linarith [fl_mono (show t1 / 86400 ≤ t2 / 86400 by linarith)])
  obtain ⟨y1, y2, p1, p2, n1, n2, e1, e2, f1, f2, g1, g2, hn⟩ := C30_day_monotone_partial A hE _ _ (isF64_fl _) (isF64_fl _)
    (bound t1 hlo (by linarith)).1 mono (bound t2 (by linarith) hhi).2 true l1 l2 b1 b2
  rw [f1, Int.floor_intCast] at a5
  rw [f2, Int.floor_intCast] at c5
  subst a1 a2 a3 a4 a5 c1 c2 c3 c4 c5
  exact ⟨n1, n2, ⟨y1, e1, g1⟩, ⟨y2, e2, g2⟩, hn⟩

/-- Two timestamps that meet the hypotheses, eleven days apart. -/
example : ∃ o1 o2 : DateObj,
    (Cal.init sixPm).dateFromTimestamp 1749500000 tehranLat tehranLon false = .ok o1 ∧
    (Cal.init sixPm).dateFromTimestamp 1750500000 tehranLat tehranLon false = .ok o2 ∧
    o1 = .long 1 10 11 5 7 ∧ o2 = .long 1 10 11 5 18 := by
  refine ⟨.long 1 10 11 5 7, .long 1 10 11 5 18, ?_, ?_, rfl, rfl⟩ <;> decide +kernel

/-! ## C58 -/

/-- C58 for whole seconds: the date of a naive short form datetime survives `fromtimestamp(timestamp())`, and its time
of day up to four milliseconds. Missing from the full property: the time of day itself and the microseconds, where it
is false (below), and what is missing in `C57_within_day_partial`. -/
theorem C58_round_trip_partial (A : Astro) (hE : TehranEvening A) (y m d n last : ℤ)
    (hd : DayNumber (Cal.init A) y m d n) (hlast : (Cal.init A).yearStart 1161 = some last)
    (hn : n ≤ last) (h1 : (y, m, d) ∉ changeEves) (h2 : (y, m, d) ∉ changeDates)
    (h3 : (y, m, d) ∉ reformDates) (h4 : (y, m, d) ≠ reformEnd)
    (y' m' d' : ℤ) (hnext : DayNumber (Cal.init A) y' m' d' (n + 1)) (hne : (y', m', d') ≠ reformEnd)
    (h mi s fold : ℤ) (h0 : 0 ≤ h) (hh : h ≤ 23) (mi0 : 0 ≤ mi) (mi1 : mi ≤ 59) (s0 : 0 ≤ s)
    (s1 : s ≤ 59) (t t1 : ℚ)
    (ht : (Cal.init A).naiveTimestamp ⟨.short y m d, h, mi, s, 0, none, fold⟩ tehranLat tehranLon = .ok t)
    (ht1 : (Cal.init A).timestampFromBadiDate ⟨y', m', d', []⟩ tehranLat tehranLon = .ok t1)
    (hlt : t ≤ t1 - 1 / 1000) (h5 : n = 375721 → 1 / 10 < |t + 29673314709.2784|) :
    ∃ h' mi' s' us' : ℤ,
      (Cal.init A).dtFromTimestamp t tehranLat tehranLon none true = .ok ⟨.short y m d, h', mi', s', us', none, 0⟩ ∧
      0 ≤ h' ∧ h' ≤ 23 ∧ 0 ≤ mi' ∧ mi' ≤ 59 ∧ 0 ≤ s' ∧ s' ≤ 59 ∧ 0 ≤ us' ∧ us' ≤ 999999 ∧
      |((3600 * h' + 60 * mi' + s' + us' / 1000000) - (3600 * h + 60 * mi + s) : ℚ)| ≤ 4 / 1000 := by
  obtain ⟨t0', t', e0, e1, he⟩ := C50_counted_twice A hE y m d n hd (by unfold LostDate; tauto) 0 0 0 0 0 h mi s 0 fold
    (le_refl _) (by omega) (le_refl _) (by omega) (le_refl _) (by omega) (le_refl _) (by omega) h0 (by omega) mi0 mi1 s0 s1
    (le_refl _) (by omega)
  rw [ht] at e1
  cases e1
  -- the start of the day
  have e0' : (Cal.init A).timestampFromBadiDate ⟨y, m, d, []⟩ tehranLat tehranLon = .ok t0' := by
    have hb := notin_badDays hE hd h1 h3 h4
    obtain ⟨g0, g1, hv, -⟩ := (dayNumber_iff hE).mp hd
    have hl := init_isLeap hE g0 g1
    have hj := date_jd' hE hd hb
    have hchk := checkShort_time (C := Cal.init A) (rest := []) hl g0 (by omega) hv (le_refl 0) (by omega) (le_refl 0)
      (by omega) (le_refl 0) (by omega) (le_refl 0) (by omega)
    have hj2 := date_jd_time hE hd hb hchk
    have hjn := date_jd_time hE hd hb (t := []) (checkShort_day hl g0 (by omega) hv)
    have : (Cal.init A).jdFromBadiDateDefault ⟨y, m, d, [((0 : ℤ) : ℚ), ((0 : ℤ) : ℚ), ((0 : ℤ) : ℚ), ((0 : ℤ) : ℚ)]⟩
        = (Cal.init A).jdFromBadiDateDefault ⟨y, m, d, []⟩ := by
      rw [hj2, hjn]
      simp [getHms]
    unfold Cal.naiveTimestamp at e0
    simp only [] at e0
    unfold Cal.timestampFromBadiDate at e0 ⊢
    unfold Cal.jdFromBadiDateDefault at this hj
    rw [this, hj, pyOk_bind, pyOk_bind] at e0
    rw [hj, pyOk_bind]
    simp only [Int.cast_zero, zero_div, fl_zero, add_zero] at e0
    rw [show ∀ z : ℚ, fl (pyRound z 12) = pyRound z 12 from fun z => by
      unfold pyRound; exact isF64_fl _] at e0
    exact e0
  have tod0 : 0 ≤ 3600 * h + 60 * mi + s := by omega
  have he := abs_le.mp he
  have htod : (3600 : ℚ) * h + 60 * mi + s ≤ 86399 := by exact_mod_cast (by omega : 3600 * h + 60 * mi + s ≤ 86399)
  norm_num at he
  have t0t : t0' ≤ t := by
    rcases eq_or_lt_of_le tod0 with hz | hz
    · obtain rfl : h = 0 := by omega
      obtain rfl : mi = 0 := by omega
      obtain rfl : s = 0 := by omega
      unfold Cal.naiveTimestamp at e0 ht
      simp only [] at e0 ht
      rw [e0] at ht
      injection ht with ht
      rw [ht]
    · have : (1 : ℚ) ≤ 3600 * h + 60 * mi + s := by exact_mod_cast hz
      linarith
  obtain ⟨-, -, h', mi', s', us', r1, -, a1, a2, a3, a4, a5, a6, a7, a8, a9⟩ := C57_within_day_partial A hE y m d n last hd
    hlast hn h1 h2 h3 h4 y' m' d' hnext hne t0' t1 t e0' ht1 t0t hlt (by norm_num; linarith) h5 none
  refine ⟨h', mi', s', us', r1, a1, a2, a3, a4, a5, a6, a7, a8, ?_⟩
  have a9 := abs_le.mp a9
  rw [abs_le]
  constructor <;> linarith

/-- The hypotheses of `C58_round_trip_partial` are met at 12:05 on (182, 5, 7); the dates are those of the example
above. -/
example : ∃ t t1 : ℚ,
    (Cal.init sixPm).naiveTimestamp ⟨.short 182 5 7, 12, 5, 0, 0, none, 0⟩ tehranLat tehranLon = .ok t ∧
    (Cal.init sixPm).timestampFromBadiDate ⟨182, 5, 8, []⟩ tehranLat tehranLon = .ok t1 ∧ t ≤ t1 - 1 / 1000 :=
  ⟨7338032116894969 / 4194304, 1834553013134161 / 1048576, by decide +kernel, by decide +kernel, by norm_num⟩

/-- C58 is false for whole seconds: five past twelve comes back as 12:04:59.998800. -/
theorem C58_seconds_negation :
    ∃ t, (Cal.init sixPm).naiveTimestamp ⟨.short 182 5 7, 12, 5, 0, 0, none, 0⟩ tehranLat tehranLon = .ok t ∧
      (Cal.init sixPm).dtFromTimestamp t tehranLat tehranLon none true
        = .ok ⟨.short 182 5 7, 12, 4, 59, 998800, none, 0⟩ :=
  ⟨7338032116894969 / 4194304, by decide +kernel, by decide +kernel⟩

/-- C58 is false with microseconds: half a second past twelve comes back as a second past twelve. -/
theorem C58_micro_negation :
    ∃ t, (Cal.init sixPm).naiveTimestamp ⟨.short 182 5 7, 12, 0, 0, 500000, none, 0⟩ tehranLat tehranLon = .ok t ∧
      (Cal.init sixPm).dtFromTimestamp t tehranLat tehranLon none true
        = .ok ⟨.short 182 5 7, 12, 0, 1, 800, none, 0⟩ :=
  ⟨7338030862798221 / 4194304, by decide +kernel, by decide +kernel⟩

/-- C57 is false for the first instant of the dates after the twelve changes: its timestamp exists, but neither
`date.fromtimestamp` nor `datetime.fromtimestamp` accepts it. -/
theorem C57_change_dates_negation (A : Astro) (hE : TehranEvening A) (y m d : ℤ) (h : (y, m, d) ∈ changeDates) :
    ∃ t : ℚ, (Cal.init A).timestampFromBadiDate ⟨y, m, d, []⟩ tehranLat tehranLon = .ok t ∧
      ∀ short : Bool, (Cal.init A).dateFromTimestamp t tehranLat tehranLon short = .error .value ∧
        ∀ tz, (Cal.init A).dtFromTimestamp t tehranLat tehranLon tz short = .error .value := by
  obtain ⟨t, t1, t2⟩ := C56_change_dates_negation A hE y m d h
  refine ⟨t, t1, fun short => ⟨?_, fun tz => ?_⟩⟩
  · unfold Cal.dateFromTimestamp
    rw [t2 _ rfl, pyErr_bind]
  · unfold Cal.dtFromTimestamp
    rw [t2 _ rfl, pyErr_bind]

example : (-1744, 19, 2) ∈ changeDates := by decide

end Verif
