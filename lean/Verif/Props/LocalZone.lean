import Verif.Model.LocalZone
import Verif.Props.FromTimestamp
import Verif.Props.StructTime
import Verif.Props.DateTimeFields

/-!
# C88: `astimezone` and the local zone
-/

namespace Verif

/-- The timestamp `t` is an instant of the date: it is not before the timestamp of the date, more than a millisecond before the
one of the next date and more than 10 milliseconds before 24 hours after the first. The dates excluded are those of C57. -/
structure InstantOf (A : Astro) (y m d n : ℤ) (t : ℚ) : Prop where
  day : DayNumber (Cal.init A) y m d n
  last : n ≤ 1096902
  eve : (y, m, d) ∉ changeEves
  change : (y, m, d) ∉ changeDates
  reform : (y, m, d) ∉ reformDates
  stop : (y, m, d) ≠ reformEnd
  gap : n = 375721 → 1 / 10 < |t + 29673314709.2784|
  within : ∃ (y' m' d' : ℤ) (t0 t1 : ℚ), DayNumber (Cal.init A) y' m' d' (n + 1) ∧ (y', m', d') ≠ reformEnd ∧
    (Cal.init A).timestampFromBadiDate ⟨y, m, d, []⟩ tehranLat tehranLon = .ok t0 ∧
    (Cal.init A).timestampFromBadiDate ⟨y', m', d', []⟩ tehranLat tehranLon = .ok t1 ∧
    t0 ≤ t ∧ t ≤ t1 - 1 / 1000 ∧ t ≤ t0 + 86399.99

theorem instant_ymd {A : Astro} (hE : TehranEvening A) {y m d n : ℤ} {t : ℚ} (h : InstantOf A y m d n t) :
    ∃ fr, (Cal.init A).badiYmdFromJd (fl (fl (t / 86400) + 2440585.5)) tehranLat tehranLon = .ok (y, m, d, fr) ∧
      0 ≤ fr ∧ fr ≤ 1 - 1 / 40000000 := by
  obtain ⟨hd, hn, h1, h2, h3, h4, h5, y', m', d', t0, t1, hnext, hne, ht0, ht1, hta, htb, htc⟩ := h
  have hb := notin_badDays hE hd h1 h3 h4
  have hc := notin_changeDays hE hd h2
  obtain ⟨y0, y1, n0, n1⟩ := dayNumber_year hE hd
  have q0 := ysInt_mono (le_refl (-1843)) y0 (by omega)
  rw [ysInt_m1843] at q0
  have hj := date_jd' hE hd hb
  unfold Cal.jdFromBadiDateDefault at hj
  have hb' : n + 1 + 1721423 ∉ badDays := by
    obtain ⟨z0, z1, hv, -⟩ := (dayNumber_iff hE).mp hnext
    have hchk := checkShort_day (init_isLeap hE z0 z1) z0 (by omega) hv
    apply notin_badDays hE hnext _ _ hne
    · intro hbad
      have := date_jd_err hE hnext (List.mem_append_left _ hbad) hchk
      unfold Cal.jdFromBadiDateDefault at this
      unfold Cal.timestampFromBadiDate at ht1
      rw [this] at ht1
      cases ht1
    · intro hbad
      have := date_jd_err hE hnext (List.mem_append_right _ hbad) hchk
      unfold Cal.jdFromBadiDateDefault at this
      unfold Cal.timestampFromBadiDate at ht1
      rw [this] at ht1
      cases ht1
  have hj' := date_jd' hE hnext hb'
  unfold Cal.jdFromBadiDateDefault at hj'
  rw [show n + 1 + 1721423 = n + 1721423 + 1 by ring] at hj'
  unfold Cal.timestampFromBadiDate at ht0 ht1
  rw [hj, pyOk_bind] at ht0
  rw [hj', pyOk_bind] at ht1
  injection ht0 with ht0
  injection ht1 with ht1
  obtain ⟨sf, s0, s1⟩ := ssE_bounds hE (P := n + 1721423) (by omega) (by omega)
  obtain ⟨sf', s0', s1'⟩ := ssE_bounds hE (P := n + 1721423 + 1) (by omega) (by omega)
  have nq0 : (-287 : ℚ) ≤ n := by exact_mod_cast (by omega : -287 ≤ n)
  have nq1 : (n : ℚ) ≤ 1096902 := by exact_mod_cast hn
  push_cast at s0 s1 s0' s1'
  obtain ⟨x0, x1, xe⟩ := instant_between sf sf' (by linarith) (by linarith) (by linarith) (by linarith) ht0.symm
    ht1.symm hta htb
  have xf : IsF64 (fl (fl (t / 86400) + 2440585.5)) := isF64_fl _
  have xe := abs_le.mp xe
  norm_num at htc
  have hfr : fl (fl (t / 86400) + 2440585.5) - ssE A (n + 1721423) ≤ 1 - 1 / 40000000 := by linarith
  exact ⟨_, ymd_within hE xf hd hn hb hc (fun h => midnight_ts (h5 h)) x0 x1 (by linarith), by linarith, hfr⟩

theorem secondsUs_whole (k : ℤ) : secondsUs (k : ℚ) = k * 1000000 := by
  unfold secondsUs
  have : pyInt (k : ℚ) = k := by simp [pyInt]
  rw [this, sub_self, mul_zero]
  have e : fl 0 = 0 := by decide +kernel
  rw [e]
  have : roundHalfEven 0 = 0 := by decide +kernel
  omega

theorem padTime_trim (h mi s : ℚ) : padTime (trimHms [h, mi, s]) = (h, mi, s) := by
  rw [trimHms_eq]
  unfold padTime
  by_cases e1 : s = 0
  · by_cases e2 : mi = 0
    · by_cases e3 : h = 0
      · simp [e1, e2, e3]
      · simp [e1, e2, e3]
    · simp [e1, e2]
  · simp [e1]

theorem createTime_whole {h mi s : ℚ} (hh : pyMod1 h = 0) (hm : pyMod1 mi = 0) : ∃ r, createTime h mi s 0 = .ok r := by
  unfold createTime
  simp only [hh, hm, ne_eq, not_true_eq_false, false_and, if_false, and_false]
  split_ifs
  · exact ⟨_, rfl⟩
  · exact ⟨_, rfl⟩

theorem structZone_ok {A : Astro} (hE : TehranEvening A) {o : DateObj} {n : ℤ} (ho : IsDay (Cal.init A) o n) {h mi : ℤ} {s : ℚ}
    (h0 : 0 ≤ h) (h1 : h ≤ 24) (m0 : 0 ≤ mi) (m1 : mi ≤ 59) (s0 : 0 ≤ s) (s1 : s < 61) (loc : Zone) :
    (Cal.init A).structZone o ((h : ℚ), (mi : ℚ), s) loc = .ok (some (tzName loc), offsetSeconds (some ⟨loc, none⟩)) := by
  unfold Cal.structZone
  obtain ⟨r, hr⟩ := createTime_whole (h := (h : ℚ)) (mi := (mi : ℚ)) (s := s) (pyMod1_int h) (pyMod1_int mi)
  simp only
  rw [hr, pyOk_bind, newDate_ok hE ho, pyOk_bind]
  have c : checkTimeArgs (h : ℚ) (mi : ℚ) s 0 = .ok () := by
    unfold checkTimeArgs
    have ok : ∀ {p : Prop} [Decidable p], p → pyAssert (decide p) = .ok () := fun h => by simp [pyAssert, h]
    rw [ok ⟨by exact_mod_cast h0, by exact_mod_cast (by omega : h < 25)⟩, pyOk_bind,
      ok ⟨by exact_mod_cast m0, by exact_mod_cast (by omega : mi < 60)⟩, pyOk_bind, ok ⟨s0, s1⟩, pyOk_bind,
      ok ⟨by decide, by decide⟩]
  rw [c, pyOk_bind]

/-- The conversion of the timestamp and the time tuple in `_local_timezone` succeed for the instants of the ordinary dates. -/
theorem localStruct_ok {A : Astro} (hE : TehranEvening A) (hO : NewYearOrder (Cal.init A)) {y m d n : ℤ} {t : ℚ}
    (h : InstantOf A y m d n t) (short : Bool) (loc : Zone) :
    ∃ b, (Cal.init A).badiDateFromTimestamp t tehranLat tehranLon { short := short, trim := true } = .ok b ∧
      (Cal.init A).localStruct b loc = .ok (some (tzName loc), offsetSeconds (some ⟨loc, none⟩)) := by
  obtain ⟨fr, hy, f0, f1⟩ := instant_ymd hE h
  obtain ⟨k, v, w, hden, e⟩ := badiDate_ok hE short true h.day hy f0 (fun _ => f1)
  refine ⟨_, e, ?_⟩
  have hs := hms_spec f0
  simp only at hs
  obtain ⟨a1, a2, a3, a4, a5, a6, -, a8, -⟩ := hs
  have a8 := a8 (by rw [Int.fract_eq_self.mpr ⟨f0, by linarith⟩]; exact f1)
  generalize (hmsFromDecimalDay fr).1 = hh at *
  generalize (hmsFromDecimalDay fr).2.1 = mi at *
  generalize (hmsFromDecimalDay fr).2.2 = ss at *
  obtain ⟨y0, y1, hv, -⟩ := (dayNumber_iff hE).mp h.day
  have hday := dayOfWeek_ok hE hO h.day
  have hbef := daysBeforeMonth_ok (init_isLeap hE y0 y1) hv
  have fl0 : ∀ z : ℤ, ⌊(z : ℚ)⌋ = z := fun z => Int.floor_intCast z
  cases short with
  | true =>
    simp only [if_true, Cal.localStruct, padTime_trim, fl0]
    rw [hday, pyOk_bind, hbef, pyOk_bind]
    exact structZone_ok hE (o := .short y m d) (n := n) h.day a1 (by omega) a3 (by omega) a5 (by linarith) loc
  | false =>
    simp only [Bool.false_eq_true, if_false, Cal.localStruct, padTime_trim, fl0]
    obtain ⟨c, hcy, c1, c2, c3, c4⟩ := cycleOf_valid (init_isLeap hE y0 y1) hv
    have ht : (Cal.init A).checkTail y m d [(hh : ℚ), (mi : ℚ), ss] = .ok () :=
      checkTail_hms c3 c4 hcy c1 (by omega) a1 (by omega) a3 (by omega) a5 a6
    have hs := shortFromLong_ok false hden y0 (by omega) ht
      (by change (hh : ℚ) < 24; exact_mod_cast a8)
    rw [hs, pyOk_bind]
    simp only [fl0]
    rw [hday, pyOk_bind, hbef, pyOk_bind]
    exact structZone_ok hE (o := .long k v w m d) (n := n) ⟨y, hden, h.day⟩ a1 (by omega) a3 (by omega) a5 (by linarith) loc

theorem offsetSeconds_whole {loc : Zone} {k : ℤ} (hk : loc.off = k * 1000000) (h0 : loc.off ≠ 0) (hb : |k| < 86400) :
    offsetSeconds (some ⟨loc, none⟩) = some (k : ℚ) := by
  unfold offsetSeconds
  simp only [h0, if_false]
  rw [hk]
  push_cast
  rw [mul_div_assoc, div_self (by norm_num), mul_one, fl_int k (by have := abs_lt.mp hb; rw [abs_le]; omega)]

/-- What `_local_timezone` returns has the offset and the name of `LOCAL`, whatever the datetime is. -/
theorem localTimezone_ok {A : Astro} (hE : TehranEvening A) (hO : NewYearOrder (Cal.init A)) {loc : Zone} {k : ℤ}
    (hk : loc.off = k * 1000000) (h0 : loc.off ≠ 0) (hb : |k| < 86400) {utc : Tz} {x : DT} {t : ℚ} {y m d n : ℤ}
    (hs : (Cal.init A).localStamp x tehranLat tehranLon utc = .ok t) (hi : InstantOf A y m d n t) (fresh : ℕ) :
    (Cal.init A).localTimezone ⟨tehranLat, tehranLon, loc⟩ utc fresh x = .ok ⟨fresh, loc.off, some (tzName loc)⟩ := by
  obtain ⟨b, e1, e2⟩ := localStruct_ok hE hO hi x.d.isShort loc
  unfold Cal.localTimezone
  simp only
  rw [hs, pyOk_bind, e1, pyOk_bind, e2, pyOk_bind]
  simp only
  rw [offsetSeconds_whole hk h0 hb]
  simp only
  rw [secondsUs_whole, ← hk]
  unfold newZone
  have := abs_lt.mp hb
  rw [if_neg (by simp), if_pos (by omega)]

/-- Ten in the morning of a day of the year 182. -/
def tenOclock (tz : Option Tz) : DT := ⟨.short 182 5 7, 10, 0, 0, 0, tz, 0⟩

theorem tenOclock_days : DayNumber (Cal.init newYearSun) 182 5 7 739411 ∧ DayNumber (Cal.init newYearSun) 182 5 8 739412 := by
  have hd : ∀ d : ℤ, 1 ≤ d → d ≤ 19 → DayNumber (Cal.init newYearSun) 182 5 d (ysInt 182 + 76 + d - 1) :=
    fun d h1 h2 => (dayNumber_iff newYearSun_tehran).mpr
      ⟨by omega, by omega, Or.inl ⟨by omega, by omega, h1, h2⟩, by
        rw [show dBefore (leapOf 182) 5 = 76 by decide +kernel]⟩
  have e : ysInt 182 = 739329 := by decide +kernel
  have h7 := hd 7 (by omega) (by omega)
  have h8 := hd 8 (by omega) (by omega)
  rw [e] at h7 h8
  exact ⟨h7, h8⟩

theorem tenOclock_is (tz : Option Tz) : IsDT (Cal.init newYearSun) (tenOclock tz) 739411 := by
  refine ⟨tenOclock_days.1, ?_⟩
  unfold DT.timetz tenOclock
  exact ⟨by norm_num, by norm_num, by norm_num, by norm_num, by norm_num, by norm_num, by norm_num, by norm_num, Or.inl rfl⟩

theorem tenOclock_instant {t : ℚ} (h0 : 1749480555 ≤ t) (h1 : t ≤ 1749566950) : InstantOf newYearSun 182 5 7 739411 t where
  day := tenOclock_days.1
  last := by omega
  eve := by decide
  change := by decide
  reform := by decide
  stop := by decide
  gap := by omega
  within := ⟨182, 5, 8, 7337853288549619 / 4194304, 7338215676415219 / 4194304, tenOclock_days.2, by decide,
    by decide +kernel, by decide +kernel, by linarith, by linarith, by norm_num; linarith⟩

/-- C88, aware datetimes: `x.astimezone()` is the same instant as `x` and has the offset of `LOCAL`. Missing from the full
property: a local zone without offset, where it is false (below), local coordinates other than those of Tehran, and the days
excluded in C27 and C57. -/
theorem C88_aware_partial (A : Astro) (hE : TehranEvening A) (hO : NewYearOrder (Cal.init A)) (loc : Zone) (k : ℤ)
    (hk : loc.off = k * 1000000) (h0 : loc.off ≠ 0) (hb : |k| < 86400) (utc : Tz) (x : DT) (n : ℤ) (z0 : Tz)
    (hx : IsDT (Cal.init A) x n) (hz0 : x.tz = some z0) (o0 : ValidOff z0.off) (f g : ℕ) (hf : f ≠ z0.id) (T : ℤ)
    (hT : (Cal.init A).awareTimestampUs x utc = .ok T) (y' m' d' n' : ℤ)
    (hi : InstantOf A y' m' d' n' ((T / 1000000 : ℤ) : ℚ))
    (hu : Reachable (Cal.init A) ((localMicro x n - z0.off) / 86400000000))
    (hv : Reachable (Cal.init A) ((localMicro x n - z0.off + loc.off) / 86400000000)) :
    ∃ y, (Cal.init A).asTimezoneAny ⟨tehranLat, tehranLon, loc⟩ utc f g x none = .ok y ∧ y.tz = some ⟨f, loc.off⟩ ∧
      (Cal.init A).dtSub y x = .ok 0 := by
  have hl := localTimezone_ok hE hO hk h0 hb (utc := utc) (x := x)
    (by unfold Cal.localStamp; rw [hz0]; unfold Cal.awareTimestampUs at hT; simp only; rw [hT, pyOk_bind]) hi f
  have ov : ValidOff loc.off := by
    have := abs_lt.mp hb
    unfold ValidOff
    omega
  obtain ⟨y, e, s⟩ := asTimezone_eq hE hO (z0 := z0) (z := ⟨f, loc.off⟩) hx
    (by intro e; exact hf (by rw [← e])) hu hv
  refine ⟨y, ?_, s.tz, ?_⟩
  · unfold Cal.asTimezoneAny Cal.targetZone
    simp only [hl, pyOk_bind, hz0, Zone.tz]
    exact e
  · rw [dtSubBase hE hO s.dt hx, dtSubOff_tz s.tz hz0 ov o0, s.micro]
    congr 1
    simp only
    ring

/-- An hour ahead of UTC, with the default configuration. -/
example : badiZone.off = 12600 * 1000000 ∧ badiZone.off ≠ 0 ∧ |(12600 : ℤ)| < 86400 ∧
    IsDT (Cal.init newYearSun) (tenOclock (some ⟨5, 3600000000⟩)) 739411 ∧ ValidOff 3600000000 ∧
    (Cal.init newYearSun).awareTimestampUs (tenOclock (some ⟨5, 3600000000⟩)) utcZone.tz = .ok 1749517227507600 ∧
    InstantOf newYearSun 182 5 7 739411 ((1749517227507600 / 1000000 : ℤ) : ℚ) ∧
    Reachable (Cal.init newYearSun) ((localMicro (tenOclock (some ⟨5, 3600000000⟩)) 739411 - 3600000000) / 86400000000) ∧
    Reachable (Cal.init newYearSun)
      ((localMicro (tenOclock (some ⟨5, 3600000000⟩)) 739411 - 3600000000 + badiZone.off) / 86400000000) := by
  refine ⟨rfl, by decide, by decide, tenOclock_is _, by unfold ValidOff; omega, by decide +kernel, ?_, ?_, ?_⟩
  · exact tenOclock_instant (by norm_num) (by norm_num)
  · exact reachable_modern newYearSun_tehran (by decide) (by decide)
  · exact reachable_modern newYearSun_tehran (by decide) (by decide)

/-- C88, naive datetimes: `x.astimezone(z)` and `x.astimezone()` are what they would be if `x` had the zone `LOCAL`: the same
instant as `x.replace(tzinfo=LOCAL)`, in the zone asked for. -/
theorem C88_naive_partial (A : Astro) (hE : TehranEvening A) (hO : NewYearOrder (Cal.init A)) (loc : Zone) (k : ℤ)
    (hk : loc.off = k * 1000000) (h0 : loc.off ≠ 0) (hb : |k| < 86400) (utc : Tz) (x : DT) (n : ℤ)
    (hx : IsDT (Cal.init A) x n) (hz : x.tz = none) (f g : ℕ) (hfg : f ≠ g) (tz : Option Tz)
    (hg : ∀ z, tz = some z → z.id ≠ g ∧ ValidOff z.off) (T : ℚ)
    (hT : (Cal.init A).mktime x tehranLat tehranLon = .ok T) (y' m' d' n' : ℤ) (hi : InstantOf A y' m' d' n' T)
    (hu : Reachable (Cal.init A) ((localMicro x n - loc.off) / 86400000000))
    (hv : Reachable (Cal.init A) ((localMicro x n - loc.off + (tz.elim loc.off Tz.off)) / 86400000000)) :
    ∃ y, (Cal.init A).asTimezoneAny ⟨tehranLat, tehranLon, loc⟩ utc f g x tz = .ok y ∧
      y.tz = some (tz.getD ⟨f, loc.off⟩) ∧ (Cal.init A).dtSub y { x with tz := some loc.tz } = .ok 0 := by
  have hl := fun i => localTimezone_ok hE hO hk h0 hb (utc := utc) (x := x)
    (by unfold Cal.localStamp; rw [hz]; exact hT) hi i
  have ov : ValidOff loc.off := by
    have := abs_lt.mp hb
    unfold ValidOff
    omega
  have hx' : IsDT (Cal.init A) { x with tz := some loc.tz } n :=
    ⟨hx.day, ⟨hx.time.h0, hx.time.h1, hx.time.mi0, hx.time.mi1, hx.time.s0, hx.time.s1, hx.time.us0, hx.time.us1,
      hx.time.fold⟩⟩
  have key : ∀ z : Tz, z.id ≠ g → ValidOff z.off →
      Reachable (Cal.init A) ((localMicro x n - loc.off + z.off) / 86400000000) →
      ∃ y, (Cal.init A).asTimezone x ⟨g, loc.off⟩ z = .ok y ∧ y.tz = some z ∧
        (Cal.init A).dtSub y { x with tz := some loc.tz } = .ok 0 := by
    intro z hid hoz hvz
    obtain ⟨y, e, s⟩ := asTimezone_eq hE hO (z0 := ⟨g, loc.off⟩) (z := z) hx (by intro e; exact hid (by rw [e])) hu hvz
    refine ⟨y, e, s.tz, ?_⟩
    rw [dtSubBase hE hO s.dt hx', dtSubOff_tz s.tz rfl hoz ov, s.micro, localMicro_tz]
    congr 1
    simp only [localMicro_tz, Zone.tz]
    ring
  unfold Cal.asTimezoneAny Cal.targetZone
  cases tz with
  | none =>
    simp only [hl, pyOk_bind, hz, Zone.tz]
    exact key ⟨f, loc.off⟩ hfg ov hv
  | some z =>
    simp only [hl, pyOk_bind, hz, Zone.tz]
    exact key z (hg z rfl).1 (hg z rfl).2 hv

example : IsDT (Cal.init newYearSun) (tenOclock none) 739411 ∧
    (Cal.init newYearSun).mktime (tenOclock none) tehranLat tehranLon = .ok (3669002141746781 / 2097152) ∧
    InstantOf newYearSun 182 5 7 739411 (3669002141746781 / 2097152) ∧
    Reachable (Cal.init newYearSun) ((localMicro (tenOclock none) 739411 - badiZone.off) / 86400000000) ∧
    Reachable (Cal.init newYearSun)
      ((localMicro (tenOclock none) 739411 - badiZone.off + (some utcZone.tz).elim badiZone.off Tz.off) / 86400000000) := by
  refine ⟨tenOclock_is _, by decide +kernel, ?_, ?_, ?_⟩
  · exact tenOclock_instant (by norm_num) (by norm_num)
  · exact reachable_modern newYearSun_tehran (by decide) (by decide)
  · exact reachable_modern newYearSun_tehran (by decide) (by decide)

/-- `_local_timezone` never returns when `LOCAL` has the offset zero. -/
theorem localTimezone_zero (C : Cal) (L : LocalConf) (h0 : L.zone.off = 0) (utc : Tz) (fresh : ℕ) (x : DT) (z : Zone) :
    C.localTimezone L utc fresh x ≠ .ok z := by
  intro h
  unfold Cal.localTimezone at h
  cases h1 : C.localStamp x L.lat L.lon utc with
  | error e => rw [h1] at h; cases h
  | ok t =>
    rw [h1, pyOk_bind] at h
    cases h2 : C.badiDateFromTimestamp t L.lat L.lon { short := x.d.isShort, trim := true } with
    | error e => rw [h2] at h; cases h
    | ok b =>
      rw [h2, pyOk_bind] at h
      cases h3 : C.localStruct b L.zone with
      | error e => rw [h3] at h; cases h
      | ok r =>
        rw [h3, pyOk_bind] at h
        have hr : r.2 = none := by
          have hz : ∀ d t r, C.structZone d t L.zone = .ok r → r.2 = none := by
            intro d t r h
            unfold Cal.structZone at h
            cases g1 : createTime t.1 t.2.1 t.2.2 0 with
            | error e => rw [g1] at h; cases h
            | ok _ =>
              rw [g1, pyOk_bind] at h
              cases g2 : C.newDate d with
              | error e => rw [g2] at h; cases h
              | ok _ =>
                rw [g2, pyOk_bind] at h
                cases g3 : checkTimeArgs t.1 t.2.1 t.2.2 0 with
                | error e => rw [g3] at h; cases h
                | ok _ =>
                  rw [g3, pyOk_bind] at h
                  cases h
                  simp [offsetSeconds, h0]
          unfold Cal.localStruct at h3
          cases b with
          | short s =>
            simp only at h3
            cases g1 : C.dayOfWeek s.y s.m ⌊s.d⌋ with
            | error e => rw [g1] at h3; cases h3
            | ok _ =>
              rw [g1, pyOk_bind] at h3
              cases g2 : C.daysBeforeMonth s.y s.m with
              | error e => rw [g2] at h3; cases h3
              | ok _ =>
                rw [g2, pyOk_bind] at h3
                exact hz _ _ _ h3
          | long l =>
            simp only at h3
            cases g0 : C.shortFromLong { l with t := [(padTime l.t).1, (padTime l.t).2.1, (padTime l.t).2.2] } false with
            | error e => rw [g0] at h3; cases h3
            | ok s =>
              rw [g0, pyOk_bind] at h3
              cases g1 : C.dayOfWeek s.y s.m ⌊s.d⌋ with
              | error e => rw [g1] at h3; cases h3
              | ok _ =>
                rw [g1, pyOk_bind] at h3
                cases g2 : C.daysBeforeMonth s.y s.m with
                | error e => rw [g2] at h3; cases h3
                | ok _ =>
                  rw [g2, pyOk_bind] at h3
                  exact hz _ _ _ h3
        obtain ⟨nm, gm⟩ := r
        simp only at hr
        subst hr
        cases h

/-- C88 is false where the local zone has the offset zero, as in London in winter: `astimezone()` of every datetime and
`astimezone(z)` of every naive datetime raise an exception. -/
theorem C88_zero_negation (C : Cal) (L : LocalConf) (h0 : L.zone.off = 0) (utc : Tz) (f g : ℕ) (x : DT) (tz : Option Tz)
    (h : tz = none ∨ x.tz = none) (y : DT) : C.asTimezoneAny L utc f g x tz ≠ .ok y := by
  intro he
  unfold Cal.asTimezoneAny at he
  cases hz : C.targetZone L utc f x tz with
  | error e => rw [hz] at he; cases he
  | ok z =>
    rw [hz, pyOk_bind] at he
    have hl : ∀ i, ∃ e, C.localTimezone L utc i x = .error e := by
      intro i
      cases hc : C.localTimezone L utc i x with
      | error e => exact ⟨e, rfl⟩
      | ok w => exact absurd hc (localTimezone_zero C L h0 utc i x w)
    rcases h with rfl | h
    · unfold Cal.targetZone at hz
      obtain ⟨e, hc⟩ := hl f
      simp only [hc] at hz
      cases hz
    · rw [h] at he
      obtain ⟨e, hc⟩ := hl g
      simp only [hc] at he
      cases he

example : utcZone.off = 0 ∧ (tenOclock none).tz = none := ⟨rfl, rfl⟩

/-- C88, the exception is `TypeError` at the instants at which the conversion of the timestamp succeeds. -/
theorem C88_type_error_negation (A : Astro) (hE : TehranEvening A) (hO : NewYearOrder (Cal.init A)) (loc : Zone)
    (h0 : loc.off = 0) (utc : Tz) (x : DT) (t : ℚ) (y m d n : ℤ)
    (hs : (Cal.init A).localStamp x tehranLat tehranLon utc = .ok t) (hi : InstantOf A y m d n t) (f g : ℕ) :
    (Cal.init A).asTimezoneAny ⟨tehranLat, tehranLon, loc⟩ utc f g x none = .error .type := by
  obtain ⟨b, e1, e2⟩ := localStruct_ok hE hO hi x.d.isShort loc
  have : (Cal.init A).localTimezone ⟨tehranLat, tehranLon, loc⟩ utc f x = .error .type := by
    unfold Cal.localTimezone
    simp only
    rw [hs, pyOk_bind, e1, pyOk_bind, e2, pyOk_bind]
    simp [offsetSeconds, h0]
  unfold Cal.asTimezoneAny Cal.targetZone
  simp only [this]
  rfl

example : utcZone.off = 0 ∧
    (Cal.init newYearSun).localStamp (tenOclock none) tehranLat tehranLon utcZone.tz = .ok (3669002141746781 / 2097152) ∧
    InstantOf newYearSun 182 5 7 739411 (3669002141746781 / 2097152) :=
  ⟨rfl, by decide +kernel, tenOclock_instant (by norm_num) (by norm_num)⟩

end Verif
