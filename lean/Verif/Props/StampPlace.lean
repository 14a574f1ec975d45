import Verif.Lemmas.FromTimestamp
import Verif.Props.FromTimestamp
import Verif.Props.Parts
import Verif.Props.Place

/-!
# Property C95: `datetime.fromtimestamp` with a zone
-/

namespace Verif

/-! ## C95 -/

theorem coordZone_parts {hours : ℚ → ℤ} {lat lon : ℚ} {zone : Option ℚ} {key : Option Str} {z : CoordZone}
    (h : newCoordZone hours lat lon zone key = .ok z) :
    z.coords = (lat, lon, zone) ∧ z.off = coordOffset hours zone ∧ ValidOff z.off := by
  unfold newCoordZone at h
  simp only [newZone, reduceCtorEq, false_and, if_false] at h
  by_cases h1 : -(24 * 3600000000 - 1) ≤ coordOffset hours zone ∧ coordOffset hours zone ≤ 24 * 3600000000 - 1
  · rw [if_pos h1, pyOk_bind] at h
    have e := Except.ok.inj h
    subst e
    exact ⟨rfl, rfl, by unfold ValidOff; simp only; omega⟩
  · rw [if_neg h1, pyErr_bind] at h
    cases h

/-- C95, the day and the time at the place of the zone: for a zone object made with coordinates and an offset, at every
place west of longitude 179.9999 where the sun sets on every local civil day, and for every timestamp from that of the
start of a date there up to a millisecond before that of the next date (and at most 10 milliseconds before 24 hours),
`datetime.fromtimestamp(t, tz)` is this date, in both forms, with the time elapsed since its start, up to three
milliseconds. Whatever the local coordinates of the machine are. For ordinary days (all from year -260 on). Missing from the full property: the 96 other
days, those after the first day of 1161, and the milliseconds just named. -/
theorem C95_place_partial (A : Astro) (hE : TehranEvening A) (loc : ℚ × ℚ × ℚ) (hours : ℚ → ℤ) (lat lon zone : ℚ)
    (key : Option Str) (id : ℕ) (tz : CoordZone) (htz : newCoordZone hours lat lon (some zone) key = .ok tz)
    (l0 : -180 ≤ lon) (l1 : lon ≤ 179.9999) (hS : SunSets A lat lon)
    (y m d n last : ℤ) (hd : DayNumber (Cal.init A) y m d n) (ho : OrdinaryDay n)
    (hlast : (Cal.init A).yearStart 1161 = some last) (hn : n ≤ last)
    (y' m' d' : ℤ) (hnext : DayNumber (Cal.init A) y' m' d' (n + 1)) (t0 t1 t : ℚ)
    (ht0 : (Cal.init A).timestampAt ⟨y, m, d, []⟩ (some lat) (some lon) (some zone) = .ok t0)
    (ht1 : (Cal.init A).timestampAt ⟨y', m', d', []⟩ (some lat) (some lon) (some zone) = .ok t1)
    (hta : t0 ≤ t) (htb : t ≤ t1 - 1 / 1000) (htc : t ≤ t0 + 86399.99) :
    ∃ h mi s us : ℤ,
      (Cal.init A).fromTimestamp loc t (.coord id tz) true
        = .ok ⟨.short y m d, h, mi, s, us, some ⟨id, hours zone⟩, 0⟩ ∧
      (∃ k v w : ℤ, DenotesYear k v w y ∧
        (Cal.init A).fromTimestamp loc t (.coord id tz) false
          = .ok ⟨.long k v w m d, h, mi, s, us, some ⟨id, hours zone⟩, 0⟩) ∧
      0 ≤ h ∧ h ≤ 23 ∧ 0 ≤ mi ∧ mi ≤ 59 ∧ 0 ≤ s ∧ s ≤ 59 ∧ 0 ≤ us ∧ us ≤ 999999 ∧
      |(3600 * h + 60 * mi + s + us / 1000000) - (t - t0)| ≤ 3 / 1000 := by
  rw [init_yearStart hE, if_pos (by omega), ysInt_1161] at hlast
  obtain rfl := Option.some.inj hlast
  obtain ⟨c1, c2, -⟩ := coordZone_parts htz
  have hl := lonFrac_abs l0 (by norm_num at l1; linarith : lon ≤ 180)
  have n0 := day_lo hE hd
  have q0 := ho.quiet n0 (by omega)
  have q1 := ho.quiet_next n0 (by omega)
  have hj := start_place hE hS l0 l1 hd q0
  have hj' := start_place hE hS l0 l1 hnext q1
  rw [show n + 1 + 1721423 = n + 1721423 + 1 by ring] at hj'
  change (Cal.init A).timestampFromBadiDate _ lat lon = _ at ht0 ht1
  unfold Cal.timestampFromBadiDate at ht0 ht1
  rw [hj, pyOk_bind] at ht0
  rw [hj', pyOk_bind] at ht1
  injection ht0 with ht0
  injection ht1 with ht1
  obtain ⟨sf, s0, s1⟩ := ssP_bounds hS hl (P := n + 1721423) (by omega) (by omega)
  obtain ⟨sf', s0', s1'⟩ := ssP_bounds hS hl (P := n + 1721423 + 1) (by omega) (by omega)
  have ha := abs_le.mp hl
  have nq0 : (-300 : ℚ) ≤ n := by exact_mod_cast n0
  have nq1 : (n : ℚ) ≤ 1096902 := by exact_mod_cast hn
  push_cast at s0 s1 s0' s1'
  obtain ⟨x0, x1, xe⟩ := instant_between sf sf' (by linarith) (by linarith) (by linarith) (by linarith) ht0.symm
    ht1.symm hta htb
  have xf : IsF64 (fl (fl (t / 86400) + 2440585.5)) := isF64_fl _
  have xe := abs_le.mp xe
  norm_num at htc
  have hfr : fl (fl (t / 86400) + 2440585.5) - ssP A lat lon (n + 1721423) ≤ 1 - 1 / 40000000 := by linarith
  have hu := utc_place (A := A) (C := Cal.init A) rfl hS hl xf q0 x0 x1
    (by linarith)
  have hyy := ymd_ok hE hu (civilDay_ssP hS hl (P := n + 1721423) (by omega) (by omega)) hn hd
  obtain ⟨k4, v4, w4, h, mi, s, us, hden4, e3, a1, a2, a3, a4, a5, a6, a7, a8, a9⟩ :=
    badiDate_us hE hd hyy (by linarith) hfr
  have fl0 : ∀ z : ℤ, ⌊(z : ℚ)⌋ = z := fun z => Int.floor_intCast z
  have s59 : min s 59 = s := by omega
  have vt : ∀ o : DateObj, ValidTime (DT.timetz ⟨o, h, mi, s, us, some ⟨id, hours zone⟩, 0⟩) := fun o =>
    ⟨a1, by show h ≤ 24; omega, a3, by show mi ≤ 59; omega, a5, by show s ≤ 60; omega, a7, by show us ≤ 999999; omega,
      Or.inl rfl⟩
  have key : ∀ short, (Cal.init A).fromTimestamp loc t (.coord id tz) short =
      (Cal.init A).dtFromTimestamp t lat lon (some ⟨id, hours zone⟩) short := by
    intro short
    unfold Cal.fromTimestamp
    simp only [StampZone.coords, c1, StampZone.tz, c2, placeOr, coordOffset]
  refine ⟨h, mi, s, us, ?_, ⟨k4, v4, w4, hden4, ?_⟩, a1, a2, a3, a4, a5, a6, a7, a8, ?_⟩
  · rw [key]
    unfold Cal.dtFromTimestamp Cal.badiDateFromTimestamp
    rw [e3 true, pyOk_bind]
    simp only [if_true, Cal.dtOfTuple, fl0, s59]
    exact newDT_ok hE (n := n) ⟨hd, vt _⟩
  · rw [key]
    unfold Cal.dtFromTimestamp Cal.badiDateFromTimestamp
    rw [e3 false, pyOk_bind]
    simp only [Bool.false_eq_true, if_false, Cal.dtOfTuple, fl0, s59]
    exact newDT_ok hE (n := n) ⟨⟨y, hden4, hd⟩, vt _⟩
  · have a9 := abs_le.mp a9
    rw [abs_le]
    constructor <;> linarith

/-- The hypotheses of `C95_place_partial` are met by a whole day of year 182 at longitude 150 west. -/
example : SunSets sixPm 60 (-150) ∧
    (∃ tz, newCoordZone (fun _ => -32400000000) 60 (-150) (some (-9)) none = .ok tz) ∧
    ∃ (n : ℤ) (t0 t1 t : ℚ), DayNumber (Cal.init sixPm) 182 5 7 n ∧ DayNumber (Cal.init sixPm) 182 5 8 (n + 1) ∧
    n ≤ 1096902 ∧
    (Cal.init sixPm).timestampAt ⟨182, 5, 7, []⟩ (some 60) (some (-150)) (some (-9)) = .ok t0 ∧
    (Cal.init sixPm).timestampAt ⟨182, 5, 8, []⟩ (some 60) (some (-150)) (some (-9)) = .ok t1 ∧
    t0 < t ∧ t ≤ t1 - 1 / 1000 ∧ t ≤ t0 + 86399.99 := by
  refine ⟨fun D _ _ => by constructor <;> norm_num [sunsetTime, sixPm], ⟨_, rfl⟩, ?_⟩
  have hd : ∀ d : ℤ, 1 ≤ d → d ≤ 19 → DayNumber (Cal.init sixPm) 182 5 d (ysInt 182 + 76 + d - 1) :=
    fun d h1 h2 => (dayNumber_iff sixPm_tehran).mpr
      ⟨by omega, by omega, Or.inl ⟨by omega, by omega, h1, h2⟩, by
        rw [show dBefore (leapOf 182) 5 = 76 by decide +kernel]⟩
  have h7 := hd 7 (by omega) (by omega)
  have h8 := hd 8 (by omega) (by omega)
  have e : ysInt 182 = 739329 := by decide +kernel
  rw [e] at h7 h8
  have c1 : ∃ j : ℚ, (Cal.init sixPm).timestampAt ⟨182, 5, 7, []⟩ (some 60)
      (some (-150)) (some (-9)) = .ok j ∧ 1749528000 - 100 ≤ j ∧ j < 1749528100 := by
    refine ⟨((Cal.init sixPm).timestampAt ⟨182, 5, 7, []⟩ (some 60)
      (some (-150)) (some (-9))).toOption.getD 0, ?_, ?_, ?_⟩ <;> decide +kernel
  have c2 : ∃ j : ℚ, (Cal.init sixPm).timestampAt ⟨182, 5, 8, []⟩ (some 60)
      (some (-150)) (some (-9)) = .ok j ∧ 1749528200 < j := by
    refine ⟨((Cal.init sixPm).timestampAt ⟨182, 5, 8, []⟩ (some 60)
      (some (-150)) (some (-9))).toOption.getD 0, ?_, ?_⟩ <;> decide +kernel
  obtain ⟨j, e1, e2, e2'⟩ := c1
  obtain ⟨j', e3, e4⟩ := c2
  exact ⟨739411, j, j', 1749528100, h7, h8, by omega, e1, e3, e2', by linarith, by norm_num; linarith⟩

/-- They are also met by a day of year -900. -/
example : ∃ (n : ℤ) (t0 t1 t : ℚ), DayNumber (Cal.init sixPm) (-900) 2 1 n ∧
    DayNumber (Cal.init sixPm) (-900) 2 2 (n + 1) ∧ OrdinaryDay n ∧ n ≤ 1096902 ∧
    (Cal.init sixPm).timestampAt ⟨-900, 2, 1, []⟩ (some 60) (some (-150)) (some (-9)) = .ok t0 ∧
    (Cal.init sixPm).timestampAt ⟨-900, 2, 2, []⟩ (some 60) (some (-150)) (some (-9)) = .ok t1 ∧
    t0 < t ∧ t ≤ t1 - 1 / 1000 ∧ t ≤ t0 + 86399.99 := by
  have hd : ∀ d : ℤ, 1 ≤ d → d ≤ 19 → DayNumber (Cal.init sixPm) (-900) 2 d (ysInt (-900) + 19 + d - 1) :=
    fun d h1 h2 => (dayNumber_iff sixPm_tehran).mpr
      ⟨by omega, by omega, Or.inl ⟨by omega, by omega, h1, h2⟩, by
        rw [show dBefore (leapOf (-900)) 2 = 19 by decide +kernel]⟩
  have c : ∃ j k : ℚ, (Cal.init sixPm).timestampAt ⟨-900, 2, 1, []⟩ (some 60) (some (-150)) (some (-9)) = .ok j ∧
      (Cal.init sixPm).timestampAt ⟨-900, 2, 2, []⟩ (some 60) (some (-150)) (some (-9)) = .ok k ∧ j + 2000 < k := by
    refine ⟨((Cal.init sixPm).timestampAt ⟨-900, 2, 1, []⟩ (some 60) (some (-150)) (some (-9))).toOption.getD 0,
      ((Cal.init sixPm).timestampAt ⟨-900, 2, 2, []⟩ (some 60) (some (-150)) (some (-9))).toOption.getD 0, ?_, ?_, ?_⟩ <;>
      decide +kernel
  obtain ⟨j, k, e1, e2, e3⟩ := c
  refine ⟨ysInt (-900) + 19 + 1 - 1, j, k, j + 1000, hd 1 (by omega) (by omega), ?_, by decide +kernel, by decide +kernel, e1,
    e2, by linarith, by linarith, by norm_num⟩
  have := hd 2 (by omega) (by omega)
  rwa [show ysInt (-900) + 19 + 2 - 1 = ysInt (-900) + 19 + 1 - 1 + 1 by ring] at this

/-- C95, the same instant for every zone: false. `fromtimestamp` with a zone that has no coordinates takes the date and
the clock of the local coordinates, whatever the offset of the zone is. So for two zones with different offsets the
results have the same fields and are two different instants, as far apart as the offsets. For every timestamp that
`fromtimestamp` converts to a valid datetime, at every local place. `u` is `timezone.utc`. -/
theorem C95_plain_zone_negation (A : Astro) (hE : TehranEvening A) (hO : NewYearOrder (Cal.init A)) (loc : ℚ × ℚ × ℚ)
    (t : ℚ) (z w u : Tz) (vz : ValidOff z.off) (vw : ValidOff w.off) (hzw : z.off ≠ w.off) (hu : u.off = 0)
    (short : Bool) (x : DT) (n : ℤ) (hx : (Cal.init A).fromTimestamp loc t (.plain z) short = .ok x)
    (hn : IsDT (Cal.init A) x n) :
    ∃ (x' : DT) (a b : ℤ), (Cal.init A).fromTimestamp loc t (.plain w) short = .ok x' ∧ SameFields x x' ∧
      (Cal.init A).awareTimestampUs x u = .ok a ∧ (Cal.init A).awareTimestampUs x' u = .ok b ∧
      a - b = w.off - z.off ∧ (Cal.init A).dtEq x x' = .ok false := by
  have key : ∀ (d : DateObj) (l : List ℚ), (Cal.init A).dtOfTuple d l (some z) = .ok x →
      x.tz = some z ∧ (Cal.init A).dtOfTuple d l (some w) = .ok { x with tz := some w } := by
    intro d l h
    match l with
    | [h', mi, s, us] =>
      unfold Cal.dtOfTuple Cal.newDT at h ⊢
      simp only at h ⊢
      cases hq : (Cal.init A).newDate d with
      | error e => rw [hq, pyErr_bind] at h; cases h
      | ok o =>
        rw [hq, pyOk_bind] at h
        rw [pyOk_bind]
        cases hc : checkTimeFields ⌊h'⌋ ⌊mi⌋ (min ⌊s⌋ 59) ⌊us⌋ 0 with
        | error e => rw [hc, pyErr_bind] at h; cases h
        | ok o' =>
          rw [hc, pyOk_bind] at h
          rw [pyOk_bind]
          have e := Except.ok.inj h
          subst e
          exact ⟨rfl, rfl⟩
    | [] | [_] | [_, _] | [_, _, _] | _ :: _ :: _ :: _ :: _ :: _ => cases h
  have hx' : x.tz = some z ∧ (Cal.init A).fromTimestamp loc t (.plain w) short = .ok { x with tz := some w } := by
    unfold Cal.fromTimestamp Cal.dtFromTimestamp at hx ⊢
    simp only [StampZone.coords, StampZone.tz] at hx ⊢
    cases hb : (Cal.init A).badiDateFromTimestamp t (placeOr (some loc.1) (some loc.2.1) (some loc.2.2)).1
        (placeOr (some loc.1) (some loc.2.1) (some loc.2.2)).2 { us := true, short := short } with
    | error e => rw [hb, pyErr_bind] at hx; cases hx
    | ok b =>
      rw [hb, pyOk_bind] at hx
      rw [pyOk_bind]
      cases b with
      | short s => exact key _ _ hx
      | long l => exact key _ _ hx
  obtain ⟨ez, e'⟩ := hx'
  have hn' : IsDT (Cal.init A) { x with tz := some w } n := ⟨hn.day, hn.time.1, hn.time.2, hn.time.3, hn.time.4,
    hn.time.5, hn.time.6, hn.time.7, hn.time.8, hn.time.9⟩
  refine ⟨_, _, _, e', ⟨rfl, rfl, rfl, rfl, rfl⟩, aware_value hE hO hn ez vz hu, aware_value hE hO hn' rfl vw hu, ?_, ?_⟩
  · unfold localMicro; ring
  · obtain ⟨h, -⟩ := C52_instants A hE hO x { x with tz := some w } n n z w hn hn' ez rfl vz vw hzw
    rw [h]
    congr 1
    rw [decide_eq_false_iff_not]
    unfold localMicro
    simp only
    omega

/-- The hypotheses are met by a timestamp of year 182 and the zones UTC+03:30 and UTC-01:00. -/
example : ∃ x, (Cal.init newYearSun).fromTimestamp (tehranLat, tehranLon, 3.5) 1749500000
    (.plain ⟨1, 12600000000⟩) true = .ok x ∧ ∃ n, IsDT (Cal.init newYearSun) x n := by
  refine ⟨⟨.short 182 5 7, 5, 24, 5, 288400, some ⟨1, 12600000000⟩, 0⟩, by decide +kernel, ysInt 182 + 76 + 7 - 1,
    (dayNumber_iff newYearSun_tehran).mpr ⟨by omega, by omega, Or.inl ⟨by omega, by omega, by omega, by omega⟩, by
      rw [show dBefore (leapOf 182) 5 = 76 by decide +kernel]⟩, ?_⟩
  constructor <;> simp [DT.timetz]

/-- C95, back to the timestamp: false. At every place, on any two consecutive dates that are not 24 hours apart to
within 20 ms, `fromtimestamp(t, tz).timestamp()` misses `t` by more than 5 ms for all timestamps of one of the two
dates, whatever the offset of the zone is. -/
theorem C95_timestamp_negation (A : Astro) (hE : TehranEvening A) (hO : NewYearOrder (Cal.init A)) (loc : ℚ × ℚ × ℚ)
    (hours : ℚ → ℤ) (lat lon zone : ℚ)
    (key : Option Str) (id : ℕ) (tz : CoordZone) (htz : newCoordZone hours lat lon (some zone) key = .ok tz)
    (l0 : -180 ≤ lon) (l1 : lon ≤ 179.9999) (hS : SunSets A lat lon)
    (y m d n last : ℤ) (hd : DayNumber (Cal.init A) y m d n) (ho : OrdinaryDay n) (ho' : OrdinaryDay (n + 1))
    (hlast : (Cal.init A).yearStart 1161 = some last) (hn : n < last)
    (y' m' d' : ℤ) (hnext : DayNumber (Cal.init A) y' m' d' (n + 1))
    (y'' m'' d'' : ℤ) (hnext2 : DayNumber (Cal.init A) y'' m'' d'' (n + 2)) (t0 t1 t2 s t : ℚ)
    (ht0 : (Cal.init A).timestampAt ⟨y, m, d, []⟩ (some lat) (some lon) (some zone) = .ok t0)
    (ht1 : (Cal.init A).timestampAt ⟨y', m', d', []⟩ (some lat) (some lon) (some zone) = .ok t1)
    (ht2 : (Cal.init A).timestampAt ⟨y'', m'', d'', []⟩ (some lat) (some lon) (some zone) = .ok t2)
    (hlen : 1 / 50 < |t1 - t0 - 86400|)
    (hsa : t0 ≤ s) (hsb : s ≤ t1 - 1 / 1000) (hsc : s ≤ t0 + 86399.99)
    (hta : t1 ≤ t) (htb : t ≤ t2 - 1 / 1000) (htc : t ≤ t1 + 86399.99) (u : Tz) (hu : u.off = 0) :
    ∃ (p q : DT) (a b : ℤ), (Cal.init A).fromTimestamp loc s (.coord id tz) true = .ok p ∧
      (Cal.init A).fromTimestamp loc t (.coord id tz) true = .ok q ∧
      (Cal.init A).awareTimestampUs p u = .ok a ∧ (Cal.init A).awareTimestampUs q u = .ok b ∧
      (1 / 200 < |(a : ℚ) / 1000000 - s| ∨ 1 / 200 < |(b : ℚ) / 1000000 - t|) := by
  have hlast' := hlast
  rw [init_yearStart hE, if_pos (by omega), ysInt_1161] at hlast'
  obtain rfl := Option.some.inj hlast'
  have n0 := day_lo hE hd
  have q0 := ho.quiet n0 (by omega)
  have q1 := ho.quiet_next n0 (by omega)
  obtain ⟨c1, c2, c3⟩ := coordZone_parts htz
  have c3 : ValidOff (hours zone) := by rw [c2] at c3; exact c3
  obtain ⟨h, mi, sec, us, e, -, a1, a2, a3, a4, a5, a6, a7, a8, a9⟩ := C95_place_partial A hE loc hours lat lon zone key id
    tz htz l0 l1 hS y m d n _ hd ho hlast (by omega) y' m' d' hnext t0 t1 s ht0 ht1 hsa hsb hsc
  obtain ⟨h', mi', sec', us', e', -, b1, b2, b3, b4, b5, b6, b7, b8, b9⟩ := C95_place_partial A hE loc hours lat lon zone
    key id tz htz l0 l1 hS y' m' d' (n + 1) _ hnext ho' hlast (by omega) y'' m'' d''
    (by rw [show n + 1 + 1 = n + 2 by ring]; exact hnext2) t1 t2 t ht1 ht2 hta htb htc
  have v1 : IsDT (Cal.init A) ⟨.short y m d, h, mi, sec, us, some ⟨id, hours zone⟩, 0⟩ n :=
    ⟨hd, a1, by show h ≤ 24; omega, a3, a4, a5, by show sec ≤ 60; omega, a7, a8, Or.inl rfl⟩
  have v2 : IsDT (Cal.init A) ⟨.short y' m' d', h', mi', sec', us', some ⟨id, hours zone⟩, 0⟩ (n + 1) :=
    ⟨hnext, b1, by show h' ≤ 24; omega, b3, b4, b5, by show sec' ≤ 60; omega, b7, b8, Or.inl rfl⟩
  refine ⟨_, _, _, _, e, e', aware_value hE hO v1 (z := ⟨id, hours zone⟩) rfl c3 hu,
    aware_value hE hO v2 (z := ⟨id, hours zone⟩) rfl c3 hu, ?_⟩
  by_contra hc
  rw [not_or, not_lt, not_lt] at hc
  obtain ⟨g1, g2⟩ := hc
  have g1 := abs_le.mp g1
  have g2 := abs_le.mp g2
  have a9 := abs_le.mp a9
  have b9 := abs_le.mp b9
  unfold localMicro at g1 g2
  push_cast at g1 g2
  apply absurd hlen
  rw [not_lt, abs_le]
  constructor <;> linarith

/-- The sun of `newYearSun` at the longitude of Tehran; elsewhere the sun sets at 18:00 up to a day of year 182 and at
18:14:24 from then on. -/
def laterSun : Astro :=
  ⟨fun j lat lon => if lon = tehranLon then newYearSun.setFrac j lat lon
    else if j < 2460836 + 1 / 2 then 3 / 4 else 76 / 100⟩

theorem laterSun_time (D : ℤ) :
    sunsetTime laterSun tehranLat tehranLon D = sunsetTime newYearSun tehranLat tehranLon D := by
  simp [sunsetTime, laterSun]

theorem laterSun_tehran : TehranEvening laterSun := by
  intro D h0 h1
  rw [laterSun_time]
  exact newYearSun_tehran D h0 h1

theorem laterSun_ssOf (D : ℤ) : ssOf laterSun tehranLat tehranLon D = ssOf newYearSun tehranLat tehranLon D := by
  unfold ssOf
  rw [laterSun_time]

theorem laterSun_order : NewYearOrder (Cal.init laterSun) := by
  intro y j0 j h0 h
  have hy : -1843 ≤ y ∧ y ≤ 1162 := by
    have h' := h
    unfold Cal.jdFromBadiDateDefault Cal.jdFromBadiDate at h'
    cases hc : (Cal.init laterSun).checkShort ⟨y, 1, 1, []⟩ with
    | error e => rw [hc, pyErr_bind] at h'; cases h'
    | ok u => have := checkShort_inv hc; exact ⟨this.1, this.2.1⟩
  apply newYearSun_order y j0 j
  · rw [← h0, base_jd newYearSun_tehran, base_jd laterSun_tehran]
    unfold ssE
    rw [laterSun_ssOf]
  · rw [← h, nr_jd (C := Cal.init newYearSun) newYearSun_tehran hy.1 hy.2,
      nr_jd (C := Cal.init laterSun) laterSun_tehran hy.1 hy.2]
    change Except.ok (nrJd newYearSun y) = Except.ok (nrJd laterSun y)
    unfold nrJd
    rw [laterSun_ssOf]

theorem laterSun_sets {lat lon : ℚ} (h : lon ≠ tehranLon) : SunSets laterSun lat lon := by
  intro D _ _
  simp only [sunsetTime, laterSun, if_neg h]
  split <;> constructor <;> norm_num

theorem laterSun_days :
    ∃ (n : ℤ) (t0 t1 t2 s t : ℚ), DayNumber (Cal.init laterSun) 182 5 7 n ∧ DayNumber (Cal.init laterSun) 182 5 8 (n + 1) ∧
    DayNumber (Cal.init laterSun) 182 5 9 (n + 2) ∧ n < 1096902 ∧
    (Cal.init laterSun).timestampAt ⟨182, 5, 7, []⟩ (some 60) (some (-150)) (some (-9)) = .ok t0 ∧
    (Cal.init laterSun).timestampAt ⟨182, 5, 8, []⟩ (some 60) (some (-150)) (some (-9)) = .ok t1 ∧
    (Cal.init laterSun).timestampAt ⟨182, 5, 9, []⟩ (some 60) (some (-150)) (some (-9)) = .ok t2 ∧
    1 / 50 < |t1 - t0 - 86400| ∧ t0 < s ∧ s ≤ t1 - 1 / 1000 ∧ s ≤ t0 + 86399.99 ∧
    t1 < t ∧ t ≤ t2 - 1 / 1000 ∧ t ≤ t1 + 86399.99 := by
  have hd : ∀ d : ℤ, 1 ≤ d → d ≤ 19 → DayNumber (Cal.init laterSun) 182 5 d (ysInt 182 + 76 + d - 1) :=
    fun d h1 h2 => (dayNumber_iff laterSun_tehran).mpr
      ⟨by omega, by omega, Or.inl ⟨by omega, by omega, h1, h2⟩, by
        rw [show dBefore (leapOf 182) 5 = 76 by decide +kernel]⟩
  have h7 := hd 7 (by omega) (by omega)
  have h8 := hd 8 (by omega) (by omega)
  have h9 := hd 9 (by omega) (by omega)
  have e : ysInt 182 = 739329 := by decide +kernel
  rw [e] at h7 h8 h9
  have c0 : ∃ j : ℚ, (Cal.init laterSun).timestampAt ⟨182, 5, 7, []⟩ (some 60)
      (some (-150)) (some (-9)) = .ok j ∧ 1749527999 < j ∧ j < 1749528001 := by
    refine ⟨((Cal.init laterSun).timestampAt ⟨182, 5, 7, []⟩ (some 60)
      (some (-150)) (some (-9))).toOption.getD 0, ?_, ?_, ?_⟩ <;> decide +kernel
  have c1 : ∃ j : ℚ, (Cal.init laterSun).timestampAt ⟨182, 5, 8, []⟩ (some 60)
      (some (-150)) (some (-9)) = .ok j ∧ 1749615263 < j ∧ j < 1749615265 := by
    refine ⟨((Cal.init laterSun).timestampAt ⟨182, 5, 8, []⟩ (some 60)
      (some (-150)) (some (-9))).toOption.getD 0, ?_, ?_, ?_⟩ <;> decide +kernel
  have c2 : ∃ j : ℚ, (Cal.init laterSun).timestampAt ⟨182, 5, 9, []⟩ (some 60)
      (some (-150)) (some (-9)) = .ok j ∧ 1749701663 < j ∧ j < 1749701665 := by
    refine ⟨((Cal.init laterSun).timestampAt ⟨182, 5, 9, []⟩ (some 60)
      (some (-150)) (some (-9))).toOption.getD 0, ?_, ?_, ?_⟩ <;> decide +kernel
  obtain ⟨t0, a0, b0, b0'⟩ := c0
  obtain ⟨t1, a1, b1, b1'⟩ := c1
  obtain ⟨t2, a2, b2, b2'⟩ := c2
  refine ⟨739411, t0, t1, t2, t0 + 1000, t1 + 1000, h7, h8, h9, by omega, a0, a1, a2, ?_, by linarith, by linarith,
    by norm_num, by linarith, by linarith, by norm_num⟩
  rw [abs_of_pos] <;> linarith

/-- The hypotheses of `C95_timestamp_negation` are met by two days of year 182 at longitude 150 west (`laterSun_days`). -/
example : TehranEvening laterSun ∧ NewYearOrder (Cal.init laterSun) ∧ SunSets laterSun 60 (-150) ∧
    (∃ tz, newCoordZone (fun _ => -32400000000) 60 (-150) (some (-9)) none = .ok tz) ∧
    ∃ (n : ℤ) (t0 t1 t2 s t : ℚ), DayNumber (Cal.init laterSun) 182 5 7 n ∧ DayNumber (Cal.init laterSun) 182 5 8 (n + 1) ∧
    DayNumber (Cal.init laterSun) 182 5 9 (n + 2) ∧ n < 1096902 ∧
    (Cal.init laterSun).timestampAt ⟨182, 5, 7, []⟩ (some 60) (some (-150)) (some (-9)) = .ok t0 ∧
    (Cal.init laterSun).timestampAt ⟨182, 5, 8, []⟩ (some 60) (some (-150)) (some (-9)) = .ok t1 ∧
    (Cal.init laterSun).timestampAt ⟨182, 5, 9, []⟩ (some 60) (some (-150)) (some (-9)) = .ok t2 ∧
    1 / 50 < |t1 - t0 - 86400| ∧ t0 < s ∧ s ≤ t1 - 1 / 1000 ∧ s ≤ t0 + 86399.99 ∧
    t1 < t ∧ t ≤ t2 - 1 / 1000 ∧ t ≤ t1 + 86399.99 :=
  ⟨laterSun_tehran, laterSun_order, laterSun_sets (by decide +kernel), ⟨_, rfl⟩, laterSun_days⟩

end Verif
