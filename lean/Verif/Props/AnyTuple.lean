import Verif.Model.AnyTuple
import Verif.Props.AnyZone
import Verif.Props.Parts
import Verif.Props.StructTime

/-!
# Property C116: time tuples and timestamps of datetimes with any `tzinfo`
-/

namespace Verif

/-- The object of the same second with `fold` 0. -/
def DT.plainSecond (x : DT) : DT := { x with us := 0, fold := 0, tz := none }

theorem plainSecond_is {C : Cal} {x : DT} {n : ℤ} (hx : IsDT C x n) : IsDT C x.plainSecond n := by
  obtain ⟨hd, ⟨a0, a1, a2, a3, a4, a5, a6, a7, -⟩⟩ := hx
  exact ⟨hd, ⟨a0, a1, a2, a3, a4, a5, by simp [DT.timetz, DT.plainSecond], by simp [DT.timetz, DT.plainSecond],
    Or.inl rfl⟩⟩

theorem anyBuildStruct_ok {A : Astro} (hE : TehranEvening A) (hO : NewYearOrder (Cal.init A)) {x : DT} {n : ℤ}
    (hx : IsDT (Cal.init A) x n) (hc : x.d.isShort = true ∨ OrdinaryClock x) {flag : ℤ}
    (hf : flag = -1 ∨ flag = 0 ∨ flag = 1) :
    ∃ t, Shows (Cal.init A) t x.d n x.h x.mi x.s ∧ ∀ z : Option AnyInfo,
      (Cal.init A).anyBuildStruct x.d x.h x.mi x.s flag z = anyDstFlag flag z x.plainSecond >>= fun isdst =>
        anyOffset (z.map (·.zone)) x.plainSecond >>= fun off =>
        anyName z x.plainSecond >>= fun name => .ok ⟨t, isdst, name, secondsOf off⟩ := by
  obtain ⟨t, ht, hs⟩ := buildStructTime_ok hE hO hx hc hf none
  refine ⟨t, hs, fun z => ?_⟩
  unfold Cal.buildStructTime at ht
  unfold Cal.anyBuildStruct
  cases h1 : (Cal.init A).structYmd x.d x.h x.mi x.s with
  | error e => rw [h1, pyErr_bind] at ht; cases ht
  | ok v =>
    rw [h1, pyOk_bind] at ht
    rw [pyOk_bind]
    obtain ⟨y, m, dd⟩ := v
    simp only at ht ⊢
    cases h2 : (Cal.init A).dayOfWeek y m dd with
    | error e => rw [h2, pyErr_bind] at ht; cases ht
    | ok w =>
      rw [h2, pyOk_bind] at ht
      rw [pyOk_bind]
      cases h3 : (Cal.init A).daysBeforeMonth y m with
      | error e => rw [h3, pyErr_bind] at ht; cases ht
      | ok b =>
        rw [h3, pyOk_bind] at ht
        rw [pyOk_bind]
        unfold Cal.structTime at ht
        unfold Cal.anyStructTime
        have hn := newDT_ok hE (plainSecond_is hx)
        unfold DT.plainSecond at hn
        rw [if_neg (not_not.mpr hf)] at ht ⊢
        simp only [Option.map_none] at ht
        rw [hn, pyOk_bind] at ht
        rw [hn, pyOk_bind]
        injection ht with ht
        injection ht with ht
        rw [ht]
        rfl

/-! ## C116 -/

/-- C116, `timetuple()`: date, clock, weekday and day of the year are right, and flag, name and offset are the answers of the
zone about the same second with `fold` 0. Missing from the full property: `fold` 1 and answers that depend on the microsecond,
where it is false (below), an offset of zero, which is left out (C67), and hour 24 of the long form (C67). -/
theorem C116_timetuple_partial (A : Astro) (hE : TehranEvening A) (hO : NewYearOrder (Cal.init A)) (x : DT) (n : ℤ)
    (hx : IsDT (Cal.init A) x n) (hc : x.d.isShort = true ∨ OrdinaryClock x) (i : AnyInfo) (a : ℤ)
    (ha : HasOffset i.zone x.plainSecond a) (dst : Option ℤ) (hd : i.dst x.plainSecond = .ok dst) (nm : Option Str)
    (hn : i.name x.plainSecond = .ok nm) :
    ∃ t, (Cal.init A).anyTimetuple x (some i) = .ok t ∧ Shows (Cal.init A) t.tup x.d n x.h x.mi x.s ∧ t.zone = nm ∧
      (a ≠ 0 → t.gmtoff = some (fl ((a : ℚ) / 1000000))) ∧ (a = 0 → t.gmtoff = none) ∧
      (dst = none → t.isdst = -1) ∧ (dst = some 0 → t.isdst = 0) ∧ (∀ d, d ≠ 0 → dst = some d → t.isdst = 1) := by
  obtain ⟨t, hs, ht⟩ := anyBuildStruct_ok hE hO hx hc (Or.inl rfl)
  have h := ht (some i)
  simp only [Option.map_some, anyOffset_has ha, pyOk_bind, anyName, hn, anyDstFlag, hd] at h
  cases dst with
  | none =>
    simp only [pyOk_bind] at h
    refine ⟨_, h, hs, rfl, fun h0 => ?_, fun h0 => ?_, fun _ => rfl, ?_, ?_⟩
    · simp [secondsOf, h0]
    · simp [secondsOf, h0]
    · intro h; cases h
    · intro d _ h; cases h
  | some d =>
    simp only [pyOk_bind] at h
    refine ⟨_, h, hs, rfl, fun h0 => ?_, fun h0 => ?_, ?_, ?_, ?_⟩
    · simp [secondsOf, h0]
    · simp [secondsOf, h0]
    · intro h; cases h
    · intro h; injection h with h; simp [h]
    · intro d' h0 h; injection h with h; simp [h, h0]

/-- The zone at the autumn change, with its daylight saving time and its names. -/
def autumnInfo : AnyInfo :=
  ⟨autumnZone, fun x => .ok (some (if x.fold = 0 then 3600000000 else 0)),
    fun x => .ok (some (if x.fold = 0 then "EDT".toList else "EST".toList))⟩

example : IsDT (Cal.init newYearSun) (witnessDT none 0) 739675 ∧ (witnessDT none 0).d.isShort = true ∧
    HasOffset autumnInfo.zone (witnessDT none 0).plainSecond (-14400000000) ∧
    autumnInfo.dst (witnessDT none 0).plainSecond = .ok (some 3600000000) :=
  ⟨witnessDT_is none (Or.inl rfl), rfl, autumn_offset _, rfl⟩

/-- C116 is false with `fold` 1: the zone is asked with `fold` 0. In the second hour of the autumn change every `timetuple()`
has the offset, the flag and the name of summer time, while `utcoffset()` gives that of winter time. -/
theorem C116_fold_negation (A : Astro) (hE : TehranEvening A) (hO : NewYearOrder (Cal.init A)) (x : DT) (n : ℤ)
    (hx : IsDT (Cal.init A) x n) (hc : x.d.isShort = true ∨ OrdinaryClock x) (hf : x.fold = 1) :
    ∃ t, (Cal.init A).anyTimetuple x (some autumnInfo) = .ok t ∧ t.gmtoff = some (-14400) ∧ t.isdst = 1 ∧
      t.zone = some "EDT".toList ∧ anyOffset (some autumnZone) x = .ok (some (-18000000000)) ∧
      autumnInfo.dst x = .ok (some 0) := by
  obtain ⟨t, h1, -, h2, h3, -, -, -, h4⟩ := C116_timetuple_partial A hE hO x n hx hc autumnInfo (-14400000000)
    (autumn_offset x.plainSecond) (some 3600000000) rfl (some "EDT".toList) rfl
  refine ⟨t, h1, ?_, h4 3600000000 (by norm_num) rfl, h2, ?_, ?_⟩
  · rw [h3 (by norm_num)]
    congr 1
    have := fl_int (-14400) (by norm_num)
    norm_num at this ⊢
    exact this
  · have := anyOffset_has (autumn_offset x)
    rw [if_neg (by omega)] at this
    exact this
  · show Except.ok (some (if x.fold = 0 then _ else _)) = _
    rw [if_neg (by omega)]

example : IsDT (Cal.init newYearSun) (witnessDT none 1) 739675 ∧ (witnessDT none 1).fold = 1 :=
  ⟨witnessDT_is none (Or.inr rfl), rfl⟩

/-- The UTC object in `utctimetuple()`. -/
theorem anyUtc_ok {A : Astro} (hE : TehranEvening A) (hO : NewYearOrder (Cal.init A)) {x : DT} {n : ℤ}
    (hx : IsDT (Cal.init A) x n) (hc : OrdinaryClock x) {p : AnyZone} {a : ℤ} (ha : HasOffset p x a)
    (hr : a = 0 ∨ Reachable (Cal.init A) ((localMicro x n - a) / 86400000000)) :
    ∃ u m, IsDT (Cal.init A) u m ∧ localMicro u m = localMicro x n - a ∧ OrdinaryClock u ∧ u.d.isShort = x.d.isShort ∧
      (Cal.init A).anyUtcTimetuple x (some p) = (Cal.init A).anyBuildStruct u.d u.h u.mi u.s 0 none := by
  unfold Cal.anyUtcTimetuple
  rw [anyOffset_has ha, pyOk_bind]
  unfold Cal.utcOf
  by_cases h0 : a = 0
  · refine ⟨x, n, hx, by rw [h0, sub_zero], hc, rfl, ?_⟩
    simp only [if_pos h0, pyOk_bind]
  · have hr := hr.resolve_left h0
    rw [sub_eq_add_neg] at hr ⊢
    obtain ⟨u, e, hu⟩ := dtAdd_ok hE hO hx hr
    refine ⟨u, _, hu.dt, hu.micro, hu.clock, hu.form, ?_⟩
    simp only [if_neg h0]
    unfold Cal.dtSubDelta
    rw [e, pyOk_bind]

/-- C116, `utctimetuple()`: it shows the UTC date and clock of the instant, with the offset that the zone has at this very
object, `fold` included, the flag 0 and no zone. Missing from the full property: UTC days that the library cannot produce, on
which it raises (C27), and hour 24. -/
theorem C116_utctimetuple_partial (A : Astro) (hE : TehranEvening A) (hO : NewYearOrder (Cal.init A)) (x : DT) (n : ℤ)
    (hx : IsDT (Cal.init A) x n) (hc : OrdinaryClock x) (p : AnyZone) (a : ℤ) (ha : HasOffset p x a)
    (hr : a = 0 ∨ Reachable (Cal.init A) ((localMicro x n - a) / 86400000000)) :
    ∃ t u m, (Cal.init A).anyUtcTimetuple x (some p) = .ok t ∧ IsDT (Cal.init A) u m ∧
      localMicro u m = localMicro x n - a ∧ OrdinaryClock u ∧ u.d.isShort = x.d.isShort ∧
      Shows (Cal.init A) t.tup u.d m u.h u.mi u.s ∧ t.isdst = 0 ∧ t.zone = none ∧ t.gmtoff = none := by
  obtain ⟨u, m, hu, e, hc', hs, ht⟩ := anyUtc_ok hE hO hx hc ha hr
  obtain ⟨t, hshow, h⟩ := anyBuildStruct_ok hE hO hu (Or.inr hc') (flag := 0) (Or.inr (Or.inl rfl))
  refine ⟨⟨t, 0, none, none⟩, u, m, ?_, hu, e, hc', hs, hshow, rfl, rfl, rfl⟩
  rw [ht, h none]
  rfl

/-- The second of two equal times at the autumn change: half past four of the next day in UTC. -/
theorem autumn_witness : IsDT (Cal.init newYearSun) (witnessDT none 1) 739675 ∧ OrdinaryClock (witnessDT none 1) ∧
    HasOffset autumnZone (witnessDT none 1) (-18000000000) ∧
    Reachable (Cal.init newYearSun) ((localMicro (witnessDT none 1) 739675 - -18000000000) / 86400000000) :=
  ⟨witnessDT_is none (Or.inr rfl), by unfold OrdinaryClock witnessDT; simp, autumn_offset _, by
    have : (localMicro (witnessDT none 1) 739675 - -18000000000) / 86400000000 = 739676 := by decide
    rw [this]
    exact reachable_modern newYearSun_tehran (by omega) (by omega)⟩

example : IsDT (Cal.init newYearSun) (witnessDT none 1) 739675 ∧ OrdinaryClock (witnessDT none 1) ∧
    HasOffset autumnZone (witnessDT none 1) (-18000000000) ∧
    Reachable (Cal.init newYearSun) ((localMicro (witnessDT none 1) 739675 - -18000000000) / 86400000000) := autumn_witness

/-- C116, `timestamp()`: with any zone it counts the seconds of the instant, 86400 for each day, from 7:59:32.492400 UTC of
day 719162, that is (126, 16, 2), with the offset that the zone has at this very object. `u` is `timezone.utc`. -/
theorem C116_timestamp (A : Astro) (hE : TehranEvening A) (hO : NewYearOrder (Cal.init A)) (x : DT) (n : ℤ)
    (hx : IsDT (Cal.init A) x n) (p : AnyZone) (a : ℤ) (ha : HasOffset p x a) (u : Tz) (hu : u.off = 0)
    (hi : p.id = u.id → a = 0) :
    (Cal.init A).anyTimestampUs x p u = .ok (localMicro x n - a -
      (719162 * 86400000000 + 7 * 3600000000 + 59 * 60000000 + 32 * 1000000 + 492400)) := by
  unfold Cal.anyTimestampUs
  have hl : localMicro (epochDT u) 719162 = 719162 * 86400000000 + 7 * 3600000000 + 59 * 60000000 + 32 * 1000000 + 492400 := rfl
  by_cases h : p.id = u.id
  · rw [anySub_eq hE hO hx (epoch_isDT hE u)]
    unfold anySubOff
    rw [show sameZone (some p) (some (AnyZone.ofTz u)) = true by simp [sameZone, AnyZone.ofTz, h], if_pos rfl, hl, hi h,
      sub_zero]
  · rw [(C107_instants_partial A hE hO x (epochDT u) n 719162 hx (epoch_isDT hE u) p (AnyZone.ofTz u) h a 0 ha
      ⟨by unfold AnyZone.ofTz; rw [hu], by norm_num, by norm_num⟩).1, hl, sub_zero]

example : autumnZone.id ≠ utcZone.tz.id ∧ utcZone.tz.off = 0 := ⟨by decide, rfl⟩

/-- C116, the same instant: ordinary datetimes of one form in any two zones that denote the same instant have the same
`utctimetuple()` and the same `timestamp()`. -/
theorem C116_same_instant (A : Astro) (hE : TehranEvening A) (hO : NewYearOrder (Cal.init A)) (x y : DT) (n m : ℤ)
    (hx : IsDT (Cal.init A) x n) (hy : IsDT (Cal.init A) y m) (cx : OrdinaryClock x) (cy : OrdinaryClock y)
    (hs : x.d.isShort = y.d.isShort) (p q : AnyZone) (a b : ℤ) (ha : HasOffset p x a) (hb : HasOffset q y b)
    (he : localMicro x n - a = localMicro y m - b)
    (hr : Reachable (Cal.init A) ((localMicro x n - a) / 86400000000)) (u : Tz) (hu : u.off = 0) (hp : p.id = u.id → a = 0)
    (hq : q.id = u.id → b = 0) :
    (∃ t, (Cal.init A).anyUtcTimetuple x (some p) = .ok t ∧ (Cal.init A).anyUtcTimetuple y (some q) = .ok t) ∧
    ∃ t, (Cal.init A).anyTimestampUs x p u = .ok t ∧ (Cal.init A).anyTimestampUs y q u = .ok t := by
  refine ⟨?_, _, C116_timestamp A hE hO x n hx p a ha u hu hp, ?_⟩
  · obtain ⟨u1, m1, hu1, e1, c1, s1, t1⟩ := anyUtc_ok hE hO hx cx ha (Or.inr hr)
    obtain ⟨u2, m2, hu2, e2, c2, s2, t2⟩ := anyUtc_ok hE hO hy cy hb (Or.inr (by rw [← he]; exact hr))
    obtain ⟨-, f1, f2, f3, f4, -⟩ := localMicro_unique hE hu1 hu2 c1 c2 (by rw [s1, s2, hs]) (by rw [e1, e2, he])
    obtain ⟨t, -, h⟩ := anyBuildStruct_ok hE hO hu1 (Or.inr c1) (flag := 0) (Or.inr (Or.inl rfl))
    refine ⟨_, by rw [t1, h none]; rfl, ?_⟩
    rw [t2, ← f1, ← f2, ← f3, ← f4, h none]
    rfl
  · rw [C116_timestamp A hE hO y m hy q b hb u hu hq, he]

/-- Half past eleven in the evening of the second hour of the change, and half past four of the next day in UTC. -/
example : localMicro (witnessDT none 1) 739675 - -18000000000 =
    localMicro ⟨.short 182 19 1, 4, 30, 0, 250000, none, 0⟩ 739676 - 0 := by decide

/-- C116, a zone that answers `None`: `timestamp()` is a TypeError, and `utctimetuple()` takes the fields as they are for
UTC. -/
theorem C116_no_offset (A : Astro) (hE : TehranEvening A) (hO : NewYearOrder (Cal.init A)) (x : DT) (n : ℤ)
    (hx : IsDT (Cal.init A) x n) (hc : x.d.isShort = true ∨ OrdinaryClock x) (p : AnyZone) (hp : p.off x = .ok none) (u : Tz)
    (hu : u.off = 0) (hi : p.id ≠ u.id) :
    (Cal.init A).anyTimestampUs x p u = .error .type ∧
    ∃ t, (Cal.init A).anyUtcTimetuple x (some p) = .ok t ∧ Shows (Cal.init A) t.tup x.d n x.h x.mi x.s ∧ t.isdst = 0 ∧
      t.zone = none ∧ t.gmtoff = none := by
  have ho : anyOffset (some p) x = .ok none := by unfold anyOffset; simp only [hp, pyOk_bind]
  constructor
  · unfold Cal.anyTimestampUs
    rw [anySub_eq hE hO hx (epoch_isDT hE u)]
    unfold anySubOff
    have h0 : HasOffset (AnyZone.ofTz u) (epochDT u) 0 := ⟨by unfold AnyZone.ofTz; rw [hu], by norm_num, by norm_num⟩
    rw [sameZone_ne (q := AnyZone.ofTz u) hi]
    simp only [Bool.false_eq_true, if_false, ho, anyOffset_has h0, pyOk_bind]
    rw [if_neg (by simp)]
  · obtain ⟨t, hs, h⟩ := anyBuildStruct_ok hE hO hx hc (flag := 0) (Or.inr (Or.inl rfl))
    refine ⟨⟨t, 0, none, none⟩, ?_, hs, rfl, rfl, rfl⟩
    unfold Cal.anyUtcTimetuple
    rw [ho, pyOk_bind]
    unfold Cal.utcOf
    simp only [pyOk_bind]
    rw [h none]
    rfl

example : (⟨9, fun _ => .ok none⟩ : AnyZone).id ≠ utcZone.tz.id ∧
    (⟨9, fun _ => .ok none⟩ : AnyZone).off (witnessDT none 0) = .ok none := ⟨by decide, rfl⟩

/-- C116, exceptions: what `utcoffset` of the zone raises for the object, `utctimetuple()` raises, and what `dst` of the zone
raises for the same second with `fold` 0, `timetuple()` raises. -/
theorem C116_raises (A : Astro) (hE : TehranEvening A) (hO : NewYearOrder (Cal.init A)) (x : DT) (n : ℤ)
    (hx : IsDT (Cal.init A) x n) (hc : x.d.isShort = true ∨ OrdinaryClock x) (i : AnyInfo) (e : PyErr) :
    (i.zone.off x = .error e → (Cal.init A).anyUtcTimetuple x (some i.zone) = .error e) ∧
    (i.dst x.plainSecond = .error e → (Cal.init A).anyTimetuple x (some i) = .error e) := by
  constructor
  · intro h
    unfold Cal.anyUtcTimetuple anyOffset
    simp only [h, pyErr_bind]
  · intro h
    obtain ⟨t, hs, ht⟩ := anyBuildStruct_ok hE hO hx hc (Or.inl rfl)
    have h1 := ht (some i)
    simp only [anyDstFlag, h, pyErr_bind] at h1
    exact h1

example : (⟨⟨9, fun _ => .error .type⟩, fun _ => .error .type, fun _ => .ok none⟩ : AnyInfo).zone.off (witnessDT none 0)
    = .error .type := rfl

end Verif
