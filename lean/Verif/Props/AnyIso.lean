import Verif.Model.AnyIso
import Verif.Props.AnyText
import Verif.Props.TimeSpec
import Verif.Props.IsoTime

/-!
# Property C120: `isoformat`, `dst` and `tzname` of objects with any `tzinfo`
-/

namespace Verif

/-- C120: with every separator and every `timespec`, `isoformat` of a datetime has the text that it has in a fixed zone with the
offset that the zone answers about this very datetime, `fold` and microsecond included. -/
theorem C120_datetime (x : DT) (p : AnyZone) (a : ℤ) (ha : HasOffset p x a) (sep : Char) (ts : Str) (k : ℕ) :
    anyIso x (some p) sep ts = dtIsoSpec { x with tz := some ⟨k, a⟩ } sep ts := by
  unfold anyIso dtIsoSpec
  simp only [anyOffset_has ha, utcOffset_some (z := ⟨k, a⟩) ha.2]

/-- C120: with a zone that answers `None` the text is that of a naive datetime. -/
theorem C120_no_offset (x : DT) (p : AnyZone) (h : p.off x = .ok none) (sep : Char) (ts : Str) :
    anyIso x (some p) sep ts = dtIsoSpec { x with tz := none } sep ts := by
  have : anyOffset (some p) x = .ok none := by unfold anyOffset; simp only [h, pyOk_bind]
  unfold anyIso dtIsoSpec
  simp only [this]
  rfl

/-- C120: the same for times, whose zone is asked with `None`. -/
theorem C120_time (t : TimeObj) (c : ClockZone) (ts : Str) (k : ℕ) :
    (∀ a, c.off = .ok (some a) → ValidOff a → clockIsoSpec t (some c) ts = timeIsoSpec { t with tz := some ⟨k, a⟩ } ts) ∧
    (c.off = .ok none → clockIsoSpec t (some c) ts = timeIsoSpec { t with tz := none } ts) := by
  unfold clockIsoSpec timeIsoSpec
  constructor
  · intro a h v
    have : clockOffset (some c) = .ok (some a) := by
      unfold clockOffset
      simp only [h, pyOk_bind]
      have : checkOffset a = .ok () := by unfold checkOffset usPerDay; exact if_pos ⟨v.1, v.2⟩
      rw [this, pyOk_bind]
    simp only [this, utcOffset_some (z := ⟨k, a⟩) v]
  · intro h
    have : clockOffset (some c) = .ok none := by unfold clockOffset; simp only [h, pyOk_bind]
    simp only [this]
    rfl

/-- C120: an exception of the zone comes through, and an offset of a day or more is a ValueError, for every `timespec` that
exists. -/
theorem C120_raises (x : DT) (p : AnyZone) (sep : Char) (r : Resolution) :
    (∀ e, p.off x = .error e → anyIso x (some p) sep r.name = .error e) ∧
    (∀ a, p.off x = .ok (some a) → ¬ ValidOff a → anyIso x (some p) sep r.name = .error .value) := by
  have key : ∃ s, formatTimeSpec x.h x.mi x.s x.us r.name = .ok s := by cases r <;> exact ⟨_, rfl⟩
  obtain ⟨s, hs⟩ := key
  unfold anyIso
  rw [hs, pyOk_bind]
  constructor
  · intro e h
    unfold anyOffset
    simp only [h, pyErr_bind]
  · intro a h v
    unfold anyOffset
    have : checkOffset a = .error .value := by
      unfold checkOffset usPerDay
      exact if_neg (fun c => v ⟨c.1, c.2⟩)
    simp only [h, pyOk_bind, this, pyErr_bind]

theorem dtFromIso_fold {C : Cal} {fresh : ℕ} {s : Str} {x : DT} (h : C.dtFromIso fresh s = .ok x) : x.fold = 0 := by
  unfold Cal.dtFromIso at h
  cases h1 : C.parseAll fresh s with
  | error e => rw [h1, pyErr_bind] at h; cases h
  | ok v =>
    obtain ⟨d, t, z⟩ := v
    rw [h1, pyOk_bind] at h
    cases d with
    | none => cases h
    | some d =>
      obtain ⟨y, m, dd⟩ := d
      simp only [Cal.newDTFrac] at h
      generalize createTime _ _ _ _ = c at h
      cases c with
      | error e => rw [pyErr_bind] at h; cases h
      | ok c =>
        rw [pyOk_bind] at h
        generalize C.newDate _ = c at h
        cases c with
        | error e => rw [pyErr_bind] at h; cases h
        | ok c =>
          rw [pyOk_bind] at h
          generalize checkTimeArgs _ _ _ _ = c at h
          cases c with
          | error e => rw [pyErr_bind] at h; cases h
          | ok c =>
            rw [pyOk_bind] at h
            injection h with h
            rw [← h]

/-- C120: `datetime.fromisoformat(x.isoformat(sep))` is the same instant as x in a fixed zone, also in the hours of a change of
the clock: all fields are the same, its offset is the one that the zone answers about x, and its difference to x is zero. Missing
from the full property: what is missing in C20 (the long form, negative years of three digits, microseconds that are no whole
milliseconds, and negative offsets with minutes). -/
theorem C120_round_trip_partial (A : Astro) (hE : TehranEvening A) (hO : NewYearOrder (Cal.init A)) (fresh : ℕ) (x : DT)
    (n y m d : ℤ) (sep : Char) (hx : IsDT (Cal.init A) x n) (hd : x.d = .short y m d) (h0 : -1842 ≤ y)
    (hy : 0 ≤ y ∨ y ≤ -1000) (hu : x.us % 1000 = 0) (hsep : sep = 'T' ∨ sep = ' ') (p : AnyZone) (a : ℤ)
    (ha : HasOffset p x a) (hm : a % 60000000 = 0) (hs : 0 ≤ a ∨ a % 3600000000 = 0) :
    ∃ x' z, (anyIso x (some p) sep "auto".toList >>= fun s => (Cal.init A).dtFromIso fresh s) = .ok x' ∧ SameFields x x' ∧
      x'.fold = 0 ∧ x'.tz = some z ∧ z.off = a ∧ IsDT (Cal.init A) x' n ∧
      (p.id ≠ z.id → (Cal.init A).anySub x' (some (.ofTz z)) x (some p) = .ok 0) := by
  rw [C120_datetime x p a ha sep _ 0]
  rw [(C82_default _ x.timetz sep).1]
  obtain ⟨x', e, hf, ho, -⟩ := C20_datetime_partial A hE fresh { x with tz := some ⟨0, a⟩ } n y m d sep
    ⟨hx.1, ⟨hx.2.1, hx.2.2, hx.2.3, hx.2.4, hx.2.5, hx.2.6, hx.2.7, hx.2.8, hx.2.9⟩⟩ hd h0 hy hu ⟨ha.2, hm, hs⟩ hsep
  have hfold : x'.fold = 0 := by
    cases h1 : dtIso { x with tz := some ⟨0, a⟩ } sep with
    | error er => rw [h1, pyErr_bind] at e; cases e
    | ok s =>
      rw [h1, pyOk_bind] at e
      exact dtFromIso_fold e
  obtain ⟨f1, f2, f3, f4, f5⟩ := hf
  simp only at f1 f2 f3 f4 f5
  cases hz : x'.tz with
  | none => rw [hz] at ho; exact ho.elim
  | some z =>
    rw [hz] at ho
    obtain ⟨o1, o2⟩ := ho
    have o1 : z.off = a := o1.symm
    have hx' : IsDT (Cal.init A) x' n := by
      obtain ⟨hday, ⟨a0, a1, b0, b1, c0, c1, u0, u1, -⟩⟩ := hx
      refine ⟨f1 ▸ hday, ?_⟩
      simp only [DT.timetz] at *
      exact ⟨f2 ▸ a0, f2 ▸ a1, f3 ▸ b0, f3 ▸ b1, f4 ▸ c0, f4 ▸ c1, f5 ▸ u0, f5 ▸ u1, Or.inl hfold⟩
    refine ⟨x', z, e, ⟨f1, f2, f3, f4, f5⟩, hfold, hz, o1, hx', fun hid => ?_⟩
    have := (C107_instants_partial A hE hO x' x n n hx' hx (.ofTz z) p (Ne.symm hid) z.off a ⟨rfl, o1 ▸ ha.2⟩ ha).1
    rw [this]
    congr 1
    unfold localMicro
    rw [f2, f3, f4, f5, o1]
    ring

/-- C120: in the hour of a change, where the other `fold` has another offset, the datetime that was read back is not equal to
the one that was written, though their difference is zero. -/
theorem C120_fold_negation (A : Astro) (hE : TehranEvening A) (hO : NewYearOrder (Cal.init A)) (fresh : ℕ) (x : DT)
    (n y m d : ℤ) (sep : Char) (hx : IsDT (Cal.init A) x n) (hd : x.d = .short y m d) (h0 : -1842 ≤ y)
    (hy : 0 ≤ y ∨ y ≤ -1000) (hu : x.us % 1000 = 0) (hsep : sep = 'T' ∨ sep = ' ') (p : AnyZone) (a a' : ℤ)
    (ha : HasOffset p x a) (ha' : HasOffset p x.otherFold a') (hne : a ≠ a') (hm : a % 60000000 = 0)
    (hs : 0 ≤ a ∨ a % 3600000000 = 0) :
    ∃ x' z, (anyIso x (some p) sep "auto".toList >>= fun s => (Cal.init A).dtFromIso fresh s) = .ok x' ∧ x'.tz = some z ∧
      (p.id ≠ z.id → (Cal.init A).anySub x' (some (.ofTz z)) x (some p) = .ok 0 ∧
        (Cal.init A).anyEq x (some p) x' (some (.ofTz z)) = .ok false) := by
  obtain ⟨x', z, e, -, -, hz, hoff, hx', hsub⟩ := C120_round_trip_partial A hE hO fresh x n y m d sep hx hd h0 hy hu hsep p a ha hm hs
  refine ⟨x', z, e, hz, fun hid => ⟨hsub hid, ?_⟩⟩
  exact (C107_fold_unequal A hE x x' n n hx hx' p (.ofTz z) hid a z.off a' z.off ha ⟨rfl, hoff ▸ ha.2⟩ ha'
    ⟨rfl, hoff ▸ ha.2⟩ hne).1

/-- C120: `dst()` and `tzname()` of a datetime are the answers of the zone about this very datetime, and none without a zone. -/
theorem C120_questions (i : AnyInfo) (x : DT) (dst : Option ℤ) (nm : Option Str) (h : i.dst x = .ok dst)
    (hv : ∀ o, dst = some o → ValidOff o) (hn : i.name x = .ok nm) :
    anyDst (some i) x = .ok dst ∧ anyTzname (some i) x = .ok nm ∧ anyDst none x = .ok none ∧ anyTzname none x = .ok none := by
  refine ⟨?_, hn, rfl, rfl⟩
  unfold anyDst
  simp only [h, pyOk_bind]
  cases dst with
  | none => rfl
  | some o =>
    have v := hv o rfl
    have : checkOffset o = .ok () := by unfold checkOffset usPerDay; exact if_pos ⟨v.1, v.2⟩
    simp only [this, pyOk_bind]

/-- C120: `dst()` gives a value exactly when the zone answers it and it is shorter than a day; a longer one is a ValueError, and
exceptions of the zone come through both methods. -/
theorem C120_dst (i : AnyInfo) (x : DT) :
    (∀ r, anyDst (some i) x = .ok r ↔ i.dst x = .ok r ∧ ∀ o, r = some o → |o| < 86400000000) ∧
    (∀ o, i.dst x = .ok (some o) → 86400000000 ≤ |o| → anyDst (some i) x = .error .value) ∧
    (∀ e, i.dst x = .error e → anyDst (some i) x = .error e) ∧ ∀ e, i.name x = .error e → anyTzname (some i) x = .error e := by
  unfold anyDst
  refine ⟨fun r => ?_, fun o h ho => ?_, fun e h => ?_, fun e h => h⟩
  · cases h : i.dst x with
    | error e => simp only [h, pyErr_bind, reduceCtorEq, false_and]
    | ok v =>
      cases v with
      | none =>
        simp only [h, pyOk_bind]
        refine ⟨fun e => ⟨e, fun o ho => ?_⟩, fun e => e.1⟩
        cases e
        cases ho
      | some o =>
        simp only [h, pyOk_bind]
        unfold checkOffset usPerDay
        split_ifs with c
        · simp only [pyOk_bind]
          refine ⟨fun e => ⟨e, fun o' ho => ?_⟩, fun e => e.1⟩
          cases e
          cases ho
          rw [abs_lt]
          omega
        · simp only [pyErr_bind, reduceCtorEq, false_iff, not_and]
          intro e hv
          cases e
          have := abs_lt.mp (hv o rfl)
          omega
  · simp only [h, pyOk_bind]
    unfold checkOffset usPerDay
    rw [if_neg (fun c => by have := abs_lt.mpr (show -86400000000 < o ∧ o < 86400000000 by omega); omega), pyErr_bind]
  · simp only [h, pyErr_bind]

/-- C120: the three views of one datetime do not agree. In the second hour of the autumn change `isoformat()` shows winter time,
`dst()` is zero and `tzname()` is the name of winter time, while `strftime` shows summer time. -/
theorem C120_views_negation (A : Astro) (hE : TehranEvening A) (hO : NewYearOrder (Cal.init A)) (L : Locale) (x : DT) (n : ℤ)
    (hx : IsDT (Cal.init A) x n) (hc : x.d.isShort = true ∨ OrdinaryClock x) (hy : -1842 ≤ x.d.fullYear) (hf : x.fold = 1) :
    (∃ text, dtIso { x with tz := none } 'T' = .ok text ∧
      anyIso x (some autumnZone) 'T' "auto".toList = .ok (text ++ "-05:00".toList)) ∧
    anyDst (some autumnInfo) x = .ok (some 0) ∧ anyTzname (some autumnInfo) x = .ok (some "EST".toList) ∧
    (Cal.init A).anyStrftime L x (some autumnInfo) "%z".toList = .ok "-0400".toList ∧
    (Cal.init A).anyStrftime L x (some autumnInfo) "%Z".toList = .ok "EDT".toList := by
  obtain ⟨c1, c2, -, c4⟩ := C118_fold_negation A hE hO L x n hx hc hy hf
  have hd : autumnInfo.dst x = .ok (some 0) := by
    change Except.ok (some (if x.fold = 0 then _ else _)) = _
    rw [if_neg (by omega)]
  obtain ⟨q1, q2, -, -⟩ := C120_questions autumnInfo x (some 0) (some "EST".toList) hd
    (fun o h => by injection h with h; subst h; constructor <;> norm_num) c4
  refine ⟨?_, q1, q2, c2, c1⟩
  have ha := autumn_offset x
  rw [if_neg (by omega)] at ha
  refine ⟨formatDate x.d.ymd.1 x.d.ymd.2.1 x.d.ymd.2.2 ++ 'T' :: formatTime x.h x.mi x.s x.us, ?_, ?_⟩
  · unfold dtIso
    simp only [utcOffset, pyOk_bind, formatOffset, List.append_nil]
  rw [C120_datetime x autumnZone _ ha 'T' _ 0, (C82_default _ x.timetz 'T').1]
  unfold dtIso
  rw [utcOffset_some (z := ⟨0, -18000000000⟩) ha.2, pyOk_bind]
  have e : formatOffset (some (-18000000000)) = "-05:00".toList := by decide
  simp only [e]

/-- C120: a daylight saving time of a day or more is refused by `dst()` with ValueError and accepted by `timetuple()` and so by
`strftime`. -/
theorem C120_dst_negation (A : Astro) (hE : TehranEvening A) (hO : NewYearOrder (Cal.init A)) (x : DT) (n : ℤ)
    (hx : IsDT (Cal.init A) x n) (hc : x.d.isShort = true ∨ OrdinaryClock x) (i : AnyInfo) (a o : ℤ) (nm : Option Str)
    (hp : x.plainSecond = x) (ha : HasOffset i.zone x a) (hd : i.dst x = .ok (some o)) (hv : ¬ ValidOff o)
    (hn : i.name x = .ok nm) :
    anyDst (some i) x = .error .value ∧ ∃ t, (Cal.init A).anyTimetuple x (some i) = .ok t ∧ t.isdst = 1 := by
  constructor
  · unfold anyDst
    have : checkOffset o = .error .value := by
      unfold checkOffset usPerDay
      exact if_neg (fun c => hv ⟨c.1, c.2⟩)
    simp only [hd, pyOk_bind, this, pyErr_bind]
  · have h0 : o ≠ 0 := fun h => hv (by subst h; constructor <;> norm_num)
    obtain ⟨t, e, -, -, -, -, -, -, h1⟩ := C116_timetuple_partial A hE hO x n hx hc i a (by rwa [hp]) (some o) (by rwa [hp]) nm
      (by rwa [hp])
    exact ⟨t, e, h1 o h0 rfl⟩

/-- The second half past eleven of the evening of the autumn change, with its instants and questions. -/
example : IsDT (Cal.init newYearSun) (witnessDT none 1) 739675 ∧ (witnessDT none 1).d = .short 182 0 5 ∧
    (witnessDT none 1).us % 1000 = 0 ∧ HasOffset autumnZone (witnessDT none 1) (-18000000000) ∧
    HasOffset autumnZone (witnessDT none 1).otherFold (-14400000000) ∧ (-18000000000 : ℤ) % 60000000 = 0 ∧
    (-18000000000 : ℤ) % 3600000000 = 0 ∧ (witnessDT none 1).fold = 1 ∧ (witnessDT none 1).d.isShort = true ∧
    (witnessDT none 1).d.fullYear = 182 ∧ autumnInfo.dst (witnessDT none 1) = .ok (some 0) :=
  ⟨witnessDT_is none (Or.inr rfl), rfl, by decide, autumn_offset _, autumn_offset _, by decide, by decide, rfl, rfl, rfl, rfl⟩

/-- A datetime on a whole second in a zone with a daylight saving time of thirty hours. -/
example : (⟨.short 182 0 5, 23, 30, 0, 0, none, 0⟩ : DT).plainSecond = ⟨.short 182 0 5, 23, 30, 0, 0, none, 0⟩ ∧
    IsDT (Cal.init newYearSun) ⟨.short 182 0 5, 23, 30, 0, 0, none, 0⟩ 739675 ∧ ¬ ValidOff 108000000000 :=
  ⟨rfl, ⟨(witnessDT_is none (Or.inl rfl)).1, by constructor <;> simp [DT.timetz]⟩, by unfold ValidOff; norm_num⟩

end Verif
