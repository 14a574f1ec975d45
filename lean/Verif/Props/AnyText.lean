import Verif.Model.AnyText
import Verif.Props.AnyTuple
import Verif.Props.AnyTime
import Verif.Props.FormatSpec

/-!
# Property C118: `strftime` of datetimes and times with any `tzinfo`
-/

namespace Verif

/-- The three answers of a zone about an object: the offset, in microseconds, the daylight saving time and the name. -/
structure Answers (i : AnyInfo) (x : DT) (a : ℤ) (dst : Option ℤ) (nm : Str) : Prop where
  off : HasOffset i.zone x a
  dst : i.dst x = .ok dst
  name : i.name x = .ok (some nm)

theorem anyStruct_fixed (C : Cal) {d : DateObj} {h mi s w yd flag : ℤ} {i : AnyInfo} {a : ℤ} {dst : Option ℤ} {nm : Str}
    (ha : Answers i ⟨d, h, mi, s, 0, none, 0⟩ a dst nm) (k : ℕ) :
    C.anyStructTime d h mi s w yd flag (some i) = C.structTime d h mi s w yd flag (some ⟨⟨k, a, some nm⟩, dst⟩) := by
  unfold Cal.anyStructTime Cal.structTime
  by_cases hf : flag = -1 ∨ flag = 0 ∨ flag = 1
  swap
  · rw [if_pos hf, if_pos hf]
  · rw [if_neg (not_not.mpr hf), if_neg (not_not.mpr hf)]
    unfold Cal.newDT
    cases C.newDate d with
    | error e => rfl
    | ok v =>
      simp only [pyOk_bind]
      cases checkTimeFields h mi s 0 0 with
      | error e => rfl
      | ok u =>
        simp only [pyOk_bind]
        simp only [anyDstFlag, ha.dst, pyOk_bind, Option.map_some, anyOffset_has ha.off, anyName, ha.name]
        cases dst <;> rfl

theorem anyStruct_none (C : Cal) {d : DateObj} {h mi s w yd flag : ℤ} {i : AnyInfo}
    (h1 : i.zone.off ⟨d, h, mi, s, 0, none, 0⟩ = .ok none) (h2 : i.dst ⟨d, h, mi, s, 0, none, 0⟩ = .ok none)
    (h3 : i.name ⟨d, h, mi, s, 0, none, 0⟩ = .ok none) :
    C.anyStructTime d h mi s w yd flag (some i) = C.structTime d h mi s w yd flag none := by
  unfold Cal.anyStructTime Cal.structTime
  by_cases hf : flag = -1 ∨ flag = 0 ∨ flag = 1
  swap
  · rw [if_pos hf, if_pos hf]
  · rw [if_neg (not_not.mpr hf), if_neg (not_not.mpr hf)]
    unfold Cal.newDT
    cases C.newDate d with
    | error e => rfl
    | ok v =>
      simp only [pyOk_bind]
      cases checkTimeFields h mi s 0 0 with
      | error e => rfl
      | ok u =>
        simp only [pyOk_bind, anyDstFlag, h2, Option.map_some, anyOffset, h1, anyName, h3]
        rfl

/-- C118: with every format, `strftime` of a datetime has the text that it has in a fixed zone with the offset, the daylight
saving time and the name that the zone answers about the same second with `fold` 0. Missing from the full property: `fold` 1 and
answers that depend on the microsecond, where it is false (below). -/
theorem C118_datetime_partial (C : Cal) (L : Locale) (x : DT) (i : AnyInfo) (a : ℤ) (dst : Option ℤ) (nm : Str) (k : ℕ)
    (f : Str) (ha : Answers i x.plainSecond a dst nm) :
    C.anyStrftime L x (some i) f = C.datetimeStrftime L x (some ⟨⟨k, a, some nm⟩, dst⟩) f := by
  have e : C.anyTimetuple x (some i) = C.dtTimetuple x (some ⟨⟨k, a, some nm⟩, dst⟩) := by
    unfold Cal.anyTimetuple Cal.anyBuildStruct Cal.dtTimetuple Cal.buildStructTime
    simp only [anyStruct_fixed C ha k]
  unfold Cal.anyStrftime Cal.datetimeStrftime
  rw [e]

/-- C118: when the zone answers `None` to all three questions, `strftime` of a datetime with every format is as without a
zone. -/
theorem C118_no_offset (C : Cal) (L : Locale) (x : DT) (i : AnyInfo) (f : Str) (h1 : i.zone.off x.plainSecond = .ok none)
    (h2 : i.dst x.plainSecond = .ok none) (h3 : i.name x.plainSecond = .ok none) :
    C.anyStrftime L x (some i) f = C.datetimeStrftime L x none f := by
  have e : C.anyTimetuple x (some i) = C.dtTimetuple x none := by
    unfold Cal.anyTimetuple Cal.anyBuildStruct Cal.dtTimetuple Cal.buildStructTime
    simp only [anyStruct_none C h1 h2 h3]
  unfold Cal.anyStrftime Cal.datetimeStrftime
  rw [e]

/-- The clock of a time on the first day of the era, the datetime that a zone is asked about. -/
def TimeObj.firstDay (t : TimeObj) : DT := ⟨.short 1 1 1, t.h, t.mi, t.s, 0, none, 0⟩

/-- C118: with every format, `strftime` of a time has the text that it has in a fixed zone with the answers of the zone about
the same clock on the first day of year 1 of the era. -/
theorem C118_time (C : Cal) (L : Locale) (t : TimeObj) (i : AnyInfo) (a : ℤ) (dst : Option ℤ) (nm : Str) (k : ℕ)
    (f : Str) (ha : Answers i t.firstDay a dst nm) :
    C.anyTimeStrftime L t (some i) f = C.timeStrftime L t (some ⟨⟨k, a, some nm⟩, dst⟩) f := by
  unfold Cal.anyTimeStrftime Cal.timeStrftime
  simp only [anyStruct_fixed C ha k]
  cases checkFormat (wrapFormat (padInt 6 t.us) f) <;> rfl

/-- C118: when the zone answers `None` to all three questions, `strftime` of a time with every format is as without a zone. -/
theorem C118_time_no_offset (C : Cal) (L : Locale) (t : TimeObj) (i : AnyInfo) (f : Str) (h1 : i.zone.off t.firstDay = .ok none)
    (h2 : i.dst t.firstDay = .ok none) (h3 : i.name t.firstDay = .ok none) :
    C.anyTimeStrftime L t (some i) f = C.timeStrftime L t none f := by
  unfold Cal.anyTimeStrftime Cal.timeStrftime
  simp only [anyStruct_none C h1 h2 h3]
  cases checkFormat (wrapFormat (padInt 6 t.us) f) <;> rfl

/-- C118: an exception of the zone comes through also from `strftime` of a time, with every format that can be used without a
zone. -/
theorem C118_time_raises (C : Cal) (L : Locale) (t : TimeObj) (i : AnyInfo) (f text : Str) (e : PyErr)
    (hf : C.timeStrftime L t none f = .ok text) :
    (i.dst t.firstDay = .error e → C.anyTimeStrftime L t (some i) f = .error e) ∧
    (∀ dst, i.dst t.firstDay = .ok dst → i.zone.off t.firstDay = .error e → C.anyTimeStrftime L t (some i) f = .error e) ∧
    (∀ dst a, i.dst t.firstDay = .ok dst → HasOffset i.zone t.firstDay a → i.name t.firstDay = .error e →
      C.anyTimeStrftime L t (some i) f = .error e) := by
  unfold Cal.timeStrftime at hf
  unfold Cal.anyTimeStrftime
  simp only at hf ⊢
  cases h1 : checkFormat (wrapFormat (padInt 6 t.us) f) with
  | error x => rw [h1] at hf; cases hf
  | ok u =>
    rw [h1] at hf
    simp only at hf ⊢
    cases h2 : C.checktm (tupOf (.short 1 1 1) t.h t.mi t.s 0 1) with
    | error x => rw [h2] at hf; cases hf
    | ok v =>
      rw [h2, pyOk_bind] at hf
      rw [pyOk_bind]
      unfold Cal.structTime at hf
      unfold Cal.anyStructTime
      rw [if_neg (by simp)] at hf ⊢
      simp only [Option.map_none] at hf
      unfold TimeObj.firstDay
      cases h3 : C.newDT ⟨.short 1 1 1, t.h, t.mi, t.s, 0, none, 0⟩ with
      | error x => rw [h3] at hf; cases hf
      | ok x =>
        have hx : x = ⟨.short 1 1 1, t.h, t.mi, t.s, 0, none, 0⟩ := by
          unfold Cal.newDT at h3
          cases h4 : C.newDate (.short 1 1 1) with
          | error e => simp only [h4, pyErr_bind] at h3; cases h3
          | ok d =>
            simp only [h4, pyOk_bind] at h3
            cases h5 : checkTimeFields t.h t.mi t.s 0 0 with
            | error e => rw [h5] at h3; cases h3
            | ok d => rw [h5] at h3; cases h3; rfl
        subst hx
        simp only [pyOk_bind]
        refine ⟨fun h => ?_, fun dst h6 h7 => ?_, fun dst a h6 h7 h8 => ?_⟩
        · simp only [anyDstFlag, h, pyErr_bind]
        · simp only [anyDstFlag, h6, pyOk_bind, Option.map_some, anyOffset, h7, pyErr_bind]
          cases dst <;> rfl
        · simp only [anyDstFlag, h6, pyOk_bind, Option.map_some, anyOffset_has h7, anyName, h8, pyErr_bind]
          cases dst <;> rfl

/-- C118: an exception of the zone, whichever of the three methods raises it, comes through with every format, also those that
show nothing of the zone. -/
theorem C118_raises (A : Astro) (hE : TehranEvening A) (hO : NewYearOrder (Cal.init A)) (L : Locale) (x : DT) (n : ℤ)
    (hx : IsDT (Cal.init A) x n) (hc : x.d.isShort = true ∨ OrdinaryClock x) (i : AnyInfo) (f : Str) (e : PyErr) :
    (i.dst x.plainSecond = .error e → (Cal.init A).anyStrftime L x (some i) f = .error e) ∧
    (∀ dst, i.dst x.plainSecond = .ok dst → i.zone.off x.plainSecond = .error e →
      (Cal.init A).anyStrftime L x (some i) f = .error e) ∧
    (∀ dst a, i.dst x.plainSecond = .ok dst → HasOffset i.zone x.plainSecond a → i.name x.plainSecond = .error e →
      (Cal.init A).anyStrftime L x (some i) f = .error e) := by
  obtain ⟨t, -, ht⟩ := anyBuildStruct_ok hE hO hx hc (flag := -1) (Or.inl rfl)
  have hb := ht (some i)
  unfold Cal.anyStrftime Cal.anyTimetuple
  rw [hb]
  refine ⟨fun h => ?_, fun dst h1 h2 => ?_, fun dst a h1 h2 h3 => ?_⟩
  · simp only [anyDstFlag, h, pyErr_bind]
  · simp only [anyDstFlag, h1, pyOk_bind, Option.map_some, anyOffset, h2, pyErr_bind]
    cases dst <;> rfl
  · simp only [anyDstFlag, h1, pyOk_bind, Option.map_some, anyOffset_has h2, anyName, h3, pyErr_bind]
    cases dst <;> rfl

/-- C118 is false with `fold` 1: in the second hour of the autumn change the texts of `%Z` and `%z` are those of summer time,
while `utcoffset()` and the zone itself give winter time. -/
theorem C118_fold_negation (A : Astro) (hE : TehranEvening A) (hO : NewYearOrder (Cal.init A)) (L : Locale) (x : DT) (n : ℤ)
    (hx : IsDT (Cal.init A) x n) (hc : x.d.isShort = true ∨ OrdinaryClock x) (hy : -1842 ≤ x.d.fullYear) (hf : x.fold = 1) :
    (Cal.init A).anyStrftime L x (some autumnInfo) "%Z".toList = .ok "EDT".toList ∧
    (Cal.init A).anyStrftime L x (some autumnInfo) "%z".toList = .ok "-0400".toList ∧
    anyOffset (some autumnZone) x = .ok (some (-18000000000)) ∧ autumnInfo.name x = .ok (some "EST".toList) := by
  have ha : Answers autumnInfo x.plainSecond (-14400000000) (some 3600000000) "EDT".toList :=
    ⟨autumn_offset x.plainSecond, rfl, rfl⟩
  obtain ⟨c1, -, c2⟩ := C70_hours_partial A hE hO L x n ⟨⟨0, -14400000000, some "EDT".toList⟩, some 3600000000⟩ (-4) hx hc hy
    (by norm_num) (by norm_num) (by norm_num)
  rw [C118_datetime_partial _ L x _ _ _ _ 0 _ ha, C118_datetime_partial _ L x _ _ _ _ 0 _ ha]
  refine ⟨c2, ?_, ?_, ?_⟩
  · rw [c1]
    congr 1
  · have := anyOffset_has (autumn_offset x)
    rw [if_neg (by omega)] at this
    exact this
  · change Except.ok (some (if x.fold = 0 then _ else _)) = _
    rw [if_neg (by omega)]

/-- C118: for a time, `isoformat()` asks the zone with `None` and `strftime` asks about the first day of the era. A zone that
has an offset only for datetimes, as those with a daylight saving rule, is shown by `%:z` and not by `isoformat()`. -/
theorem C118_time_negation (A : Astro) (hE : TehranEvening A) (L : Locale) (t : TimeObj) (ht : ValidTime t) (c : ClockZone)
    (hn : c.off = .ok none) (i : AnyInfo) (h : ℤ) (dst : Option ℤ) (nm : Str) (ha : Answers i t.firstDay (3600000000 * h) dst nm)
    (h0 : h ≠ 0) (h1 : |h| ≤ 23) :
    ∃ text, clockIso t (some c) = .ok text ∧
      (Cal.init A).anyTimeStrftime L t (some i) (clockFmt t.us ++ "%:z".toList) =
        .ok (text ++ (if h < 0 then '-' else '+') :: padInt 2 |h| ++ ":00".toList) := by
  refine ⟨formatTime t.h t.mi t.s t.us, ?_, ?_⟩
  · unfold clockIso clockOffset
    simp only [hn, pyOk_bind, formatOffset, List.append_nil]
  · rw [C118_time _ L t i _ dst nm 0 _ ha]
    have e := time_zone_text hE L (some ⟨⟨0, 3600000000 * h, some nm⟩, dst⟩) ht
    unfold Cal.timeFormat at e
    rw [if_pos (by unfold clockFmt; split_ifs <;> simp)] at e
    have q1 : |4 * h| = 4 * |h| := by rw [abs_mul]; norm_num
    rw [e, dirZ_of (q := 4 * h) (by simp only; ring) (by omega) (by omega)]
    have s0 : padInt 2 0 = "00".toList := by decide
    unfold hundredths
    rw [q1, show 4 * |h| / 4 = |h| by omega, show 4 * |h| % 4 = 0 by omega]
    simp [show 4 * h < 0 ↔ h < 0 by omega, s0]

/-- The autumn zone on the evening of the last day of Ayyám-i-Há with either `fold`, and on the first day of the era at
23:30. -/
example : IsDT (Cal.init newYearSun) (witnessDT none 1) 739675 ∧ (witnessDT none 1).fold = 1 ∧
    (witnessDT none 1).d.isShort = true ∧ (witnessDT none 1).d.fullYear = 182 ∧
    Answers autumnInfo (witnessDT none 0).plainSecond (-14400000000) (some 3600000000) "EDT".toList ∧
    ValidTime ⟨23, 30, 0, 250000, none, 0⟩ ∧
    Answers autumnInfo (TimeObj.firstDay ⟨23, 30, 0, 250000, none, 0⟩) (3600000000 * -4) (some 3600000000) "EDT".toList := by
  refine ⟨witnessDT_is none (Or.inr rfl), rfl, rfl, rfl, ⟨autumn_offset _, rfl, rfl⟩, ?_, ⟨?_, rfl, rfl⟩⟩
  · constructor <;> simp
  · exact autumn_offset (TimeObj.firstDay ⟨23, 30, 0, 250000, none, 0⟩)

/-- A zone without answers, and one that raises. -/
example : (∃ i : AnyInfo, ∀ x, i.zone.off x = .ok none ∧ i.dst x = .ok none ∧ i.name x = .ok none) ∧
    (∃ i : AnyInfo, ∀ x, i.dst x = .error .value) :=
  ⟨⟨⟨⟨0, fun _ => .ok none⟩, fun _ => .ok none, fun _ => .ok none⟩, fun _ => ⟨rfl, rfl, rfl⟩⟩,
    ⟨⟨0, fun _ => .ok none⟩, fun _ => .error .value, fun _ => .ok none⟩, fun _ => rfl⟩

/-- Half past eleven in the evening, written without a zone, and then with one that raises. -/
example (L : Locale) (i : AnyInfo) (hi : ∀ x, i.dst x = .error .overflow) :
    (Cal.init newYearSun).anyTimeStrftime L ⟨23, 30, 0, 250000, none, 0⟩ (some i) (clockFmt 250000 ++ "%:z".toList) =
      .error .overflow := by
  have ht : ValidTime ⟨23, 30, 0, 250000, none, 0⟩ := by constructor <;> simp
  have e := time_zone_text newYearSun_tehran L none ht
  unfold Cal.timeFormat at e
  rw [if_pos (by unfold clockFmt; split_ifs <;> simp)] at e
  exact (C118_time_raises _ L _ i _ _ _ e).1 (hi _)

end Verif
