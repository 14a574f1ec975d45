import Verif.Model.AnyTime
import Verif.Props.Time

/-!
# Property C114: times with any `tzinfo`
-/

namespace Verif

/-- What the `tzinfo` of a time says about its offset: a legal offset. -/
def Ahead (p : Option ClockZone) (o : ℤ) : Prop := ∃ z, p = some z ∧ z.off = .ok (some o) ∧ ValidOff o

/-- No offset: there is no `tzinfo`, or it answers `None`. -/
def NoOffset (p : Option ClockZone) : Prop := ∀ z, p = some z → z.off = .ok none

/-- Asking for the offset raises `e`: the zone raises it, or the offset is a day or more. -/
def ZoneRaises (p : Option ClockZone) (e : PyErr) : Prop :=
  ∃ z, p = some z ∧ (z.off = .error e ∨ e = .value ∧ ∃ o, z.off = .ok (some o) ∧ ¬ ValidOff o)

/-- The two are different objects. -/
def Apart (p q : Option ClockZone) : Prop := ∀ z w, p = some z → q = some w → z.id ≠ w.id

/-- What the five operators answer when the comparison is a number. -/
def ClockAnswers (a : TimeObj) (p : Option ClockZone) (b : TimeObj) (q : Option ClockZone) (lt eq : Prop) : Prop :=
  ∃ bl be : Bool, (bl = true ↔ lt) ∧ (be = true ↔ eq) ∧ (lt → ¬ eq) ∧ clockLt a p b q = .ok bl ∧ clockEq a p b q = .ok be ∧
    clockLe a p b q = .ok (bl || be) ∧ clockGt a p b q = .ok (!(bl || be)) ∧ clockGe a p b q = .ok (!bl)

theorem clockAnswers_of {a b : TimeObj} {p q : Option ClockZone} {l r : List ℤ} {lt eq : Prop}
    (h : ∀ m, clockCmp a p b q m = .ok (tupleCmp l r)) (hl : tupleCmp l r < 0 ↔ lt) (he : tupleCmp l r = 0 ↔ eq) :
    ClockAnswers a p b q lt eq := by
  refine ⟨decide (tupleCmp l r < 0), tupleCmp l r == 0, by simp [hl], by simp [he], ?_, ?_⟩
  · intro h1 h2
    have := hl.mpr h1
    have := he.mpr h2
    omega
  unfold clockLt clockEq clockLe clockGt clockGe
  simp only [h]
  rcases tupleCmp_range l r with hc | hc | hc <;> rw [hc] <;> decide

theorem clockOffset_ahead {p : Option ClockZone} {o : ℤ} (h : Ahead p o) : clockOffset p = .ok (some o) := by
  obtain ⟨z, rfl, e, v⟩ := h
  unfold clockOffset
  simp only [e, pyOk_bind, checkOffset_ok v]

theorem clockOffset_none {p : Option ClockZone} (h : NoOffset p) : clockOffset p = .ok none := by
  cases p with
  | none => rfl
  | some z =>
    unfold clockOffset
    simp only [h z rfl, pyOk_bind]

theorem clockOffset_raises {p : Option ClockZone} {e : PyErr} (h : ZoneRaises p e) : clockOffset p = .error e := by
  obtain ⟨z, rfl, e1 | ⟨rfl, o, e1, v⟩⟩ := h
  · unfold clockOffset
    simp only [e1, pyErr_bind]
  · unfold clockOffset
    have : checkOffset o = .error .value := by
      unfold checkOffset usPerDay
      exact if_neg v
    simp only [e1, pyOk_bind, this, pyErr_bind]

theorem clockCmp_offsets {p q : Option ClockZone} {x y : Option ℤ} (hx : clockOffset p = .ok x) (hy : clockOffset q = .ok y)
    (a b : TimeObj) (m : Bool) (hs : sameClockZone p q = true → x = y) : clockCmp a p b q m = timeCmpOff a b m x y := by
  unfold clockCmp
  split_ifs with h
  · unfold timeCmpOff
    rw [if_pos (hs h)]
  · rw [hx, pyOk_bind, hy, pyOk_bind]

theorem sameClockZone_apart {p q : Option ClockZone} (h : Apart p q) (hp : p ≠ none ∨ q ≠ none) : sameClockZone p q = false := by
  cases p with
  | none => cases q with
    | none => simp at hp
    | some w => rfl
  | some z => cases q with
    | none => rfl
    | some w => simpa [sameClockZone] using h z w rfl rfl

theorem timeHashBytes_any (H : PyHash) {t : TimeObj} (v : ValidTime t) (p : Option ClockZone) :
    clockHash H t p = (clockOffset p).bind fun off => match off with
      | none => .ok (H.bytes [t.h, t.mi, t.s, t.us / 256 / 256, t.us / 256 % 256, t.us % 256])
      | some z => if z = 0 then .ok (H.bytes [t.h, t.mi, t.s, t.us / 256 / 256, t.us / 256 % 256, t.us % 256])
          else timeHashOff H t z := by
  unfold clockHash
  have v0 : ValidTime { t with fold := 0 } :=
    ⟨v.h0, v.h1, v.mi0, v.mi1, v.s0, v.s1, v.us0, v.us1, Or.inl rfl⟩
  by_cases hf : t.fold ≠ 0
  · rw [if_pos hf, newTime_ok v0, pyOk_bind]
    simp only [timeHashBytes_ok H v0]
    rfl
  · rw [if_neg hf, pyOk_bind]
    simp only [timeHashBytes_ok H v]
    rfl

/-! ## C114 -/

/-- C114, zones that have offsets: the order of two times is that of the moments, if the offsets are whole minutes and no second
is 60. Missing from the full property: offsets with seconds (below) and leap seconds. -/
theorem C114_instants_partial (a b : TimeObj) (p q : Option ClockZone) (x y : ℤ) (hp : Ahead p x) (hq : Ahead q y)
    (hs : Apart p q ∨ x = y) (va : ValidTime a) (vb : ValidTime b) (sa : a.s ≤ 59) (sb : b.s ≤ 59) (mx : x % 60000000 = 0)
    (my : y % 60000000 = 0) :
    ClockAnswers a p b q (utcMicro a x < utcMicro b y) (utcMicro a x = utcMicro b y) := by
  obtain ⟨a0, a1, a2, a3, a4, a5, a6, a7, -⟩ := va
  obtain ⟨b0, b1, b2, b3, b4, b5, b6, b7, -⟩ := vb
  have hc : ∀ m, clockCmp a p b q m = timeCmpOff a b m (some x) (some y) := by
    intro m
    refine clockCmp_offsets (clockOffset_ahead hp) (clockOffset_ahead hq) a b m (fun h => ?_)
    rcases hs with hs | rfl
    · rw [sameClockZone_apart hs (by obtain ⟨z, rfl, -⟩ := hp; simp)] at h
      cases h
    · rfl
  by_cases ho : x = y
  · subst ho
    refine clockAnswers_of (l := [a.h, a.mi, a.s, a.us]) (r := [b.h, b.mi, b.s, b.us]) (fun m => ?_) ?_ ?_
    · rw [hc, timeCmpOff, if_pos rfl]
    · rw [lt4]; unfold utcMicro; omega
    · rw [eq4]; unfold utcMicro; omega
  · refine clockAnswers_of (l := [a.h * 60 + a.mi - x / 60000000, a.s, a.us]) (r := [b.h * 60 + b.mi - y / 60000000, b.s, b.us])
      (fun m => ?_) ?_ ?_
    · rw [hc, timeCmpOff, if_neg (fun h => ho (by injection h))]
    · rw [tlt3]; unfold utcMicro; omega
    · rw [eq3]; unfold utcMicro; omega

/-- A zone of `zoneinfo` with summer time: without a date it has no offset. -/
def summerZone : ClockZone := ⟨1, .ok none⟩
/-- A zone with a fixed offset. -/
def aheadZone (i : ℕ) (o : ℤ) : ClockZone := ⟨i, .ok (some o)⟩
/-- A zone that reads the date, and fails when there is none. -/
def dateZone : ClockZone := ⟨3, .error .attribute⟩

example : Ahead (some (aheadZone 4 3600000000)) 3600000000 ∧ Ahead (some (aheadZone 5 0)) 0 ∧
    Apart (some (aheadZone 4 3600000000)) (some (aheadZone 5 0)) ∧ ValidTime ⟨13, 0, 0, 0, none, 0⟩ :=
  ⟨⟨_, rfl, rfl, by norm_num, by norm_num⟩, ⟨_, rfl, rfl, by norm_num, by norm_num⟩,
    by rintro z w ⟨⟩ ⟨⟩; decide, by constructor <;> simp⟩

/-- C114 is false for offsets with seconds: two zones within the same minute of UTC make equal clocks equal times. -/
theorem C114_second_offset_negation (a b : TimeObj) (p q : Option ClockZone) (x y : ℤ) (hp : Ahead p x) (hq : Ahead q y)
    (hs : Apart p q) (hne : x ≠ y) (hm : x / 60000000 = y / 60000000) (hc : SameClock a b) :
    clockEq a p b q = .ok true ∧ utcMicro a x ≠ utcMicro b y := by
  obtain ⟨h1, h2, h3, h4⟩ := hc
  constructor
  · unfold clockEq
    rw [clockCmp_offsets (clockOffset_ahead hp) (clockOffset_ahead hq) a b true (fun h => by
      rw [sameClockZone_apart hs (by obtain ⟨z, rfl, -⟩ := hp; simp)] at h; cases h)]
    unfold timeCmpOff
    rw [if_neg (fun h => hne (by injection h))]
    simp only [hm, h1, h2, h3, h4, tupleCmp_self]
    rfl
  · unfold utcMicro; omega

example : Ahead (some (aheadZone 4 30000000)) 30000000 ∧ (30000000 : ℤ) / 60000000 = 0 / 60000000 :=
  ⟨⟨_, rfl, rfl, by norm_num, by norm_num⟩, by norm_num⟩

/-- C114, zones without an offset: times with such zones, and times with none, are compared by the clock, whatever the zones;
their hash and their text are those of the time without a zone. -/
theorem C114_no_offset (H : PyHash) (a b : TimeObj) (p q : Option ClockZone) (hp : NoOffset p) (hq : NoOffset q) :
    ClockAnswers a p b q (EarlierClock a b) (SameClock a b) ∧ clockHash H a p = timeHash H { a with tz := none } ∧
    clockIso a p = timeIso { a with tz := none } ∧ clockBadi p = .ok none := by
  refine ⟨clockAnswers_of (l := [a.h, a.mi, a.s, a.us]) (r := [b.h, b.mi, b.s, b.us]) (fun m => ?_) (lt4 ..) (eq4 ..), ?_, ?_, ?_⟩
  · rw [clockCmp_offsets (clockOffset_none hp) (clockOffset_none hq) a b m (fun _ => rfl)]
    unfold timeCmpOff
    rw [if_pos rfl]
  · have hb : ∀ t : TimeObj, timeHashBytes H { t with tz := none } = timeHashBytes H t := fun _ => rfl
    unfold clockHash timeHash
    rw [clockOffset_none hp]
    by_cases hf : a.fold ≠ 0
    · rw [if_pos hf, if_pos (by exact hf)]
      unfold newTime
      cases checkTimeFields a.h a.mi a.s a.us 0 with
      | ok _ => rfl
      | error e => rfl
    · rw [if_neg hf, if_neg (by exact hf)]
      rfl
  · unfold clockIso timeIso
    rw [clockOffset_none hp]
    rfl
  · unfold clockBadi
    rw [clockOffset_none hp]
    rfl

example : NoOffset (some summerZone) ∧ NoOffset none :=
  ⟨by rintro z ⟨⟩; rfl, by rintro z ⟨⟩⟩

theorem clockCmp_mixed {a b : TimeObj} {p q : Option ClockZone} {o : ℤ}
    (h : Ahead p o ∧ NoOffset q ∨ NoOffset p ∧ Ahead q o) (hs : Apart p q) (m : Bool) :
    clockCmp a p b q m = if m then .ok 2 else .error .type := by
  unfold clockCmp
  rcases h with ⟨h1, h2⟩ | ⟨h1, h2⟩
  · rw [sameClockZone_apart hs (by obtain ⟨z, rfl, -⟩ := h1; simp), clockOffset_ahead h1, clockOffset_none h2]
    rfl
  · rw [sameClockZone_apart hs (by obtain ⟨z, rfl, -⟩ := h2; simp), clockOffset_none h1, clockOffset_ahead h2]
    rfl

/-- C114: a time with an offset and one without, be it for want of a zone or of an answer, are not equal, and cannot be ordered.
Missing from the full property: `<=`, which answers (below). -/
theorem C114_mixed_partial (a b : TimeObj) (p q : Option ClockZone) (o : ℤ)
    (h : Ahead p o ∧ NoOffset q ∨ NoOffset p ∧ Ahead q o) (hs : Apart p q) :
    clockEq a p b q = .ok false ∧ clockLt a p b q = .error .type ∧ clockGt a p b q = .error .type ∧
    clockGe a p b q = .error .type := by
  unfold clockEq clockLt clockGt clockGe
  simp only [clockCmp_mixed h hs]
  exact ⟨rfl, rfl, rfl, rfl⟩

/-- C114 is false for `<=`, which does not raise: it answers False, both ways round. -/
theorem C114_mixed_le_negation (a b : TimeObj) (p q : Option ClockZone) (o : ℤ)
    (h : Ahead p o ∧ NoOffset q ∨ NoOffset p ∧ Ahead q o) (hs : Apart p q) : clockLe a p b q = .ok false := by
  unfold clockLe
  rw [clockCmp_mixed h hs]
  rfl

example : Ahead (some (aheadZone 4 3600000000)) 3600000000 ∧ NoOffset (some summerZone) ∧
    Apart (some (aheadZone 4 3600000000)) (some summerZone) :=
  ⟨⟨_, rfl, rfl, by norm_num, by norm_num⟩, by rintro z ⟨⟩; rfl, by rintro z w ⟨⟩ ⟨⟩; decide⟩

/-- C114, exceptions: if the zone raises, or its offset is a day or more, a comparison with a time of another zone raises that
exception, from the left operand if both do, and so do the hash and the text. -/
theorem C114_raises (H : PyHash) (a b : TimeObj) (p q : Option ClockZone) (e : PyErr) (hs : Apart p q)
    (h : ZoneRaises p e ∨ (∀ e', ¬ ZoneRaises p e') ∧ ZoneRaises q e) :
    (clockEq a p b q = .error e ∧ clockLt a p b q = .error e ∧ clockLe a p b q = .error e ∧ clockGt a p b q = .error e ∧
      clockGe a p b q = .error e) ∧
    (ZoneRaises p e → ValidTime a → clockHash H a p = .error e ∧ clockIso a p = .error e ∧ clockBadi p = .error e) := by
  have hc : ∀ m, clockCmp a p b q m = .error e := by
    intro m
    unfold clockCmp
    rcases h with h1 | ⟨h1, h2⟩
    · rw [sameClockZone_apart hs (by obtain ⟨z, rfl, -⟩ := h1; simp), clockOffset_raises h1]
      rfl
    · rw [sameClockZone_apart hs (by obtain ⟨z, rfl, -⟩ := h2; simp), clockOffset_raises h2]
      have ok : ∃ x, clockOffset p = .ok x := by
        cases p with
        | none => exact ⟨_, rfl⟩
        | some z =>
          cases ho : z.off with
          | error e' => exact absurd ⟨z, rfl, Or.inl ho⟩ (h1 e')
          | ok o => cases o with
            | none => exact ⟨_, clockOffset_none (by rintro w ⟨⟩; exact ho)⟩
            | some o =>
              by_cases v : ValidOff o
              · exact ⟨_, clockOffset_ahead ⟨z, rfl, ho, v⟩⟩
              · exact absurd ⟨z, rfl, Or.inr ⟨rfl, o, ho, v⟩⟩ (h1 .value)
      obtain ⟨x, ex⟩ := ok
      rw [ex]
      rfl
  refine ⟨?_, fun h1 v => ?_⟩
  · unfold clockEq clockLt clockLe clockGt clockGe
    simp only [hc]
    exact ⟨rfl, rfl, rfl, rfl, rfl⟩
  · refine ⟨?_, ?_, ?_⟩
    · rw [timeHashBytes_any H v, clockOffset_raises h1]
      rfl
    · unfold clockIso
      rw [clockOffset_raises h1]
      rfl
    · unfold clockBadi
      rw [clockOffset_raises h1]
      rfl

example : ZoneRaises (some dateZone) .attribute ∧ ZoneRaises (some (aheadZone 6 86400000000)) .value ∧
    Apart (some dateZone) (some (aheadZone 6 86400000000)) :=
  ⟨⟨_, rfl, Or.inl rfl⟩, ⟨_, rfl, Or.inr ⟨rfl, _, rfl, by unfold ValidOff; norm_num⟩⟩, by rintro z w ⟨⟩ ⟨⟩; decide⟩

/-- C114: with one zone object the zone is not asked, and the clocks are compared, even if the zone would raise. -/
theorem C114_same_object (a b : TimeObj) (z w : ClockZone) (h : z.id = w.id) :
    ClockAnswers a (some z) b (some w) (EarlierClock a b) (SameClock a b) :=
  clockAnswers_of (fun m => by
    unfold clockCmp
    rw [if_pos (by simp [sameClockZone, h])]) (lt4 ..) (eq4 ..)

example : dateZone.id = dateZone.id := rfl

/-- Hence equal times need not have hashes: a time is equal to itself, and its hash raises, when its zone does. -/
theorem C114_unhashable_negation (H : PyHash) (a : TimeObj) (v : ValidTime a) (z : ClockZone) (e : PyErr)
    (h : ZoneRaises (some z) e) : clockEq a (some z) a (some z) = .ok true ∧ clockHash H a (some z) = .error e := by
  constructor
  · obtain ⟨l, b, -, hb, -, -, e, -⟩ := C114_same_object a a z z rfl
    rw [e, hb.mpr ⟨rfl, rfl, rfl, rfl⟩]
  · rw [timeHashBytes_any H v, clockOffset_raises h]
    rfl

example : ZoneRaises (some dateZone) .attribute ∧ ValidTime ⟨12, 0, 0, 0, none, 1⟩ :=
  ⟨⟨_, rfl, Or.inl rfl⟩, by constructor <;> simp⟩

/-- C114, hashes: equal times have equal hashes, if the offsets are whole minutes and a time with offset zero does not have
hour 24. Missing from the full property: those two cases, in which C15 proves it false for the zones of the library. -/
theorem C114_hash_partial (H : PyHash) (a b : TimeObj) (p q : Option ClockZone) (va : ValidTime a) (vb : ValidTime b)
    (hs : Apart p q)
    (hp : NoOffset p ∨ ∃ x, Ahead p x ∧ x % 60000000 = 0 ∧ (x = 0 → a.h ≤ 23))
    (hq : NoOffset q ∨ ∃ y, Ahead q y ∧ y % 60000000 = 0 ∧ (y = 0 → b.h ≤ 23))
    (h : clockEq a p b q = .ok true) : clockHash H a p = clockHash H b q ∧ ∃ n, clockHash H a p = .ok n := by
  rw [timeHashBytes_any H va, timeHashBytes_any H vb]
  rcases hp with hp | ⟨x, hp, mx, zx⟩ <;> rcases hq with hq | ⟨y, hq, my, zy⟩
  · obtain ⟨⟨l, e, -, he, -, -, p1, -⟩, -⟩ := C114_no_offset H a b p q hp hq
    rw [p1] at h
    injection h with h
    obtain ⟨h1, h2, h3, h4⟩ := he.mp h
    rw [clockOffset_none hp, clockOffset_none hq]
    simp only [h1, h2, h3, h4]
    exact ⟨rfl, _, rfl⟩
  · rw [(C114_mixed_partial a b p q y (Or.inr ⟨hp, hq⟩) hs).1] at h
    cases h
  · rw [(C114_mixed_partial a b p q x (Or.inl ⟨hp, hq⟩) hs).1] at h
    cases h
  · set k := a.h * 60 + a.mi - x / 60000000 with hk
    have eqs : k = b.h * 60 + b.mi - y / 60000000 ∧ a.s = b.s ∧ a.us = b.us ∧ (x = y → a.h = b.h ∧ a.mi = b.mi) := by
      unfold clockEq at h
      rw [clockCmp_offsets (clockOffset_ahead hp) (clockOffset_ahead hq) a b true (fun h => by
        rw [sameClockZone_apart hs (by obtain ⟨z, rfl, -⟩ := hp; simp)] at h; cases h)] at h
      unfold timeCmpOff at h
      by_cases ho : x = y
      · rw [if_pos (by rw [ho])] at h
        have : tupleCmp [a.h, a.mi, a.s, a.us] [b.h, b.mi, b.s, b.us] = 0 := by simpa [Except.map] using h
        obtain ⟨h1, h2, h3, h4⟩ := (eq4 ..).mp this
        refine ⟨by rw [hk, h1, h2, ho], h3, h4, fun _ => ⟨h1, h2⟩⟩
      · rw [if_neg (fun h => ho (by injection h))] at h
        have : tupleCmp [a.h * 60 + a.mi - x / 60000000, a.s, a.us] [b.h * 60 + b.mi - y / 60000000, b.s, b.us] = 0 := by
          simpa [Except.map] using h
        obtain ⟨h1, h2, h3⟩ := (eq3 ..).mp this
        exact ⟨h1, h2, h3, fun e => absurd e ho⟩
    obtain ⟨e1, e2, e3, -⟩ := eqs
    have norm : ∀ (t : TimeObj) (o : ℤ), ValidTime t → o % 60000000 = 0 → (o = 0 → t.h ≤ 23) →
        (if o = 0 then (.ok (H.bytes [t.h, t.mi, t.s, t.us / 256 / 256, t.us / 256 % 256, t.us % 256]) : Py ℤ)
          else timeHashOff H t o) =
        .ok (if 0 ≤ (t.h * 60 + t.mi - o / 60000000) / 60 ∧ (t.h * 60 + t.mi - o / 60000000) / 60 < 24 then
          H.bytes [(t.h * 60 + t.mi - o / 60000000) / 60, (t.h * 60 + t.mi - o / 60000000) % 60, t.s,
            t.us / 256 / 256, t.us / 256 % 256, t.us % 256]
          else H.tuple [(t.h * 60 + t.mi - o / 60000000) / 60, (t.h * 60 + t.mi - o / 60000000) % 60, t.s, t.us]) := by
      intro t o v m z
      by_cases h0 : o = 0
      · have := z h0
        obtain ⟨a0, a1, a2, a3, a4, a5, a6, a7, -⟩ := v
        subst h0
        rw [if_pos rfl, if_pos (by omega)]
        have q1 : (t.h * 60 + t.mi - 0 / 60000000) / 60 = t.h := by omega
        have q2 : (t.h * 60 + t.mi - 0 / 60000000) % 60 = t.mi := by omega
        rw [q1, q2]
      · rw [if_neg h0, timeHashOff_ok H v m]
    rw [clockOffset_ahead hp, clockOffset_ahead hq]
    have na := norm a x va mx zx
    have nb := norm b y vb my zy
    refine ⟨na.trans (Eq.trans ?_ nb.symm), _, na⟩
    rw [← hk, ← e1, e2, e3]

example : clockEq ⟨13, 0, 0, 0, none, 0⟩ (some (aheadZone 4 3600000000)) ⟨12, 0, 0, 0, none, 1⟩ (some (aheadZone 5 0)) = .ok true ∧
    clockEq ⟨13, 0, 0, 0, none, 0⟩ (some summerZone) ⟨13, 0, 0, 0, none, 1⟩ none = .ok true := by decide

/-- C114: with one zone object equal times have the same hash, or both raise the same exception, whatever the zone answers. -/
theorem C114_hash_same_object (H : PyHash) (a b : TimeObj) (z : ClockZone) (va : ValidTime a) (vb : ValidTime b)
    (h : clockEq a (some z) b (some z) = .ok true) : clockHash H a (some z) = clockHash H b (some z) := by
  obtain ⟨l, e, -, he, -, -, p1, -⟩ := C114_same_object a b z z rfl
  rw [p1] at h
  injection h with h
  obtain ⟨h1, h2, h3, h4⟩ := he.mp h
  rw [timeHashBytes_any H va, timeHashBytes_any H vb]
  simp only [timeHashOff, h1, h2, h3, h4]

example : clockEq ⟨24, 0, 0, 0, none, 0⟩ (some (aheadZone 4 30000000)) ⟨24, 0, 0, 0, none, 1⟩ (some (aheadZone 4 30000000)) =
    .ok true := by decide

end Verif
