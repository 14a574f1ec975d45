import Verif.Spec.Time
import Verif.Lemmas.DateObj

/-!
# Properties C15, C17, C23, C24 and C51 for `time` objects
-/

namespace Verif

theorem checkTimeFields_ok {h mi s us fold : ℤ} (h0 : 0 ≤ h ∧ h < 25) (h1 : 0 ≤ mi ∧ mi < 60) (h2 : 0 ≤ s ∧ s < 61)
    (h3 : 0 ≤ us ∧ us < 1000000) (h4 : fold = 0 ∨ fold = 1) : checkTimeFields h mi s us fold = .ok () := by
  unfold checkTimeFields
  rw [pyAssert_true h0, pyOk_bind, pyAssert_true h1, pyOk_bind, pyAssert_true h2, pyOk_bind, pyAssert_true h3,
    pyOk_bind, pyAssert_true h4]

theorem checkTimeFields_inv {h mi s us fold : ℤ} (hh : checkTimeFields h mi s us fold = .ok ()) :
    (0 ≤ h ∧ h < 25) ∧ (0 ≤ mi ∧ mi < 60) ∧ (0 ≤ s ∧ s < 61) ∧ (0 ≤ us ∧ us < 1000000) ∧ (fold = 0 ∨ fold = 1) := by
  unfold checkTimeFields at hh
  by_cases h0 : 0 ≤ h ∧ h < 25
  swap; · rw [pyAssert_false h0, pyErr_bind] at hh; cases hh
  rw [pyAssert_true h0, pyOk_bind] at hh
  by_cases h1 : 0 ≤ mi ∧ mi < 60
  swap; · rw [pyAssert_false h1, pyErr_bind] at hh; cases hh
  rw [pyAssert_true h1, pyOk_bind] at hh
  by_cases h2 : 0 ≤ s ∧ s < 61
  swap; · rw [pyAssert_false h2, pyErr_bind] at hh; cases hh
  rw [pyAssert_true h2, pyOk_bind] at hh
  by_cases h3 : 0 ≤ us ∧ us < 1000000
  swap; · rw [pyAssert_false h3, pyErr_bind] at hh; cases hh
  rw [pyAssert_true h3, pyOk_bind] at hh
  by_cases h4 : fold = 0 ∨ fold = 1
  swap; · rw [pyAssert_false h4] at hh; cases hh
  exact ⟨h0, h1, h2, h3, h4⟩

theorem checkTimeFields_err {h mi s us fold : ℤ}
    (hh : ¬ ((0 ≤ h ∧ h < 25) ∧ (0 ≤ mi ∧ mi < 60) ∧ (0 ≤ s ∧ s < 61) ∧ (0 ≤ us ∧ us < 1000000) ∧
      (fold = 0 ∨ fold = 1))) : checkTimeFields h mi s us fold = .error .assertion := by
  unfold checkTimeFields
  by_cases h0 : 0 ≤ h ∧ h < 25
  swap; · rw [pyAssert_false h0, pyErr_bind]
  rw [pyAssert_true h0, pyOk_bind]
  by_cases h1 : 0 ≤ mi ∧ mi < 60
  swap; · rw [pyAssert_false h1, pyErr_bind]
  rw [pyAssert_true h1, pyOk_bind]
  by_cases h2 : 0 ≤ s ∧ s < 61
  swap; · rw [pyAssert_false h2, pyErr_bind]
  rw [pyAssert_true h2, pyOk_bind]
  by_cases h3 : 0 ≤ us ∧ us < 1000000
  swap; · rw [pyAssert_false h3, pyErr_bind]
  rw [pyAssert_true h3, pyOk_bind]
  by_cases h4 : fold = 0 ∨ fold = 1
  swap; · rw [pyAssert_false h4]
  exact absurd ⟨h0, h1, h2, h3, h4⟩ hh

/-- C51. The constructor accepts exactly the valid times, unchanged, and refuses the others with
AssertionError. -/
theorem C51_time_accepts (t : TimeObj) :
    (ValidTime t → newTime t = .ok t) ∧ (¬ ValidTime t → newTime t = .error .assertion) := by
  unfold newTime
  constructor
  · rintro ⟨h0, h1, m0, m1, s0, s1, u0, u1, f⟩
    rw [checkTimeFields_ok ⟨h0, by omega⟩ ⟨m0, by omega⟩ ⟨s0, by omega⟩ ⟨u0, by omega⟩ f, pyOk_bind]
  · intro h
    rw [checkTimeFields_err, pyErr_bind]
    rintro ⟨⟨a0, a1⟩, ⟨b0, b1⟩, ⟨c0, c1⟩, ⟨d0, d1⟩, f⟩
    exact h ⟨a0, by omega, b0, by omega, c0, by omega, d0, by omega, f⟩

example : ValidTime ⟨24, 0, 60, 999999, none, 1⟩ ∧ ¬ ValidTime ⟨24, 60, 0, 0, none, 0⟩ := by
  refine ⟨by constructor <;> decide, fun h => ?_⟩
  have := h.mi1
  simp at this

theorem newTime_ok {t : TimeObj} (h : ValidTime t) : newTime t = .ok t := (C51_time_accepts t).1 h

theorem newTime_inv {t u : TimeObj} (h : newTime t = .ok u) : u = t ∧ ValidTime t := by
  by_cases hv : ValidTime t
  · rw [newTime_ok hv] at h
    injection h with h
    exact ⟨h.symm, hv⟩
  · rw [(C51_time_accepts t).2 hv] at h; cases h

/-! ## C24: comparison -/

theorem checkOffset_ok {off : ℤ} (h : ValidOff off) : checkOffset off = .ok () := by
  unfold checkOffset usPerDay
  exact if_pos h

theorem utcOffset_some {z : Tz} (h : ValidOff z.off) : utcOffset (some z) = .ok (some z.off) := by
  unfold utcOffset
  simp only []
  rw [checkOffset_ok h, pyOk_bind]

theorem timeCmp_same {a b : TimeObj} {mixed : Bool} (h : SameOffset a.tz b.tz) :
    timeCmp a b mixed = .ok (tupleCmp [a.h, a.mi, a.s, a.us] [b.h, b.mi, b.s, b.us]) := by
  unfold timeCmp
  by_cases hz : a.tz = b.tz
  · rw [if_pos hz]
  · rw [if_neg hz]
    revert h hz
    cases a.tz with
    | none => cases b.tz with
      | none => intro _ h; exact absurd rfl h
      | some w => intro h; exact h.elim
    | some z => cases b.tz with
      | none => intro h; exact h.elim
      | some w =>
        rintro ⟨h1, h2⟩ -
        rw [utcOffset_some h2, pyOk_bind, utcOffset_some (h1 ▸ h2), pyOk_bind]
        unfold timeCmpOff
        rw [h1, if_pos rfl]

theorem lt4 (a b c d a' b' c' d' : ℤ) : tupleCmp [a, b, c, d] [a', b', c', d'] < 0 ↔
    a < a' ∨ a = a' ∧ (b < b' ∨ b = b' ∧ (c < c' ∨ c = c' ∧ d < d')) := by
  simp only [tupleCmp]
  split_ifs <;> omega

theorem eq4 (a b c d a' b' c' d' : ℤ) : tupleCmp [a, b, c, d] [a', b', c', d'] = 0 ↔
    a = a' ∧ b = b' ∧ c = c' ∧ d = d' := by
  rw [tupleCmp_eq_zero]
  simp

theorem eq3 (a b c a' b' c' : ℤ) : tupleCmp [a, b, c] [a', b', c'] = 0 ↔ a = a' ∧ b = b' ∧ c = c' := by
  rw [tupleCmp_eq_zero]
  simp

theorem tlt3 (a b c a' b' c' : ℤ) : tupleCmp [a, b, c] [a', b', c'] < 0 ↔
    a < a' ∨ a = a' ∧ (b < b' ∨ b = b' ∧ c < c') := by
  simp only [tupleCmp]
  split_ifs <;> omega

/-- What the five operators answer when the comparison is a number. -/
def CmpAnswers (a b : TimeObj) (lt eq : Prop) : Prop :=
  ∃ bl be : Bool, (bl = true ↔ lt) ∧ (be = true ↔ eq) ∧ (lt → ¬ eq) ∧ timeLt a b = .ok bl ∧ timeEq a b = .ok be ∧
    timeLe a b = .ok (bl || be) ∧ timeGt a b = .ok (!(bl || be)) ∧ timeGe a b = .ok (!bl)

theorem cmpAnswers_of {a b : TimeObj} {l r : List ℤ} {lt eq : Prop} (h : ∀ m, timeCmp a b m = .ok (tupleCmp l r))
    (hl : tupleCmp l r < 0 ↔ lt) (he : tupleCmp l r = 0 ↔ eq) : CmpAnswers a b lt eq := by
  refine ⟨decide (tupleCmp l r < 0), tupleCmp l r == 0, by simp [hl], by simp [he], ?_, ?_⟩
  · intro h1 h2
    have := hl.mpr h1
    have := he.mpr h2
    omega
  unfold timeLt timeEq timeLe timeGt timeGe
  simp only [h]
  rcases tupleCmp_range l r with hc | hc | hc <;> rw [hc] <;> decide

/-- C24. Times without zones, or with equal offsets: the five operators answer; `<` is the lexicographic order
on the clock fields, `==` is equality of the clock fields, the other three follow. -/
theorem C24_same_offset (a b : TimeObj) (h : SameOffset a.tz b.tz) :
    CmpAnswers a b (EarlierClock a b) (SameClock a b) :=
  cmpAnswers_of (fun _ => timeCmp_same h) (lt4 ..) (eq4 ..)

example : SameOffset (some ⟨1, 12600000000⟩) (some ⟨2, 12600000000⟩) := ⟨rfl, by constructor <;> norm_num⟩

/-- C24. The order is total: of two times one is earlier, or they agree; and it is transitive. -/
theorem C24_total (a b c : TimeObj) (hab : SameOffset a.tz b.tz) (hbc : SameOffset b.tz c.tz) :
    (timeLt a b = .ok true ∨ timeEq a b = .ok true ∨ timeGt a b = .ok true) ∧
    (timeLt a b = .ok true → timeLt b c = .ok true → timeLt a c = .ok true) := by
  have hac : SameOffset a.tz c.tz := by
    revert hab hbc
    cases a.tz <;> cases b.tz <;> cases c.tz <;> simp only [SameOffset] <;> try tauto
    rintro ⟨h1, h2⟩ ⟨h3, h4⟩
    exact ⟨h1.trans h3, h2⟩
  obtain ⟨l1, e1, hl1, he1, -, p1, p2, -, p4, -⟩ := C24_same_offset a b hab
  obtain ⟨l2, e2, hl2, he2, -, q1, -⟩ := C24_same_offset b c hbc
  obtain ⟨l3, e3, hl3, he3, -, r1, -⟩ := C24_same_offset a c hac
  rw [p1, p2, p4, q1, r1]
  constructor
  · cases l1 <;> cases e1 <;> simp
  · intro h1 h2
    injection h1 with h1
    injection h2 with h2
    have x1 := hl1.mp h1
    have x2 := hl2.mp h2
    rw [hl3.mpr]
    unfold EarlierClock at *
    omega

example : timeLt ⟨23, 59, 59, 999999, none, 0⟩ ⟨24, 0, 0, 0, none, 0⟩ = .ok true := by decide

/-- C24, different offsets: the order is that of the times adjusted by the offsets, if the offsets are whole
minutes and no second is 60. Missing from the full property: other offsets (`C24_second_offset_negation`) and
leap seconds. -/
theorem C24_offsets_partial (a b : TimeObj) (z w : Tz) (ha : a.tz = some z) (hb : b.tz = some w)
    (va : ValidTime a) (vb : ValidTime b) (sa : a.s ≤ 59) (sb : b.s ≤ 59)
    (hz : ValidOff z.off) (hw : ValidOff w.off) (mz : z.off % 60000000 = 0) (mw : w.off % 60000000 = 0) :
    CmpAnswers a b (utcMicro a z.off < utcMicro b w.off) (utcMicro a z.off = utcMicro b w.off) := by
  obtain ⟨a0, a1, a2, a3, a4, a5, a6, a7, -⟩ := va
  obtain ⟨b0, b1, b2, b3, b4, b5, b6, b7, -⟩ := vb
  by_cases ho : z.off = w.off
  · have hs : SameOffset a.tz b.tz := by rw [ha, hb]; exact ⟨ho, hz⟩
    refine cmpAnswers_of (fun _ => timeCmp_same hs) ?_ ?_
    · rw [lt4]; unfold utcMicro; omega
    · rw [eq4]; unfold utcMicro; omega
  · have hc : ∀ m, timeCmp a b m = .ok (tupleCmp [a.h * 60 + a.mi - z.off / 60000000, a.s, a.us]
        [b.h * 60 + b.mi - w.off / 60000000, b.s, b.us]) := by
      intro m
      unfold timeCmp
      rw [ha, hb, if_neg (fun h => ho (by injection h with h; rw [h])), utcOffset_some hz, pyOk_bind,
        utcOffset_some hw, pyOk_bind]
      unfold timeCmpOff
      rw [if_neg (fun h => ho (by injection h))]
    refine cmpAnswers_of hc ?_ ?_
    · rw [tlt3]; unfold utcMicro; omega
    · rw [eq3]; unfold utcMicro; omega

example : ValidTime ⟨1, 30, 0, 0, some ⟨1, 12600000000⟩, 0⟩ ∧ ValidOff 12600000000 ∧ (12600000000 : ℤ) % 60000000 = 0 :=
  ⟨by constructor <;> decide, by constructor <;> norm_num, by norm_num⟩

/-- C24 is false for offsets that are not whole minutes: seconds of the offset are ignored. Two offsets in the
same minute make no difference to the comparison. -/
theorem C24_second_offset_negation (a b : TimeObj) (z w : Tz) (ha : a.tz = some z) (hb : b.tz = some w)
    (hz : ValidOff z.off) (hw : ValidOff w.off) (hne : z.off ≠ w.off) (hm : z.off / 60000000 = w.off / 60000000)
    (hc : SameClock a b) : timeEq a b = .ok true ∧ utcMicro a z.off ≠ utcMicro b w.off := by
  obtain ⟨h1, h2, h3, h4⟩ := hc
  constructor
  · unfold timeEq timeCmp
    rw [ha, hb, if_neg (fun h => hne (by injection h with h; rw [h])), utcOffset_some hz, pyOk_bind,
      utcOffset_some hw, pyOk_bind]
    unfold timeCmpOff
    rw [if_neg (fun h => hne (by injection h))]
    simp only [hm, h1, h2, h3, h4, tupleCmp_self]
    rfl
  · unfold utcMicro; omega

example : ValidOff 0 ∧ ValidOff 30000000 ∧ (0 : ℤ) ≠ 30000000 ∧ (0 : ℤ) / 60000000 = 30000000 / 60000000 :=
  ⟨by constructor <;> norm_num, by constructor <;> norm_num, by norm_num, by norm_num⟩

theorem timeCmp_mixed {a b : TimeObj} {mixed : Bool} {z : Tz} (hz : ValidOff z.off)
    (h : a.tz = some z ∧ b.tz = none ∨ a.tz = none ∧ b.tz = some z) :
    timeCmp a b mixed = if mixed then .ok 2 else .error .type := by
  rcases h with ⟨h1, h2⟩ | ⟨h1, h2⟩
  all_goals
    unfold timeCmp
    rw [h1, h2, if_neg (by simp), utcOffset_some hz]
    unfold utcOffset
    simp only [pyOk_bind]
    unfold timeCmpOff
    rw [if_neg (by simp)]

/-- C24. A time without a zone is unequal to one with a zone; `<`, `>` and `>=` raise TypeError. -/
theorem C24_mixed_partial (a b : TimeObj) (z : Tz) (hz : ValidOff z.off)
    (h : a.tz = some z ∧ b.tz = none ∨ a.tz = none ∧ b.tz = some z) :
    timeEq a b = .ok false ∧ timeLt a b = .error .type ∧ timeGt a b = .error .type ∧ timeGe a b = .error .type := by
  unfold timeEq timeLt timeGt timeGe
  simp only [timeCmp_mixed hz h]
  exact ⟨rfl, rfl, rfl, rfl⟩

example : ValidOff (-3600000000) := by constructor <;> norm_num

/-- C24 is false for `<=`, which does not raise: it answers False, both ways round. -/
theorem C24_mixed_le_negation (a b : TimeObj) (z : Tz) (hz : ValidOff z.off)
    (h : a.tz = some z ∧ b.tz = none ∨ a.tz = none ∧ b.tz = some z) : timeLe a b = .ok false := by
  unfold timeLe
  rw [timeCmp_mixed hz h]
  rfl

example : ValidOff (-3600000000) := by constructor <;> norm_num

/-! ## C17: pickling -/

theorem pyBytes_ok {l : List ℤ} (h : ∀ x ∈ l, 0 ≤ x ∧ x < 256) : pyBytes l = .ok l := by
  unfold pyBytes
  exact if_pos h

/-- C17 for times with hours up to 23. Serialised with any protocol a time comes back with its fields and zone,
and above protocol 3 with its fold; up to protocol 3 the fold comes back as 0. Missing from the full property:
hour 24 (`C17_hour_24_negation`). -/
theorem C17_time_partial (t : TimeObj) (p : ℕ) (v : ValidTime t) (h : t.h ≤ 23) :
    timePickle t p = .ok { t with fold := if 3 < p then t.fold else 0 } := by
  obtain ⟨a0, a1, a2, a3, a4, a5, a6, a7, hf⟩ := v
  unfold timePickle timeState
  have hl : ∀ f : ℤ, f = 0 ∨ f = 128 → ∀ x ∈ [t.h + f, t.mi, t.s, t.us / 256 / 256, t.us / 256 % 256, t.us % 256],
      0 ≤ x ∧ x < 256 := by
    intro f hf x hx
    simp only [List.mem_cons, List.not_mem_nil, or_false] at hx
    omega
  have hu : (t.us / 256 / 256 * 256 + t.us / 256 % 256) * 256 + t.us % 256 = t.us := by omega
  by_cases hp : 3 < p
  · rcases hf with hf | hf
    · rw [if_neg (fun h => h.1 hf), pyBytes_ok (hl 0 (Or.inl rfl)), pyOk_bind]
      unfold timeOfBytes
      simp only
      rw [if_pos (by omega), if_neg (by omega), hu, if_pos hp, hf, add_zero]
    · rw [if_pos ⟨by rw [hf]; decide, hp⟩, pyBytes_ok (hl 128 (Or.inr rfl)), pyOk_bind]
      unfold timeOfBytes
      simp only
      rw [if_pos (by omega), if_pos (by omega), hu, if_pos hp, hf, add_sub_cancel_right]
  · rw [if_neg (fun h => hp h.2), pyBytes_ok (hl 0 (Or.inl rfl)), pyOk_bind]
    unfold timeOfBytes
    simp only
    rw [if_pos (by omega), if_neg (by omega), hu, if_neg hp, add_zero]

example : ValidTime ⟨23, 59, 60, 999999, some ⟨1, 12600000000⟩, 1⟩ := by constructor <;> decide

/-- C17 is false for hour 24: such a time does not come back, with any protocol. -/
theorem C17_hour_24_negation (t : TimeObj) (p : ℕ) (v : ValidTime t) (h : t.h = 24) :
    timePickle t p = .error .type := by
  obtain ⟨a0, a1, a2, a3, a4, a5, a6, a7, hf⟩ := v
  unfold timePickle timeState
  have hl : ∀ f : ℤ, f = 0 ∨ f = 128 → ∀ x ∈ [t.h + f, t.mi, t.s, t.us / 256 / 256, t.us / 256 % 256, t.us % 256],
      0 ≤ x ∧ x < 256 := by
    intro f hf x hx
    simp only [List.mem_cons, List.not_mem_nil, or_false] at hx
    omega
  have key : ∀ f : ℤ, f = 0 ∨ f = 128 → (t.h + f) % 128 = 24 := by intro f hf; omega
  have hff : (if t.fold ≠ 0 ∧ 3 < p then (128 : ℤ) else 0) = 0 ∨ (if t.fold ≠ 0 ∧ 3 < p then (128 : ℤ) else 0) = 128 := by
    split_ifs <;> simp
  rw [pyBytes_ok (hl _ hff), pyOk_bind]
  unfold timeOfBytes
  simp only
  rw [if_neg (by rw [key _ hff]; omega)]

example : ValidTime ⟨24, 0, 0, 0, none, 0⟩ ∧ newTime ⟨24, 0, 0, 0, none, 0⟩ = .ok ⟨24, 0, 0, 0, none, 0⟩ :=
  ⟨by constructor <;> decide, by decide⟩

/-! ## C23: replace -/

/-- `u` is `t` with the fields that `a` names replaced. -/
def TimeReplaced (a : TimeArgs) (t u : TimeObj) : Prop :=
  u.h = a.h.getD t.h ∧ u.mi = a.mi.getD t.mi ∧ u.s = a.s.getD t.s ∧ u.us = a.us.getD t.us ∧
    u.tz = a.tz.getD t.tz ∧ u.fold = a.fold.getD t.fold

/-- C23 for times. `replace` returns a time with the named fields changed and the others not, exactly when that
is a valid time; otherwise it raises AssertionError. -/
theorem C23_time_fields (t u : TimeObj) (a : TimeArgs) (h : TimeReplaced a t u) :
    (ValidTime u → replaceTime t a = .ok u) ∧ (¬ ValidTime u → replaceTime t a = .error .assertion) := by
  obtain ⟨h1, h2, h3, h4, h5, h6⟩ := h
  have : replaceTime t a = newTime u := by
    unfold replaceTime
    rw [← h1, ← h2, ← h3, ← h4, ← h5, ← h6]
  rw [this]
  exact C51_time_accepts u

example : TimeReplaced { h := some 0, tz := some none } ⟨5, 6, 7, 8, some ⟨1, 0⟩, 1⟩ ⟨0, 6, 7, 8, none, 1⟩ :=
  ⟨rfl, rfl, rfl, rfl, rfl, rfl⟩

/-- C23 for times. Replacing nothing, or fields by their own values, is the identity. -/
theorem C23_time_identity (t : TimeObj) (v : ValidTime t) (a : TimeArgs)
    (h : a.h ∈ [none, some t.h] ∧ a.mi ∈ [none, some t.mi] ∧ a.s ∈ [none, some t.s] ∧ a.us ∈ [none, some t.us] ∧
      a.tz ∈ [none, some t.tz] ∧ a.fold ∈ [none, some t.fold]) : replaceTime t a = .ok t := by
  have g : ∀ {α : Type} (x : Option α) (y : α), x ∈ [none, some y] → y = x.getD y := by
    intro α x y hx
    simp only [List.mem_cons, List.not_mem_nil, or_false] at hx
    rcases hx with rfl | rfl <;> rfl
  obtain ⟨h1, h2, h3, h4, h5, h6⟩ := h
  exact (C23_time_fields t t a ⟨g _ _ h1, g _ _ h2, g _ _ h3, g _ _ h4, g _ _ h5, g _ _ h6⟩).1 v

example : ValidTime ⟨24, 0, 60, 0, none, 1⟩ := by constructor <;> decide

/-- C23 for times. A later replacement that names every field an earlier one named overrides it. -/
theorem C23_time_override (t u : TimeObj) (a b : TimeArgs) (h : replaceTime t a = .ok u)
    (h1 : a.h ≠ none → b.h ≠ none) (h2 : a.mi ≠ none → b.mi ≠ none) (h3 : a.s ≠ none → b.s ≠ none)
    (h4 : a.us ≠ none → b.us ≠ none) (h5 : a.tz ≠ none → b.tz ≠ none) (h6 : a.fold ≠ none → b.fold ≠ none) :
    replaceTime u b = replaceTime t b := by
  have g : ∀ {α : Type} (x z : Option α) (y : α), (x ≠ none → z ≠ none) → z.getD (x.getD y) = z.getD y := by
    intro α x z y hx
    cases x with
    | none => rfl
    | some x =>
      cases z with
      | none => exact absurd rfl (hx (by simp))
      | some z => rfl
  unfold replaceTime at h
  rw [(newTime_inv h).1]
  unfold replaceTime
  simp only [g _ _ _ h1, g _ _ _ h2, g _ _ _ h3, g _ _ _ h4, g _ _ _ h5, g _ _ _ h6]

example : replaceTime ⟨5, 6, 7, 8, none, 0⟩ { h := some 0 } = .ok ⟨0, 6, 7, 8, none, 0⟩ := by decide

/-! ## C15: hashing -/

theorem timeState_ok {t : TimeObj} (v : ValidTime t) :
    timeState t 3 = .ok [t.h, t.mi, t.s, t.us / 256 / 256, t.us / 256 % 256, t.us % 256] := by
  obtain ⟨a0, a1, a2, a3, a4, a5, a6, a7, hf⟩ := v
  unfold timeState
  rw [if_neg (fun h => absurd h.2 (by omega)), add_zero, pyBytes_ok]
  intro x hx
  simp only [List.mem_cons, List.not_mem_nil, or_false] at hx
  omega

theorem timeHashBytes_ok (H : PyHash) {t : TimeObj} (v : ValidTime t) :
    timeHashBytes H t = .ok (H.bytes [t.h, t.mi, t.s, t.us / 256 / 256, t.us / 256 % 256, t.us % 256]) := by
  unfold timeHashBytes
  rw [timeState_ok v]
  rfl

theorem timeHash_eq (H : PyHash) {t : TimeObj} (v : ValidTime t) :
    timeHash H t = (utcOffset t.tz).bind fun off => match off with
      | none => .ok (H.bytes [t.h, t.mi, t.s, t.us / 256 / 256, t.us / 256 % 256, t.us % 256])
      | some z => if z = 0 then .ok (H.bytes [t.h, t.mi, t.s, t.us / 256 / 256, t.us / 256 % 256, t.us % 256])
          else timeHashOff H t z := by
  unfold timeHash
  have v0 : ValidTime { t with fold := 0 } :=
    ⟨v.h0, v.h1, v.mi0, v.mi1, v.s0, v.s1, v.us0, v.us1, Or.inl rfl⟩
  by_cases hf : t.fold ≠ 0
  · rw [if_pos hf, newTime_ok v0, pyOk_bind]
    simp only [timeHashBytes_ok H v0]
    rfl
  · rw [if_neg hf, pyOk_bind]
    simp only [timeHashBytes_ok H v]
    rfl

theorem utcOffset_valid {tz : Option Tz} (h : ∀ z, tz = some z → ValidOff z.off) :
    utcOffset tz = .ok (tz.map Tz.off) := by
  cases tz with
  | none => rfl
  | some z => exact utcOffset_some (h z rfl)

/-- The clock on which `time.__hash__` normalises, in minutes, hours floored. -/
theorem timeHashOff_ok (H : PyHash) {t : TimeObj} (v : ValidTime t) {off : ℤ} (hm : off % 60000000 = 0) :
    timeHashOff H t off =
      .ok (if 0 ≤ (t.h * 60 + t.mi - off / 60000000) / 60 ∧ (t.h * 60 + t.mi - off / 60000000) / 60 < 24 then
        H.bytes [(t.h * 60 + t.mi - off / 60000000) / 60, (t.h * 60 + t.mi - off / 60000000) % 60, t.s,
          t.us / 256 / 256, t.us / 256 % 256, t.us % 256]
        else H.tuple [(t.h * 60 + t.mi - off / 60000000) / 60, (t.h * 60 + t.mi - off / 60000000) % 60, t.s, t.us]) := by
  obtain ⟨a0, a1, a2, a3, a4, a5, a6, a7, hf⟩ := v
  unfold timeHashOff
  simp only
  have e1 : ((t.h * 60 + t.mi) * 60000000 - off) / 3600000000 = (t.h * 60 + t.mi - off / 60000000) / 60 := by omega
  have e2 : ((t.h * 60 + t.mi) * 60000000 - off) % 3600000000 / 60000000 =
    (t.h * 60 + t.mi - off / 60000000) % 60 := by omega
  rw [if_neg (by omega), e1, e2]
  by_cases hr : 0 ≤ (t.h * 60 + t.mi - off / 60000000) / 60 ∧ (t.h * 60 + t.mi - off / 60000000) / 60 < 24
  · rw [if_pos hr, if_pos hr]
    have v' : ValidTime ⟨(t.h * 60 + t.mi - off / 60000000) / 60, (t.h * 60 + t.mi - off / 60000000) % 60, t.s, t.us,
        none, 0⟩ := ⟨by simp only; omega, by simp only; omega, by simp only; omega, by simp only; omega, a4, a5, a6, a7, Or.inl rfl⟩
    rw [newTime_ok v', pyOk_bind, timeHashBytes_ok H v']
  · rw [if_neg hr, if_neg hr]

/-- C15, hashability of times: with no zone, or an offset of whole minutes, a time has a hash. -/
theorem C15_time_hashable (H : PyHash) (t : TimeObj) (v : ValidTime t)
    (hz : ∀ z, t.tz = some z → ValidOff z.off ∧ z.off % 60000000 = 0) : ∃ x, timeHash H t = .ok x := by
  rw [timeHash_eq H v, utcOffset_valid (fun z h => (hz z h).1)]
  cases h : t.tz with
  | none => exact ⟨_, rfl⟩
  | some z =>
    by_cases h0 : z.off = 0
    · exact ⟨_, if_pos h0⟩
    · refine ⟨_, (if_neg h0).trans (timeHashOff_ok H v (hz z h).2)⟩

example : ValidTime ⟨24, 0, 0, 0, some ⟨1, -3600000000⟩, 1⟩ ∧ ValidOff (-3600000000) ∧
    (-3600000000 : ℤ) % 60000000 = 0 :=
  ⟨by constructor <;> decide, by constructor <;> norm_num, by norm_num⟩

/-- C15 is false for other offsets: such a time is not hashable. -/
theorem C15_time_unhashable_negation (H : PyHash) (t : TimeObj) (v : ValidTime t) (z : Tz) (ht : t.tz = some z)
    (hz : ValidOff z.off) (hm : z.off % 60000000 ≠ 0) : timeHash H t = .error .assertion := by
  rw [timeHash_eq H v, ht, utcOffset_some hz]
  have : z.off ≠ 0 := by intro h; rw [h] at hm; exact hm rfl
  refine (if_neg this).trans ?_
  unfold timeHashOff
  simp only
  rw [if_pos (by omega)]

example : ValidTime ⟨12, 0, 0, 0, some ⟨1, 30000000⟩, 0⟩ ∧ ValidOff 30000000 ∧ (30000000 : ℤ) % 60000000 ≠ 0 :=
  ⟨by constructor <;> decide, by constructor <;> norm_num, by norm_num⟩

/-- C15 for times: equal times have equal hashes, if the offsets are whole minutes and a time with offset zero
does not have hour 24 (or the offsets are equal). Missing from the full property: `C15_time_hour_24_negation`
and `C15_time_unhashable_negation`. -/
theorem C15_time_partial (H : PyHash) (a b : TimeObj) (va : ValidTime a) (vb : ValidTime b)
    (ha : ∀ z, a.tz = some z → ValidOff z.off ∧ z.off % 60000000 = 0)
    (hb : ∀ z, b.tz = some z → ValidOff z.off ∧ z.off % 60000000 = 0)
    (h24 : SameOffset a.tz b.tz ∨ (∀ z, a.tz = some z → z.off = 0 → a.h ≤ 23) ∧ (∀ z, b.tz = some z → z.off = 0 → b.h ≤ 23))
    (h : timeEq a b = .ok true) : timeHash H a = timeHash H b := by
  rw [timeHash_eq H va, timeHash_eq H vb, utcOffset_valid (fun z h => (ha z h).1),
    utcOffset_valid (fun z h => (hb z h).1)]
  by_cases hs : SameOffset a.tz b.tz
  · obtain ⟨l, e, -, he, -, -, p, -⟩ := C24_same_offset a b hs
    rw [p] at h
    injection h with h
    obtain ⟨h1, h2, h3, h4⟩ := he.mp h
    have ho : a.tz.map Tz.off = b.tz.map Tz.off := by
      revert hs
      cases a.tz <;> cases b.tz <;> simp only [SameOffset] <;> try tauto
      rintro ⟨h, -⟩; simp [h]
    simp only [ho, timeHashOff, h1, h2, h3, h4]
  · obtain ⟨qa, qb⟩ := h24.resolve_left hs
    revert h
    cases eza : a.tz with
    | none =>
      cases ezb : b.tz with
      | none => rw [eza, ezb] at hs; exact absurd trivial hs
      | some w =>
        rw [(C24_mixed_partial a b w (hb w ezb).1 (Or.inr ⟨eza, ezb⟩)).1]
        intro h; cases h
    | some z =>
      cases ezb : b.tz with
      | none =>
        rw [(C24_mixed_partial a b z (ha z eza).1 (Or.inl ⟨eza, ezb⟩)).1]
        intro h; cases h
      | some w =>
        have ho : z.off ≠ w.off := fun h => hs (by rw [eza, ezb]; exact ⟨h, (ha z eza).1⟩)
        obtain ⟨hz, mz⟩ := ha z eza
        obtain ⟨hw, mw⟩ := hb w ezb
        intro h
        have hc : timeEq a b = .ok (tupleCmp [a.h * 60 + a.mi - z.off / 60000000, a.s, a.us]
            [b.h * 60 + b.mi - w.off / 60000000, b.s, b.us] == 0) := by
          unfold timeEq timeCmp
          rw [eza, ezb, if_neg (fun h => ho (by injection h with h; rw [h])), utcOffset_some hz, pyOk_bind,
            utcOffset_some hw, pyOk_bind]
          unfold timeCmpOff
          rw [if_neg (fun h => ho (by injection h))]
          rfl
        rw [hc] at h
        injection h with h
        obtain ⟨e1, e2, e3⟩ := (eq3 ..).mp (by simpa using h)
        have z0 := qa z eza
        have w0 := qb w ezb
        have k0 := va.h0; have k1 := va.h1; have k2 := va.mi0; have k3 := va.mi1
        have l0 := vb.h0; have l1 := vb.h1; have l2 := vb.mi0; have l3 := vb.mi1
        change (if z.off = 0 then _ else _) = (if w.off = 0 then _ else _)
        by_cases cz : z.off = 0
        · have cw : w.off ≠ 0 := fun h => ho (cz.trans h.symm)
          have hz0 := z0 cz
          rw [if_pos cz, if_neg cw, timeHashOff_ok H vb mw, ← e1, cz]
          have x1 : (a.h * 60 + a.mi - 0 / 60000000) / 60 = a.h := by omega
          have x2 : (a.h * 60 + a.mi - 0 / 60000000) % 60 = a.mi := by omega
          rw [x1, x2, if_pos (by omega), e2, e3]
        · by_cases cw : w.off = 0
          · have hw0 := w0 cw
            rw [if_neg cz, if_pos cw, timeHashOff_ok H va mz, e1, cw]
            have x1 : (b.h * 60 + b.mi - 0 / 60000000) / 60 = b.h := by omega
            have x2 : (b.h * 60 + b.mi - 0 / 60000000) % 60 = b.mi := by omega
            rw [x1, x2, if_pos (by omega), e2, e3]
          · rw [if_neg cz, if_neg cw, timeHashOff_ok H va mz, timeHashOff_ok H vb mw, e1, e2, e3]

example : timeEq ⟨12, 0, 0, 0, some ⟨0, 0⟩, 0⟩ ⟨15, 30, 0, 0, some ⟨1, 12600000000⟩, 0⟩ = .ok true ∧
    ValidTime ⟨15, 30, 0, 0, some ⟨1, 12600000000⟩, 0⟩ ∧ ValidOff 12600000000 ∧ (12600000000 : ℤ) % 60000000 = 0 :=
  ⟨by decide, by constructor <;> decide, by constructor <;> norm_num, by norm_num⟩

/-- C15 is false for hour 24 in UTC: the time equals 23:00 at offset -01:00, but the one is hashed as bytes and
the other as a tuple of numbers. -/
theorem C15_time_hour_24_negation (H : PyHash) (z w : Tz) (hz : z.off = 0) (hw : w.off = -3600000000)
    (hH : H.bytes [24, 0, 0, 0, 0, 0] ≠ H.tuple [24, 0, 0, 0]) :
    timeEq ⟨24, 0, 0, 0, some z, 0⟩ ⟨23, 0, 0, 0, some w, 0⟩ = .ok true ∧
    ∃ x y, timeHash H ⟨24, 0, 0, 0, some z, 0⟩ = .ok x ∧ timeHash H ⟨23, 0, 0, 0, some w, 0⟩ = .ok y ∧ x ≠ y := by
  obtain ⟨i, o⟩ := z
  obtain ⟨j, q⟩ := w
  simp only at hz hw
  subst hz hw
  have va : ValidTime ⟨24, 0, 0, 0, some ⟨i, 0⟩, 0⟩ := by constructor <;> simp
  have vb : ValidTime ⟨23, 0, 0, 0, some ⟨j, -3600000000⟩, 0⟩ := by constructor <;> simp
  have o1 : ValidOff (Tz.mk i 0).off := by constructor <;> norm_num
  have o2 : ValidOff (Tz.mk j (-3600000000)).off := by constructor <;> norm_num
  constructor
  · obtain ⟨l, e, -, he, -, -, p, -⟩ := C24_offsets_partial _ _ _ _ rfl rfl va vb (by simp) (by simp) o1 o2
      (by norm_num) (by norm_num)
    rw [p, he.mpr]
    unfold utcMicro
    norm_num
  · refine ⟨H.bytes [24, 0, 0, 0, 0, 0], H.tuple [24, 0, 0, 0], ?_, ?_, hH⟩
    · rw [timeHash_eq H va, utcOffset_some o1]; rfl
    · rw [timeHash_eq H vb, utcOffset_some o2]
      rfl

example : ([24, 0, 0, 0, 0, 0] : List ℤ) ≠ [24, 0, 0, 0] := by decide

end Verif
