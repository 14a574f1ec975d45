import Verif.Lemmas.SameDay
import Verif.Model.Clock
import Verif.Props.Convert

/-!
# Property C100: the constructors that take a timestamp agree
-/

namespace Verif

/-- The conversion of a timestamp with and without microseconds, by the day that it finds. -/
theorem stamp_fields (C : Cal) (jd lat lon : ℚ) :
    (∃ e, ∀ us short, C.badiDateFromJd jd lat lon { us := us, short := short, trim := !us } = .error e) ∨
    ∃ (k v w m d h mi a u : ℤ) (s : ℚ), 1 ≤ v ∧ v ≤ 19 ∧ 1 ≤ w ∧ w ≤ 19 ∧ 0 ≤ h ∧ h ≤ 24 ∧ 0 ≤ mi ∧ mi < 60 ∧
      0 ≤ a ∧ a ≤ 59 ∧ 0 ≤ u ∧ u ≤ 999999 ∧
      (∃ c : ℤ, C.cycleOf (longYear k v w) m = .ok c ∧ 0 ≤ m ∧ m ≤ 19 ∧ 1 ≤ d ∧ d < c) ∧
      ∀ us short, C.badiDateFromJd jd lat lon { us := us, short := short, trim := !us } =
        if short then (do
          let r ← shortRoll C (longYear k v w) m d h
          let h' : ℤ := if 24 ≤ h then 23 else h
          .ok (.short ⟨r.1, r.2.1, r.2.2, if us then [(h' : ℚ), (mi : ℚ), (a : ℚ), (u : ℚ)]
            else trimHms [(h' : ℚ), (mi : ℚ), s, 0]⟩))
        else .ok (.long ⟨k, v, w, m, d, if us then [(h : ℚ), (mi : ℚ), (a : ℚ), (u : ℚ)]
          else trimHms [(h : ℚ), (mi : ℚ), s]⟩) := by
  have hun : ∀ us short, C.badiDateFromJd jd lat lon { us := us, short := short, trim := !us } = (do
      let r ← C.badiYmdFromJd jd lat lon
      let f := hmsFromDecimalDay r.2.2.2
      let l ← C.longFromShort ⟨r.1, r.2.1, r.2.2.1, [(f.1 : ℚ), (f.2.1 : ℚ), f.2.2]⟩ true
      C.kvymdhmsFromBDate l us short (!us)) := by
    intro us short
    cases us <;> rfl
  simp only [hun]
  cases hr : C.badiYmdFromJd jd lat lon with
  | error e => exact Or.inl ⟨e, fun _ _ => rfl⟩
  | ok r =>
    obtain ⟨y, m, d, frac⟩ := r
    simp only [pyOk_bind]
    obtain ⟨h0, h1, mi0, mi1, s0, s1, -⟩ := hms_any frac
    obtain ⟨kk, hk⟩ := second_form (partialHourToMinute (partialDayToHours frac))
    have hk : (hmsFromDecimalDay frac).2.2 = fl ((kk : ℚ) / 1000000) := hk
    obtain ⟨a, u, hsm, a0, a1, u0, u1, -⟩ := secMicro_spec hk s0 s1
    set h := (hmsFromDecimalDay frac).1
    set mi := (hmsFromDecimalDay frac).2.1
    set s := (hmsFromDecimalDay frac).2.2
    unfold Cal.longFromShort
    simp only []
    have g : getHms [(h : ℚ), (mi : ℚ), s] = ((h : ℚ), (mi : ℚ), s, 0) := rfl
    simp only [g, if_true]
    set k := (kvyFromYear y).1
    set v := (kvyFromYear y).2.1
    set w := (kvyFromYear y).2.2
    cases hc : C.checkLong ⟨k, v, w, m, d, trimHms [(h : ℚ), (mi : ℚ), s, 0]⟩ with
    | error e => exact Or.inl ⟨e, fun _ _ => rfl⟩
    | ok _ =>
      right
      simp only [pyOk_bind]
      have hc' := hc
      unfold Cal.checkLong at hc'
      simp only [] at hc'
      by_cases q1 : kullishayMin - 1 ≤ k ∧ k ≤ kullishayMax + 1
      · by_cases q2 : 1 ≤ v ∧ v < 20
        · by_cases q3 : 1 ≤ w ∧ w < 20
          · rw [pyAssert_true q1, pyOk_bind, pyAssert_true q2, pyOk_bind, pyAssert_true q3, pyOk_bind] at hc'
            obtain ⟨m0, m1, ⟨c, hcy, d0, d1⟩, -⟩ := checkTail_inv hc'
            have d0 : 1 ≤ d := by exact_mod_cast d0
            have d1 : d < c := by exact_mod_cast d1
            have d2 : d ≤ 19 := by
              have := hcy
              unfold Cal.cycleOf at this
              split_ifs at this with hm
              · cases hl : C.isLeapYear (longYear k v w) with
                | error e => rw [hl] at this; cases this
                | ok l =>
                  rw [hl, pyOk_bind] at this
                  have := Except.ok.inj this
                  split_ifs at this <;> omega
              · have := Except.ok.inj this
                omega
            refine ⟨k, v, w, m, d, h, mi, a, u, s, q2.1, by omega, q3.1, by omega, h0, h1, mi0, mi1, a0, a1, u0, u1,
              ⟨c, hcy, m0, m1, d0, d1⟩, fun us short => ?_⟩
            exact kvymdhms_roll us short d0 d2 h0 h1 mi0 mi1 s0 s1 hsm a0 a1 u0 u1 hc
          · rw [pyAssert_true q1, pyOk_bind, pyAssert_true q2, pyOk_bind, pyAssert_false q3, pyErr_bind] at hc'
            cases hc'
        · rw [pyAssert_true q1, pyOk_bind, pyAssert_false q2, pyErr_bind] at hc'
          cases hc'
      · rw [pyAssert_false q1, pyErr_bind] at hc'
        cases hc'

theorem newDT_time {C : Cal} {d : DateObj} {h mi s us : ℤ} (tz : Option Tz) (h0 : 0 ≤ h) (h1 : h ≤ 24) (mi0 : 0 ≤ mi)
    (mi1 : mi < 60) (s0 : 0 ≤ s) (s1 : s ≤ 59) (u0 : 0 ≤ us) (u1 : us ≤ 999999) :
    C.newDT ⟨d, h, mi, s, us, tz, 0⟩ = (do
      let _ ← C.newDate d
      .ok ⟨d, h, mi, s, us, tz, 0⟩) := by
  unfold Cal.newDT checkTimeFields
  simp only []
  rw [pyAssert_true (by omega), pyAssert_true (by omega), pyAssert_true (by omega), pyAssert_true (by omega),
    pyAssert_true (by simp)]
  rfl

theorem newDate_same {C : Cal} {d x : DateObj} (h : C.newDate d = .ok x) : x = d := by
  cases d <;> (unfold Cal.newDate at h; simp only [] at h)
  case short y m d =>
    cases hc : C.checkShort ⟨y, m, d, []⟩ with
    | error e => rw [hc] at h; cases h
    | ok _ => rw [hc] at h; exact (Except.ok.inj h).symm
  case long k v y m d =>
    cases hc : C.checkLong ⟨k, v, y, m, d, []⟩ with
    | error e => rw [hc] at h; cases h
    | ok _ => rw [hc] at h; exact (Except.ok.inj h).symm

theorem newDate_map {C : Cal} {d : DateObj} (x : DT) (e : x.d = d) :
    Except.map DT.d (do let _ ← C.newDate d; (.ok x : Py DT)) = C.newDate d := by
  cases h : C.newDate d with
  | error e => rfl
  | ok y => rw [newDate_same h]; exact congrArg Except.ok e

/-! ## C100 -/

/-- C100, the date: for every number `t`, every place, every zone and either form, `date.fromtimestamp(t)` is the date of
`datetime.fromtimestamp(t)`, and one of them raises an exception exactly when the other does, with the same exception. The
sunsets and the table of the years are arbitrary. -/
theorem C100_same_day (C : Cal) (t lat lon : ℚ) (tz : Option Tz) (short : Bool) :
    (C.dtFromTimestamp t lat lon tz short).map DT.d = C.dateFromTimestamp t lat lon short := by
  unfold Cal.dtFromTimestamp Cal.dateFromTimestamp Cal.badiDateFromTimestamp
  rcases stamp_fields C (fl (fl (t / 86400) + 2440585.5)) lat lon with ⟨e, h⟩ |
    ⟨k, v, w, m, d, h, mi, a, u, s, v0, v1, w0, w1, h0, h1, mi0, mi1, a0, a1, u0, u1, -, hb⟩
  · have e1 := h true short
    have e2 := h false short
    simp only [Bool.not_true, Bool.not_false] at e1 e2
    rw [e1, e2]
    rfl
  · have e1 := hb true short
    have e2 := hb false short
    simp only [Bool.not_true, Bool.not_false, if_true, Bool.false_eq_true, if_false] at e1 e2
    rw [e1, e2]
    have a9 : min a 59 = a := by omega
    cases short
    · simp only [Bool.false_eq_true, if_false, pyOk_bind, Cal.dtOfTuple, Int.floor_intCast, a9, Cal.dateOfConversion]
      rw [newDT_time tz h0 h1 mi0 mi1 a0 a1 u0 u1]
      exact newDate_map _ rfl
    · simp only [if_true]
      cases shortRoll C (longYear k v w) m d h with
      | error e => rfl
      | ok r =>
        simp only [pyOk_bind, Cal.dtOfTuple, Int.floor_intCast, a9, Cal.dateOfConversion]
        rw [newDT_time tz (by split_ifs <;> omega) (by split_ifs <;> omega) mi0 mi1 a0 a1 u0 u1]
        exact newDate_map _ rfl

/-- C100, the clock: `today()` is the date of `now()` read at the same moment, in either form. -/
theorem C100_today (C : Cal) (loc : ℚ × ℚ × ℚ) (clock : ℚ) (short : Bool) :
    (C.now loc clock .none short).map DT.d = C.today loc clock short := by
  unfold Cal.now Cal.today Cal.fromTimestamp
  exact C100_same_day C clock _ _ _ short

/-- C100, the forms: when both forms of `datetime.fromtimestamp` return and the hour of the long form is not 24, they have
the same year, month, day and time. Missing from the full property: hour 24, where it is false, see
`C100_forms_negation`. -/
theorem C100_forms_partial (C : Cal) (t lat lon : ℚ) (tz : Option Tz) (x z : DT)
    (hx : C.dtFromTimestamp t lat lon tz true = .ok x) (hz : C.dtFromTimestamp t lat lon tz false = .ok z)
    (hh : z.h ≠ 24) :
    ∃ k v w y m d h mi s us : ℤ, DenotesYear k v w y ∧ x = ⟨.short y m d, h, mi, s, us, tz, 0⟩ ∧
      z = ⟨.long k v w m d, h, mi, s, us, tz, 0⟩ := by
  unfold Cal.dtFromTimestamp Cal.badiDateFromTimestamp at hx hz
  rcases stamp_fields C (fl (fl (t / 86400) + 2440585.5)) lat lon with ⟨e, h⟩ |
    ⟨k, v, w, m, d, h, mi, a, u, s, v0, v1, w0, w1, h0, h1, mi0, mi1, a0, a1, u0, u1, ⟨c, hcy, m0, m1, d0, d1⟩, hb⟩
  · have e1 := h true true
    simp only [Bool.not_true] at e1
    rw [e1] at hx
    cases hx
  · have e1 := hb true true
    have e2 := hb true false
    simp only [Bool.not_true, if_true, Bool.false_eq_true, if_false] at e1 e2
    rw [e1] at hx
    rw [e2] at hz
    have a9 : min a 59 = a := by omega
    simp only [pyOk_bind, Cal.dtOfTuple, Int.floor_intCast, a9] at hz
    rw [newDT_time tz h0 h1 mi0 mi1 a0 a1 u0 u1] at hz
    have hz' : z = ⟨.long k v w m d, h, mi, a, u, tz, 0⟩ := by
      cases hn : C.newDate (.long k v w m d) with
      | error e => rw [hn] at hz; cases hz
      | ok _ => rw [hn] at hz; exact (Except.ok.inj hz).symm
    have h24 : ¬ 24 ≤ h := by
      intro h2
      apply hh
      rw [hz']
      show h = 24
      omega
    have hroll : ∀ r, shortRoll C (longYear k v w) m d h = .ok r → r = (longYear k v w, m, d) := by
      intro r hr
      unfold shortRoll at hr
      rw [monthLen_of_cycle m0 m1 hcy, pyOk_bind] at hr
      simp only [if_neg h24, if_neg (show ¬ c - 1 < d by omega), if_neg (show ¬ 19 < m by omega)] at hr
      cases hc : C.checkShort ⟨longYear k v w, m, d, []⟩ with
      | error e => rw [hc] at hr; cases hr
      | ok _ => rw [hc] at hr; exact (Except.ok.inj hr).symm
    cases hr : shortRoll C (longYear k v w) m d h with
    | error e => rw [hr] at hx; cases hx
    | ok r =>
      rw [hr, hroll r hr] at hx
      simp only [pyOk_bind, Cal.dtOfTuple, Int.floor_intCast, a9, if_neg h24] at hx
      rw [newDT_time tz h0 h1 mi0 mi1 a0 a1 u0 u1] at hx
      refine ⟨k, v, w, longYear k v w, m, d, h, mi, a, u, ⟨v0, v1, w0, w1, by unfold longYear; ring⟩, ?_, hz'⟩
      cases hn : C.newDate (.short (longYear k v w) m d) with
      | error e => rw [hn] at hx; cases hx
      | ok _ => rw [hn] at hx; exact (Except.ok.inj hx).symm

/-- C100 is false for the forms at hour 24: with a sunset at six in the evening, half a millisecond before the sunset that
ends the last day of the first month, the long form is that day at 24:00:00 and the short form is the last day of the
second month at 23:00:00. -/
theorem C100_forms_negation :
    ∃ (A : Astro) (t : ℚ), TehranEvening A ∧ IsF64 t ∧
      (Cal.init A).dtFromTimestamp t tehranLat tehranLon none false = .ok ⟨.long 1 10 10 1 19, 24, 0, 0, 0, none, 0⟩ ∧
      (Cal.init A).dtFromTimestamp t tehranLat tehranLon none true = .ok ⟨.short 181 2 19, 23, 0, 0, 0, none, 0⟩ := by
  refine ⟨sixPm, fl ((1320920470840745 / 536870912 - 2440585.5) * 86400), sixPm_tehran, ?_⟩
  unfold IsF64
  decide +kernel

/-- Non-vacuity of `C100_same_day`: neither side is an exception. -/
example : (Cal.init sixPm).dateFromTimestamp 1763000000 tehranLat tehranLon true = .ok (.short 182 13 11) := by
  decide +kernel

/-- Non-vacuity of `C100_forms_partial`. -/
example : (Cal.init sixPm).dtFromTimestamp 1763000000 tehranLat tehranLon none true =
      .ok ⟨.short 182 13 11, 11, 38, 29, 288400, none, 0⟩ ∧
    (Cal.init sixPm).dtFromTimestamp 1763000000 tehranLat tehranLon none false =
      .ok ⟨.long 1 10 11 13 11, 11, 38, 29, 288400, none, 0⟩ := by
  decide +kernel

end Verif
