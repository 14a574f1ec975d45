import Verif.Model.PlainTuple
import Verif.Props.DateTimeNew
import Verif.Lemmas.Strftime

/-!
# C98: plain tuples as time tuples
-/

namespace Verif

/-- The first eight or ten fields of a struct, in the order of the tuple. -/
def Tup.list (t : Tup) : List ℤ :=
  if t.short then [t.year, t.mon, t.mday, t.hour, t.min, t.sec, t.wday, t.yday]
  else [t.k, t.v, t.year, t.mon, t.mday, t.hour, t.min, t.sec, t.wday, t.yday]

theorem structTimeOf_fields (C : Cal) (o : DateObj) (h mi s w yd f : ℤ) (z : Option TzInfo) :
    C.structTimeOf (o.fields ++ [h, mi, s, w, yd, f]) z = C.structTime o h mi s w yd f z := by
  cases o <;> rfl

theorem checktmPlain_fields (C : Cal) (o : DateObj) (h mi s w yd f : ℤ) :
    C.checktmPlain (o.fields ++ [h, mi, s, w, yd, f]) =
      (do C.checktm (tupOf o h mi s w yd); pyAssert (-1 ≤ f ∧ f ≤ 1)) := by
  cases o <;> rfl

/-- C98, `struct_time(t, tzinfo)`: a tuple of any length but 9 and 11 raises TypeError; a flag that is not -1, 0 or 1
raises ValueError; otherwise the tuple is accepted when its first fields are a day of the calendar and a time of day,
and AssertionError is raised when they are not. The struct has the fields of the tuple, and the flag of the tuple if
there is no zone. Missing from the full property: years outside -1843 to 1161 (C22), and the weekday and the day
of the year are not compared with the date, see the negation below. -/
theorem C98_struct_partial (A : Astro) (hE : TehranEvening A) (z : Option TzInfo) :
    (∀ t : List ℤ, t.length ≠ 9 → t.length ≠ 11 → (Cal.init A).structTimeOf t z = .error .type) ∧
    ∀ (o : DateObj) (y h mi s w yd f : ℤ), YearOf o y → -1843 ≤ y → y ≤ 1161 →
      (f < -1 ∨ 1 < f → (Cal.init A).structTimeOf (o.fields ++ [h, mi, s, w, yd, f]) z = .error .value) ∧
      (-1 ≤ f → f ≤ 1 → (¬ ∃ n, IsDay (Cal.init A) o n) ∨ ¬ ValidTime ⟨h, mi, s, 0, none, 0⟩ →
        (Cal.init A).structTimeOf (o.fields ++ [h, mi, s, w, yd, f]) z = .error .assertion) ∧
      (-1 ≤ f → f ≤ 1 → (∃ n, IsDay (Cal.init A) o n) → ValidTime ⟨h, mi, s, 0, none, 0⟩ →
        ∃ r, (Cal.init A).structTimeOf (o.fields ++ [h, mi, s, w, yd, f]) z = .ok r ∧
          r.tup.list = o.fields ++ [h, mi, s, w, yd] ∧ r.tup.short = o.isShort ∧
          (z = none → r.isdst = f ∧ r.zone = none ∧ r.gmtoff = none) ∧
          ∀ i, z = some i → r.isdst = i.dst.elim f (fun d => if d = 0 then 0 else 1) ∧
            r.zone = some (tzName i.zone)) := by
  refine ⟨fun t h9 h11 => ?_, fun o y h mi s w yd f hy y0 y1 => ?_⟩
  · unfold Cal.structTimeOf
    split
    · exact absurd rfl h9
    · exact absurd rfl h11
    · rfl
  · rw [structTimeOf_fields]
    obtain ⟨a, b⟩ := C77_accepts_partial A hE ⟨o, h, mi, s, 0, z.map (fun i => i.zone.tz), 0⟩ y hy y0 y1
    have ht : ValidTime (DT.timetz ⟨o, h, mi, s, 0, z.map (fun i => i.zone.tz), 0⟩) ↔ ValidTime ⟨h, mi, s, 0, none, 0⟩ :=
      ⟨fun q => ⟨q.1, q.2, q.3, q.4, q.5, q.6, q.7, q.8, q.9⟩, fun q => ⟨q.1, q.2, q.3, q.4, q.5, q.6, q.7, q.8, q.9⟩⟩
    rw [ht] at a b
    unfold Cal.structTime
    refine ⟨fun hf => if_pos (by omega), fun f0 f1 hv => ?_, fun f0 f1 hd hv => ?_⟩
    · rw [if_neg (by omega), b (by tauto)]
      rfl
    · rw [if_neg (by omega), a ⟨hd, hv⟩, pyOk_bind]
      refine ⟨_, rfl, by cases o <;> rfl, by cases o <;> rfl, ?_, ?_⟩
      · rintro rfl
        exact ⟨rfl, rfl, rfl⟩
      · rintro i rfl
        refine ⟨?_, rfl⟩
        simp only [dstFlag]
        cases i.dst <;> rfl

/-- Accepted: the last day of Ayyám-i-Há at 24:00:60. Hour 25 is refused. -/
example : YearOf (.short 182 0 5) 182 ∧ IsDay (Cal.init newYearSun) (.short 182 0 5) 739675 ∧
    ValidTime ⟨24, 0, 60, 0, none, 0⟩ ∧ ¬ ValidTime ⟨25, 0, 0, 0, none, 0⟩ :=
  ⟨rfl, witness_days.1, by constructor <;> decide, fun q => by have := q.2; simp at this⟩

/-- C98 is false of the weekday and the day of the year: `struct_time` accepts every pair of integers in their place and
keeps it, for every day of the calendar. -/
theorem C98_weekday_negation (A : Astro) (hE : TehranEvening A) (o : DateObj) (n : ℤ) (hd : IsDay (Cal.init A) o n)
    (w yd : ℤ) :
    ∃ r, (Cal.init A).structTimeOf (o.fields ++ [0, 0, 0, w, yd, 0]) none = .ok r ∧ r.tup.wday = w ∧ r.tup.yday = yd := by
  rw [structTimeOf_fields]
  unfold Cal.structTime
  rw [if_neg (by omega), Option.map_none, newDT_ok hE (x := ⟨o, 0, 0, 0, 0, none, 0⟩) (n := n) ⟨hd, by constructor <;> simp [DT.timetz]⟩, pyOk_bind]
  exact ⟨_, rfl, by cases o <;> rfl, by cases o <;> rfl⟩

example : IsDay (Cal.init newYearSun) (.long 1 10 11 19 1) 739676 := witness_days.2

theorem assert_step {c : Prop} [Decidable c] {k : Py Unit} (h : c → k = .error .assertion) :
    (do pyAssert c; k) = .error .assertion := by
  by_cases hc : c
  · rw [pyAssert_true hc, pyOk_bind, h hc]
  · rw [pyAssert_false hc, pyErr_bind]

theorem assert_end {c : Prop} [Decidable c] (h : ¬ c) : pyAssert c = .error .assertion := pyAssert_false h

theorem py_assoc {α β γ : Type} (x : Py α) (f : α → Py β) (g : β → Py γ) :
    ((x >>= f) >>= g) = (x >>= fun a => f a >>= g) := by
  cases x <;> rfl

/-- What the fields of a tuple have to be for `_checktm`: a time with seconds up to 61, a weekday, a day of the year. -/
structure CheckedFields (h mi s w yd f : ℤ) : Prop where
  hour : 0 ≤ h ∧ h ≤ 24
  minute : 0 ≤ mi ∧ mi ≤ 59
  second : 0 ≤ s ∧ s ≤ 61
  wday : 0 ≤ w ∧ w ≤ 6
  yday : 1 ≤ yd ∧ yd ≤ 366
  flag : -1 ≤ f ∧ f ≤ 1

theorem cycleOf_dec {C : Cal} {y m d : ℤ} {leap : Bool} (hl : C.isLeapYear y = .ok leap) (hm : 0 ≤ m ∧ m < 20) :
    ∃ c, C.cycleOf y m = .ok c ∧ (1 ≤ d ∧ d < c ↔ ValidMD leap m d) := by
  unfold Cal.cycleOf ValidMD
  by_cases h : m = 0
  · rw [if_pos h, hl, pyOk_bind]
    refine ⟨_, rfl, ?_⟩
    cases leap <;> simp [h] <;> omega
  · rw [if_neg h]
    exact ⟨_, rfl, by omega⟩

/-- `_checktm` for a year of the table. -/
theorem checktm_dec {A : Astro} (hE : TehranEvening A) {o : DateObj} {y h mi s w yd f : ℤ} (hy : YearOf o y)
    (y0 : -1842 ≤ y) (y1 : y ≤ 1161) :
    ((∃ n, IsDay (Cal.init A) o n) ∧ CheckedFields h mi s w yd f →
      (do (Cal.init A).checktm (tupOf o h mi s w yd); pyAssert (-1 ≤ f ∧ f ≤ 1)) = .ok ()) ∧
    (¬ ((∃ n, IsDay (Cal.init A) o n) ∧ CheckedFields h mi s w yd f) →
      (do (Cal.init A).checktm (tupOf o h mi s w yd); pyAssert (-1 ≤ f ∧ f ≤ 1)) = .error .assertion) := by
  constructor
  · rintro ⟨⟨n, hd⟩, c⟩
    have hs : YearShown o := by
      cases o with
      | short y' m' d' => obtain rfl : y' = y := hy; exact y0
      | long k v w' m' d' => trivial
    rw [checktm_tupOf hE hd hs c.hour c.minute c.second c.wday c.yday, pyOk_bind, pyAssert_true c.flag]
  · intro hn
    have hl := init_isLeap hE (y := y) (by omega) y1
    have k1 : minYear = -1842 := rfl
    have k2 : maxYear = 1161 := rfl
    have k3 : kullishayMin = -5 := rfl
    have k4 : kullishayMax = 4 := rfl
    have key : ∀ t : Tup, t.fullYear = y → t.hour = h → t.min = mi → t.sec = s → t.wday = w → t.yday = yd →
        (ValidMD (ysInt (y + 1) - ysInt y == 366) t.mon t.mday → ∃ n, IsDay (Cal.init A) o n) →
        (do (Cal.init A).checktm t; pyAssert (-1 ≤ f ∧ f ≤ 1)) = .error .assertion := by
      intro t e1 e2 e3 e4 e5 e6 hv
      unfold Cal.checktm
      rw [e1, e2, e3, e4, e5, e6]
      simp only [py_assoc]
      refine assert_step fun a1 => assert_step fun a2 => assert_step fun a3 => assert_step fun a4 => assert_step fun hm => ?_
      obtain ⟨c, hc, hi⟩ := cycleOf_dec (d := t.mday) hl hm
      rw [hc, pyOk_bind]
      refine assert_step fun a6 => assert_step fun a7 => assert_step fun a8 => assert_step fun a9 => assert_step fun a10 =>
        assert_step fun a11 => assert_end fun a12 => ?_
      exact hn ⟨hv (hi.mp a6), ⟨a7, by omega, a9, a10, a11, a12⟩⟩
    cases o with
    | short y' m' d' =>
      obtain rfl : y' = y := hy
      exact key _ rfl rfl rfl rfl rfl rfl fun hv => ⟨_, (dayNumber_iff hE).mpr ⟨by omega, y1, hv, rfl⟩⟩
    | long k v w' m' d' =>
      refine key _ ?_ rfl rfl rfl rfl rfl fun hv => ⟨_, y, hy, (dayNumber_iff hE).mpr ⟨by omega, y1, hv, rfl⟩⟩
      have := hy.2.2.2.2
      change longYear k v w' = y
      unfold longYear
      omega

/-- C98, the check that `strftime(format, t)` makes of a plain tuple: TypeError for lengths other than 9 and 11; in the
years -1842 to 1161 it accepts exactly the tuples whose date is a day of the calendar and whose other fields are in their
ranges, and raises AssertionError for the others. Missing from the full property: the long form accepts later years,
and second 61, see the negations below. -/
theorem C98_check_partial (A : Astro) (hE : TehranEvening A) :
    (∀ t : List ℤ, t.length ≠ 9 → t.length ≠ 11 → (Cal.init A).checktmPlain t = .error .type) ∧
    (∀ (o : DateObj) (y h mi s w yd f : ℤ), YearOf o y → -1842 ≤ y → y ≤ 1161 →
      ((∃ n, IsDay (Cal.init A) o n) ∧ CheckedFields h mi s w yd f →
        (Cal.init A).checktmPlain (o.fields ++ [h, mi, s, w, yd, f]) = .ok ()) ∧
      (¬ ((∃ n, IsDay (Cal.init A) o n) ∧ CheckedFields h mi s w yd f) →
        (Cal.init A).checktmPlain (o.fields ++ [h, mi, s, w, yd, f]) = .error .assertion)) ∧
    ∀ y m d h mi s w yd f : ℤ, y < -1842 ∨ 1161 < y →
      (Cal.init A).checktmPlain [y, m, d, h, mi, s, w, yd, f] = .error .assertion := by
  refine ⟨fun t h9 h11 => ?_, fun o y h mi s w yd f hy y0 y1 => ?_, fun y m d h mi s w yd f hy => ?_⟩
  · unfold Cal.checktmPlain
    split
    · exact absurd rfl h9
    · exact absurd rfl h11
    · rfl
  · rw [checktmPlain_fields]
    exact checktm_dec hE hy y0 y1
  · have k1 : minYear = -1842 := rfl
    have k2 : maxYear = 1161 := rfl
    change (do (Cal.init A).checktm ⟨true, 0, 0, y, m, d, h, mi, s, w, yd⟩; pyAssert (-1 ≤ f ∧ f ≤ 1)) = _
    unfold Cal.checktm
    rw [pyAssert_false (by simp only [forall_const]; omega), pyErr_bind, pyErr_bind]

/-- The last day of Ayyám-i-Há, accepted with second 61 and refused with day 0 of the year. -/
example : YearOf (.short 182 0 5) 182 ∧ IsDay (Cal.init newYearSun) (.short 182 0 5) 739675 ∧
    CheckedFields 24 59 61 6 366 (-1) ∧ ¬ CheckedFields 0 0 0 0 0 0 :=
  ⟨rfl, witness_days.1, by constructor <;> decide, fun q => by have := q.yday; omega⟩

/-- C98 is false at second 61: the check of `strftime` accepts the tuple, which `struct_time` then refuses, so `strftime`
raises AssertionError about a tuple it has found valid. Every day of the calendar from -1842, every format. -/
theorem C98_second_61_negation (A : Astro) (hE : TehranEvening A) (o : DateObj) (y n : ℤ) (hy : YearOf o y)
    (y0 : -1842 ≤ y) (hd : IsDay (Cal.init A) o n) (h mi w yd f : ℤ) (hc : CheckedFields h mi 61 w yd f)
    (z : Option TzInfo) :
    (Cal.init A).checktmPlain (o.fields ++ [h, mi, 61, w, yd, f]) = .ok () ∧
    (Cal.init A).structTimeOf (o.fields ++ [h, mi, 61, w, yd, f]) z = .error .assertion ∧
    ∀ (L : Locale) (fmt : Str), checkFormat fmt = .ok () →
      (Cal.init A).strftimePlain L fmt (o.fields ++ [h, mi, 61, w, yd, f]) z = .error .assertion := by
  have y1 : y ≤ 1161 := by
    cases o with
    | short y' m' d' => obtain rfl : y' = y := hy; exact ((dayNumber_iff hE).mp hd).2.1
    | long k v w' m' d' =>
      obtain ⟨y2, h2, hd2⟩ := hd
      have e1 := hy.2.2.2.2
      have e2 := h2.2.2.2.2
      have := ((dayNumber_iff hE).mp hd2).2.1
      omega
  have a := ((C98_check_partial A hE).2.1 o y h mi 61 w yd f hy y0 y1).1 ⟨⟨n, hd⟩, hc⟩
  have b := ((C98_struct_partial A hE z).2 o y h mi 61 w yd f hy (by omega) y1).2.1 hc.flag.1 hc.flag.2
      (Or.inr fun q => by have := q.s1; simp at this)
  refine ⟨a, b, fun L fmt hf => ?_⟩
  unfold Cal.strftimePlain
  simp only [hf, a, b, pyOk_bind]
  rfl

example : IsDay (Cal.init newYearSun) (.short 182 0 5) 739675 ∧ CheckedFields 3 0 61 0 346 0 :=
  ⟨witness_days.1, by constructor <;> decide⟩

/-- C98 is false of the late years of the long form: the years 1162 to 1444 (Kull-i-Shay 4) are accepted in months 1 to 19
by the check and by `struct_time`, and are no days of the calendar; month 0 raises KeyError. -/
theorem C98_late_years_negation (A : Astro) (hE : TehranEvening A) (v x y m d h mi s w yd f : ℤ)
    (hy : DenotesYear 4 v x y) (hl : 1161 < y) (hc : CheckedFields h mi s w yd f) (z : Option TzInfo) :
    (1 ≤ m → m ≤ 19 → 1 ≤ d → d ≤ 19 →
      (Cal.init A).checktmPlain [4, v, x, m, d, h, mi, s, w, yd, f] = .ok () ∧
      (s ≤ 60 → ∃ r, (Cal.init A).structTimeOf [4, v, x, m, d, h, mi, s, w, yd, f] z = .ok r) ∧
      ¬ ∃ n, IsDay (Cal.init A) (.long 4 v x m d) n) ∧
    (m = 0 → (Cal.init A).checktmPlain [4, v, x, m, d, h, mi, s, w, yd, f] = .error .key) := by
  obtain ⟨v0, v1, x0, x1, ey⟩ := id hy
  have k3 : kullishayMin = -5 := rfl
  have k4 : kullishayMax = 4 := rfl
  have el : longYear 4 v x = y := by unfold longYear; omega
  have hf := C22_outside_years_negation A hE (.long 4 v x m d) y m d hy ⟨by omega, by omega, Or.inr hl, rfl, rfl⟩
  change (_ → _ → _ → _ → (do (Cal.init A).checktm ⟨false, 4, v, x, m, d, h, mi, s, w, yd⟩; pyAssert (-1 ≤ f ∧ f ≤ 1)) = _ ∧ _) ∧
    (_ → (do (Cal.init A).checktm ⟨false, 4, v, x, m, d, h, mi, s, w, yd⟩; pyAssert (-1 ≤ f ∧ f ≤ 1)) = _)
  constructor
  · intro m0 m1 d0 d1
    refine ⟨?_, fun s1 => ?_, ?_⟩
    · unfold Cal.checktm Tup.fullYear Cal.cycleOf
      simp only [Bool.false_eq_true, if_false]
      rw [pyAssert_true (by simp), pyOk_bind, pyAssert_true (by omega), pyOk_bind, pyAssert_true (by omega), pyOk_bind,
        pyAssert_true (by omega), pyOk_bind, pyAssert_true (by omega), pyOk_bind, if_neg (by omega), pyOk_bind,
        pyAssert_true (by omega), pyOk_bind, pyAssert_true hc.hour, pyOk_bind,
        pyAssert_true (by have := hc.minute; omega), pyOk_bind, pyAssert_true hc.second, pyOk_bind,
        pyAssert_true hc.wday, pyOk_bind, pyAssert_true hc.yday, pyOk_bind, pyAssert_true hc.flag]
    · change ∃ r, (Cal.init A).structTime (.long 4 v x m d) h mi s w yd f z = .ok r
      unfold Cal.structTime Cal.newDT
      have := hc.flag
      have h1 := hc.hour
      have h2 := hc.minute
      have h3 := hc.second
      rw [if_neg (by omega)]
      simp only [hf.1 m0 m1 d0 d1, pyOk_bind]
      rw [checkTimeFields_ok ⟨h1.1, by omega⟩ ⟨h2.1, by omega⟩ ⟨h3.1, by omega⟩ ⟨by omega, by omega⟩ (Or.inl rfl), pyOk_bind,
        pyOk_bind]
      exact ⟨_, rfl⟩
    · rintro ⟨n, y2, h2, hd⟩
      have e2 := h2.2.2.2.2
      have := ((dayNumber_iff hE).mp hd).2.1
      omega
  · rintro rfl
    unfold Cal.checktm Tup.fullYear Cal.cycleOf
    simp only [Bool.false_eq_true, if_false, if_true]
    rw [pyAssert_true (by simp), pyOk_bind, pyAssert_true (by omega), pyOk_bind, pyAssert_true (by omega), pyOk_bind,
      pyAssert_true (by omega), pyOk_bind, pyAssert_true (by omega), pyOk_bind, el,
      init_isLeap_out hE (Or.inr hl), pyErr_bind, pyErr_bind, pyErr_bind]

example : DenotesYear 4 19 19 1444 ∧ CheckedFields 3 0 0 0 346 0 :=
  ⟨by unfold DenotesYear; omega, by constructor <;> decide⟩

/-- C98, `strftime(format, t, tzinfo)` of the plain tuple of a struct is that of the struct: every struct that
`struct_time` makes of a tuple with the same zone, every format. -/
theorem C98_strftime (C : Cal) (L : Locale) (f : Str) (o : DateObj) (h mi s w yd g : ℤ) (z : Option TzInfo) (r : Struct)
    (hr : C.structTimeOf (o.fields ++ [h, mi, s, w, yd, g]) z = .ok r) :
    C.strftimePlain L f (o.fields ++ [h, mi, s, w, yd, g]) z = C.strftimeStruct L f r := by
  have hr' := hr
  rw [structTimeOf_fields] at hr'
  unfold Cal.structTime at hr'
  split at hr'
  · cases hr'
  rename_i hg
  have et : r.tup = tupOf o h mi s w yd := by
    cases hc : C.newDT ⟨o, h, mi, s, 0, z.map (fun i => i.zone.tz), 0⟩ with
    | error e => rw [hc, pyErr_bind] at hr'; cases hr'
    | ok u => rw [hc, pyOk_bind] at hr'; injection hr' with hr'; rw [← hr']
  unfold Cal.strftimePlain Cal.strftimeStruct
  cases checkFormat f with
  | error e => rfl
  | ok u =>
    simp only
    rw [checktmPlain_fields, hr, et, pyAssert_true (by omega)]
    cases C.checktm (tupOf o h mi s w yd) <;> rfl

example : ∃ r, (Cal.init newYearSun).structTimeOf [182, 0, 5, 3, 0, 0, 1, 347, 0] none = .ok r :=
  have h := ((C98_struct_partial newYearSun newYearSun_tehran none).2 (.short 182 0 5) 182 3 0 0 1 347 0 rfl (by omega)
    (by omega)).2.2 (by omega) (by omega) ⟨_, witness_days.1⟩ (by constructor <;> decide)
  ⟨h.choose, h.choose_spec.1⟩

end Verif
