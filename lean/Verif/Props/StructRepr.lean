import Verif.Model.StructRepr
import Verif.Props.PlainTuple
import Verif.Props.Repr
import Verif.Props.StructTime

/-!
# C121: `repr` of a time tuple
-/

namespace Verif

open PyExpr

/-- The keywords of a call, with integers for values. -/
def keywords (l : List (String × ℤ)) : List (Str × Expr) := l.map fun p => (p.1.toList, .int p.2)

/-- The fields of a tuple after those of the date, in the order in which they are documented. -/
def clockFields (t : Struct) : List (String × ℤ) :=
  [("tm_hour", t.tup.hour), ("tm_min", t.tup.min), ("tm_sec", t.tup.sec), ("tm_wday", t.tup.wday), ("tm_yday", t.tup.yday),
    ("tm_isdst", t.isdst)]

/-- C121: the text is a call of the class, which gives every field but the last two by name. -/
theorem C121_reads (t : Struct) :
    read (structRepr t) = some (if t.tup.short then
      .call "structures.ShortFormStruct".toList
        (keywords ([("tm_year", t.tup.year), ("tm_mon", t.tup.mon), ("tm_mday", t.tup.mday)] ++ clockFields t))
    else
      .call "structures.LongFormStruct".toList
        (keywords ([("tm_kull_i_shay", t.tup.k), ("tm_vahid", t.tup.v), ("tm_year", t.tup.year), ("tm_mon", t.tup.mon),
          ("tm_mday", t.tup.mday)] ++ clockFields t))) := by
  have f0 := fun n => key_int (k := "tm_kull_i_shay") (by decide) (by decide) n
  have f1 := fun n => key_int (k := "tm_vahid") (by decide) (by decide) n
  have f2 := fun n => key_int (k := "tm_year") (by decide) (by decide) n
  have f3 := fun n => key_int (k := "tm_mon") (by decide) (by decide) n
  have f4 := fun n => key_int (k := "tm_mday") (by decide) (by decide) n
  have f5 := fun n => key_int (k := "tm_hour") (by decide) (by decide) n
  have f6 := fun n => key_int (k := "tm_min") (by decide) (by decide) n
  have f7 := fun n => key_int (k := "tm_sec") (by decide) (by decide) n
  have f8 := fun n => key_int (k := "tm_wday") (by decide) (by decide) n
  have f9 := fun n => key_int (k := "tm_yday") (by decide) (by decide) n
  have fa := fun n => key_int (k := "tm_isdst") (by decide) (by decide) n
  apply read_fit
  unfold structRepr
  by_cases h : t.tup.short
  · rw [if_pos h, if_pos h]
    apply fit_call (all_word (by decide)) (by decide)
    exact .cons (f2 _) (.cons (f3 _) (.cons (f4 _) (.cons (f5 _) (.cons (f6 _) (.cons (f7 _) (.cons (f8 _) (.cons (f9 _)
      (.cons (fa _) .nil))))))))
  · rw [if_neg h, if_neg h]
    apply fit_call (all_word (by decide)) (by decide)
    exact .cons (f0 _) (.cons (f1 _) (.cons (f2 _) (.cons (f3 _) (.cons (f4 _) (.cons (f5 _) (.cons (f6 _) (.cons (f7 _)
      (.cons (f8 _) (.cons (f9 _) (.cons (fa _) .nil))))))))))

/-- The fields of `struct_time(l, z)`: its form is told by the length of `l`, and they are those of `l` but for the flag. -/
theorem structTimeOf_shape {C : Cal} {l : List ℤ} {z : Option TzInfo} {t : Struct} (h : C.structTimeOf l z = .ok t) :
    (∃ y m d hh mi s w yd f, l = [y, m, d, hh, mi, s, w, yd, f] ∧ t.tup = ⟨true, 0, 0, y, m, d, hh, mi, s, w, yd⟩) ∨
    ∃ k v y m d hh mi s w yd f, l = [k, v, y, m, d, hh, mi, s, w, yd, f] ∧ t.tup = ⟨false, k, v, y, m, d, hh, mi, s, w, yd⟩ := by
  have key : ∀ (o : DateObj) (a b c d e f : ℤ), C.structTime o a b c d e f z = .ok t → t.tup = tupOf o a b c d e := by
    intro o a b c d e f h
    unfold Cal.structTime at h
    split at h
    · cases h
    · cases hn : C.newDT ⟨o, a, b, c, 0, z.map (fun i => i.zone.tz), 0⟩ with
      | error x => rw [hn] at h; cases h
      | ok x => rw [hn, pyOk_bind] at h; cases h; rfl
  unfold Cal.structTimeOf at h
  split at h
  · exact Or.inl ⟨_, _, _, _, _, _, _, _, _, rfl, key _ _ _ _ _ _ _ h⟩
  · exact Or.inr ⟨_, _, _, _, _, _, _, _, _, _, _, rfl, key _ _ _ _ _ _ _ h⟩
  · cases h

/-- C121: two results of `struct_time` have the same text exactly when the tuples given to it agree but for the flag and the
flags of the results are the same. Missing from the full property: the zone and the offset, which are not printed (below). -/
theorem C121_tells_partial {C C' : Cal} {l l' : List ℤ} {z z' : Option TzInfo} {t u : Struct} (ht : C.structTimeOf l z = .ok t)
    (hu : C'.structTimeOf l' z' = .ok u) : structRepr t = structRepr u ↔ l.dropLast = l'.dropLast ∧ t.isdst = u.isdst := by
  obtain ⟨tt, ti, tz, tg⟩ := t
  obtain ⟨ut, ui, uz, ug⟩ := u
  constructor
  · intro e
    have r := C121_reads ⟨tt, ti, tz, tg⟩
    rw [e, C121_reads] at r
    rcases structTimeOf_shape ht with ⟨y, m, d, hh, mi, s, w, yd, f, rfl, rfl⟩ | ⟨k, v, y, m, d, hh, mi, s, w, yd, f, rfl, rfl⟩ <;>
    rcases structTimeOf_shape hu with ⟨y', m', d', hh', mi', s', w', yd', f', rfl, rfl⟩ |
      ⟨k', v', y', m', d', hh', mi', s', w', yd', f', rfl, rfl⟩
    · simp [keywords, clockFields] at r
      simp [r]
    · simp at r
    · simp at r
    · simp [keywords, clockFields] at r
      simp [r]
  · rintro ⟨e, rfl⟩
    rcases structTimeOf_shape ht with ⟨y, m, d, hh, mi, s, w, yd, f, rfl, rfl⟩ | ⟨k, v, y, m, d, hh, mi, s, w, yd, f, rfl, rfl⟩ <;>
    rcases structTimeOf_shape hu with ⟨y', m', d', hh', mi', s', w', yd', f', rfl, rfl⟩ |
      ⟨k', v', y', m', d', hh', mi', s', w', yd', f', rfl, rfl⟩
    · simp at e
      obtain ⟨rfl, rfl, rfl, rfl, rfl, rfl, rfl, rfl⟩ := e
      rfl
    · simp at e
    · simp at e
    · simp at e
      obtain ⟨rfl, rfl, rfl, rfl, rfl, rfl, rfl, rfl, rfl, rfl⟩ := e
      rfl

/-- C121 is false of the zone: `timetuple()` of a naive datetime and of the same datetime in any zone that does not tell about
daylight saving have the same text, and differ. -/
theorem C121_zone_negation (A : Astro) (hE : TehranEvening A) (hO : NewYearOrder (Cal.init A)) (x : DT) (n : ℤ)
    (hx : IsDT (Cal.init A) x n) (hc : x.d.isShort = true ∨ OrdinaryClock x) (i : Zone) :
    ∃ t u, (Cal.init A).dtTimetuple { x with tz := none } none = .ok t ∧
      (Cal.init A).dtTimetuple { x with tz := some i.tz } (some ⟨i, none⟩) = .ok u ∧ structRepr t = structRepr u ∧ t.zone = none ∧
      u.zone = some (tzName i) ∧ t ≠ u := by
  obtain ⟨t, ht, -⟩ := buildStructTime_ok hE hO hx hc (Or.inl rfl) none
  obtain ⟨u, hu, -⟩ := buildStructTime_ok hE hO hx hc (Or.inl rfl) (some ⟨i, none⟩)
  have e : t = u := by
    unfold Cal.buildStructTime at ht hu
    cases h1 : (Cal.init A).structYmd x.d x.h x.mi x.s with
    | error e => rw [h1] at ht; cases ht
    | ok p =>
      rw [h1, pyOk_bind] at ht hu
      simp only at ht hu
      cases h2 : (Cal.init A).dayOfWeek p.1 p.2.1 p.2.2 with
      | error e => rw [h2] at ht; cases ht
      | ok w =>
        rw [h2, pyOk_bind] at ht hu
        cases h3 : (Cal.init A).daysBeforeMonth p.1 p.2.1 with
        | error e => rw [h3] at ht; cases ht
        | ok b =>
          rw [h3, pyOk_bind] at ht hu
          have key : ∀ (z : Option TzInfo) (r : Struct),
              (Cal.init A).structTime x.d x.h x.mi x.s w (b + p.2.2) (-1) z = .ok r →
              r.tup = tupOf x.d x.h x.mi x.s w (b + p.2.2) := by
            intro z r h
            unfold Cal.structTime at h
            split at h
            · cases h
            · cases hn : (Cal.init A).newDT ⟨x.d, x.h, x.mi, x.s, 0, z.map (fun i => i.zone.tz), 0⟩ with
              | error x => rw [hn] at h; cases h
              | ok x => rw [hn, pyOk_bind] at h; cases h; rfl
          exact (key _ _ ht).trans (key _ _ hu).symm
  subst e
  exact ⟨_, _, ht, hu, rfl, rfl, rfl, by simp⟩

/-- C121 is false of `eval`: where only the package is imported the text has no value, because no module of the package is
called `structures`. -/
theorem C121_eval_negation (C : Cal) (fresh : ℕ) (t : Struct) : evalText C fresh (structRepr t) = none := by
  unfold evalText
  rw [C121_reads]
  by_cases h : t.tup.short <;> simp only [h, if_true, if_false, Bool.false_eq_true] <;> unfold eval <;>
    simp only [keywords, clockFields, List.map_cons, List.map_nil, List.cons_append, List.nil_append, evalArgs, eval] <;>
    unfold call <;> simp

/-! ## The hypotheses are met -/

/-- Two tuples that differ in the seconds. -/
example : ∃ t u, (Cal.init newYearSun).structTimeOf [182, 0, 5, 18, 30, 15, 5, 346, -1] none = .ok t ∧
    (Cal.init newYearSun).structTimeOf [182, 0, 5, 18, 30, 16, 5, 346, -1] none = .ok u ∧ structRepr t ≠ structRepr u := by
  have key : ∀ s : ℤ, 0 ≤ s → s ≤ 59 → ∃ t, (Cal.init newYearSun).structTimeOf [182, 0, 5, 18, 30, s, 5, 346, -1] none = .ok t := by
    intro s s0 s1
    have hx : IsDT (Cal.init newYearSun) ⟨.short 182 0 5, 18, 30, s, 0, none, 0⟩ 739675 :=
      ⟨witness_days.1, ⟨by simp [DT.timetz], by simp [DT.timetz], by simp [DT.timetz], by simp [DT.timetz], by simpa [DT.timetz],
        by simp [DT.timetz]; omega, by simp [DT.timetz], by simp [DT.timetz], Or.inl rfl⟩⟩
    change ∃ t, (Cal.init newYearSun).structTime (.short 182 0 5) 18 30 s 5 346 (-1) none = .ok t
    unfold Cal.structTime
    rw [if_neg (by simp)]
    have := newDT_ok newYearSun_tehran hx
    simp only [Option.map_none]
    rw [this, pyOk_bind]
    exact ⟨_, rfl⟩
  obtain ⟨t, ht⟩ := key 15 (by decide) (by decide)
  obtain ⟨u, hu⟩ := key 16 (by decide) (by decide)
  refine ⟨t, u, ht, hu, fun e => ?_⟩
  have := ((C121_tells_partial ht hu).mp e).1
  simp at this

/-- The last day of Ayyám-i-Há, with and without the zone of Tehran. -/
example : IsDT (Cal.init newYearSun) (witnessDT none 0) 739675 ∧ (witnessDT none 0).d.isShort = true :=
  ⟨witnessDT_is _ (Or.inl rfl), rfl⟩

end Verif
