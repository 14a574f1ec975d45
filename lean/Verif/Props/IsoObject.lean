import Verif.Model.IsoObject
import Verif.Props.IsoWeek
import Verif.Props.Repr

/-!
# C122: the object that `isocalendar()` returns
-/

namespace Verif

open PyExpr

/-- Of two dates in different ISO years the one in the earlier ISO year is the earlier. -/
theorem iso_year_order {A : Astro} (hE : TehranEvening A) (hO : NewYearOrder (Cal.init A)) {o p : DateObj} {n m : ℤ}
    (hn : 78 ≤ n) (hm : 78 ≤ m) (ho : IsDay (Cal.init A) o n) (hp : IsDay (Cal.init A) p m) {t u : ℤ × ℤ × ℤ}
    (ht : (Cal.init A).isoCalendar o = .ok t) (hu : (Cal.init A).isoCalendar p = .ok u) (h : t.1 < u.1) : n < m := by
  obtain ⟨y, Y, W, D, e, -, y0, y1, a0, a1, w0, w1, d0, d1, hw, hl⟩ := isoCalendar_ok hE hO ho hn
  obtain ⟨y', Y', W', D', e', -, y0', y1', a0', a1', w0', w1', d0', d1', hw', hl'⟩ := isoCalendar_ok hE hO hp hm
  rw [e] at ht
  rw [e'] at hu
  cases ht
  cases hu
  simp only at h
  have h1 := hl (by omega)
  rcases (show Y + 1 = Y' ∨ Y + 1 < Y' by omega) with c | c
  · subst c; omega
  · have := week1_mono (a := Y + 1) (b := Y') (by omega) c (by omega); omega

/-- C122: results of `isocalendar()` are ordered as the dates, and those of different days are different. -/
theorem C122_order (A : Astro) (hE : TehranEvening A) (hO : NewYearOrder (Cal.init A)) (o p : DateObj) (n m a : ℤ)
    (ha : (Cal.init A).yearStart (-1842) = some a) (hn : a ≤ n) (hm : a ≤ m) (ho : IsDay (Cal.init A) o n)
    (hp : IsDay (Cal.init A) p m) :
    ∃ t u, (Cal.init A).isoCalendar o = .ok t ∧ (Cal.init A).isoCalendar p = .ok u ∧ (isoCmp t u < 0 ↔ n < m) ∧
      (isoCmp t u = 0 ↔ n = m) ∧ (t = u ↔ n = m) := by
  have n78 := minYear_lo hE ha hn
  have m78 := minYear_lo hE ha hm
  obtain ⟨y, Y, W, D, e, -, y0, y1, a0, a1, w0, w1, d0, d1, hw, hl⟩ := isoCalendar_ok hE hO ho n78
  obtain ⟨y', Y', W', D', e', -, y0', y1', a0', a1', w0', w1', d0', d1', hw', hl'⟩ := isoCalendar_ok hE hO hp m78
  refine ⟨_, _, e, e', ?_⟩
  have o1 := iso_year_order hE hO n78 m78 ho hp e e'
  have o2 := iso_year_order hE hO m78 n78 hp ho e' e
  simp only at o1 o2
  unfold isoCmp
  simp only [tupleCmp, Prod.mk.injEq]
  rcases lt_trichotomy Y Y' with c | c | c
  · have := o1 c
    refine ⟨?_, ?_, ?_⟩ <;> (try split_ifs) <;> (try rw [false_iff]) <;> omega
  · subst c
    refine ⟨?_, ?_, ?_⟩ <;> (try split_ifs) <;> (try rw [false_iff]) <;> omega
  · have := o2 c
    refine ⟨?_, ?_, ?_⟩ <;> (try split_ifs) <;> (try rw [false_iff]) <;> omega

/-- C122: the text is a call that gives the three fields by name. -/
theorem C122_reads (t : ℤ × ℤ × ℤ) :
    read (isoRepr t) = some (.call "_IsoCalendarDate".toList
      [("year".toList, .int t.1), ("week".toList, .int t.2.1), ("weekday".toList, .int t.2.2)]) := by
  apply read_fit
  unfold isoRepr
  apply fit_call (all_word (by decide)) (by decide)
  exact .cons (key_int (k := "year") (by decide) (by decide) _) (.cons (key_int (k := "week") (by decide) (by decide) _)
    (.cons (key_int (k := "weekday") (by decide) (by decide) _) .nil))

/-- C122: the texts of the results for two dates are the same exactly when the dates are the same day. -/
theorem C122_tells (A : Astro) (hE : TehranEvening A) (hO : NewYearOrder (Cal.init A)) (o p : DateObj) (n m a : ℤ)
    (ha : (Cal.init A).yearStart (-1842) = some a) (hn : a ≤ n) (hm : a ≤ m) (ho : IsDay (Cal.init A) o n)
    (hp : IsDay (Cal.init A) p m) (t u : ℤ × ℤ × ℤ) (ht : (Cal.init A).isoCalendar o = .ok t)
    (hu : (Cal.init A).isoCalendar p = .ok u) : isoRepr t = isoRepr u ↔ n = m := by
  obtain ⟨t', u', h1, h2, -, -, h3⟩ := C122_order A hE hO o p n m a ha hn hm ho hp
  rw [ht] at h1
  rw [hu] at h2
  cases h1
  cases h2
  rw [← h3]
  refine ⟨fun e => ?_, fun e => by rw [e]⟩
  have r := C122_reads t
  rw [e, C122_reads] at r
  obtain ⟨a, b, c⟩ := t
  obtain ⟨a', b', c'⟩ := u
  simp at r
  simp [r]

/-- The last day of Ayyám-i-Há and the next day, which is written in the long form. -/
example : ∃ a, (Cal.init newYearSun).yearStart (-1842) = some a ∧ a ≤ 739675 ∧
    IsDay (Cal.init newYearSun) (.short 182 0 5) 739675 ∧ IsDay (Cal.init newYearSun) (.long 1 10 11 19 1) 739676 :=
  ⟨78, by rw [init_yearStart newYearSun_tehran, if_pos (by omega), ysInt_m1842], by omega, witness_days⟩

end Verif
