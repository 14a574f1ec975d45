import Verif.Props.DateTimeObj

/-!
# C77: the datetime constructor
-/

namespace Verif

/-- C77, years -1843 to 1161: with whole arguments a datetime is created, with exactly the fields asked for, when the date is a
day of the calendar and the time is a time of day; otherwise AssertionError is raised. Missing from the full property: the years
at the edges, where the date is not checked, see `C77_outside_years_negation`. -/
theorem C77_accepts_partial (A : Astro) (hE : TehranEvening A) (x : DT) (y : ℤ) (hy : YearOf x.d y) (h0 : -1843 ≤ y)
    (h1 : y ≤ 1161) :
    ((∃ n, IsDay (Cal.init A) x.d n) ∧ ValidTime x.timetz → (Cal.init A).newDT x = .ok x) ∧
    (¬ ((∃ n, IsDay (Cal.init A) x.d n) ∧ ValidTime x.timetz) → (Cal.init A).newDT x = .error .assertion) := by
  obtain ⟨a, b⟩ := C22_exact_partial A hE x.d y hy h0 h1
  obtain ⟨c, d⟩ := C51_time_accepts x.timetz
  unfold newTime at c d
  unfold Cal.newDT
  constructor
  · rintro ⟨hd, ht⟩
    rw [a hd, pyOk_bind]
    have := c ht
    simp only [DT.timetz] at this
    cases hc : checkTimeFields x.h x.mi x.s x.us x.fold with
    | error e => rw [hc] at this; cases this
    | ok u => rfl
  · intro h
    by_cases hd : ∃ n, IsDay (Cal.init A) x.d n
    · rw [a hd, pyOk_bind]
      have := d (fun ht => h ⟨hd, ht⟩)
      simp only [DT.timetz] at this
      cases hc : checkTimeFields x.h x.mi x.s x.us x.fold with
      | error e =>
        rw [hc, pyErr_bind] at this
        injection this with this
        rw [this]
        rfl
      | ok u => rw [hc, pyOk_bind] at this; cases this
    · rw [b hd, pyErr_bind]

/-- Both sides happen: a datetime on an intercalary day, and one with minute 60. -/
example : ((∃ n, IsDay (Cal.init newYearSun) (.short 182 0 5) n) ∧
    ValidTime (DT.timetz ⟨.short 182 0 5, 24, 0, 60, 999999, none, 1⟩)) ∧ YearOf (.short 182 0 5) 182 ∧
    ¬ ValidTime (DT.timetz ⟨.short 182 0 5, 24, 60, 0, 0, none, 0⟩) := by
  refine ⟨⟨⟨_, witness_days.1⟩, ?_⟩, rfl, fun h => ?_⟩
  · constructor <;> decide
  · have := h.mi1
    simp [DT.timetz] at this

/-- C77 is false in the year 1162 of the short form: the day 19 of the month 19 is accepted although the calendar ends with the
year 1161. -/
theorem C77_outside_years_negation (A : Astro) (hE : TehranEvening A) :
    (Cal.init A).newDT ⟨.short 1162 19 19, 0, 0, 0, 0, none, 0⟩ = .ok ⟨.short 1162 19 19, 0, 0, 0, 0, none, 0⟩ ∧
    ¬ ∃ n, IsDay (Cal.init A) (.short 1162 19 19) n := by
  refine ⟨?_, ?_⟩
  · unfold Cal.newDT
    rw [(C22_outside_years_negation A hE (.short 1162 19 19) 1162 19 19 rfl ⟨rfl, rfl, rfl⟩).1 (by norm_num) (by norm_num)
      (by norm_num) (by norm_num), pyOk_bind]
    rfl
  · rintro ⟨n, h⟩
    have := (dayNumber_iff hE).mp h
    omega

example : TehranEvening newYearSun := newYearSun_tehran

end Verif
