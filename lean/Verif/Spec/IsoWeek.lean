import Verif.Spec.Date

/-!
# Specification: ISO weeks of the Badí' calendar

Weeks begin on Jalál. The day with day number `n` is a Jalál when `n + 1` is a multiple of seven. Week 1 of a
year is the week that holds the fourth day of the year.
-/

namespace Verif

/-- `s` is the first day of the week that holds the fourth day of the year that begins on day `a`. -/
def FirstWeek (a s : ℤ) : Prop := (s + 1) % 7 = 0 ∧ s ≤ a + 3 ∧ a + 3 < s + 7

/-- Day number `n` is weekday `D` (counted from 1) of week `W` of year `Y`, and week 1 of the next year has
not begun. -/
def IsoWeekOf (C : Cal) (n Y W D : ℤ) : Prop :=
  (∃ a s, C.yearStart Y = some a ∧ FirstWeek a s ∧ n = s + 7 * (W - 1) + (D - 1)) ∧ 1 ≤ W ∧ 1 ≤ D ∧ D ≤ 7 ∧
    ∀ b s, C.yearStart (Y + 1) = some b → FirstWeek b s → n < s

/-- Year `Y` begins on the third or the fourth day of the week, the two cases that the code of
`fromisocalendar` treats specially. -/
def MidweekStart (C : Cal) (Y : ℤ) : Prop :=
  ∃ a, C.yearStart Y = some a ∧ ((a + 1) % 7 = 2 ∨ (a + 1) % 7 = 3)

end Verif
