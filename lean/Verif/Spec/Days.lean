import Verif.Model.Badi
import Verif.Spec.Layout

/-!
# Specification: day numbers

The year table of the library gives the day number of the first day of each year. Together with the
layout of a year it gives every date a day number.
-/

namespace Verif

/-- Day number `n` is the date `(y, m, d)`: counting from the first day of year `y` it is the day
with this month and day number. -/
def DayNumber (C : Cal) (y m d n : ℤ) : Prop :=
  ∃ a b : ℤ, C.yearStart y = some a ∧ C.yearStart (y + 1) = some b ∧
    ∃ i : ℕ, n = a + i ∧ (specYear (b - a == 366))[i]? = some (m, d)

/-- The dates `(year, month, day)` on the eve of the twelve changes of the difference between the
historical and the astronomical count. -/
def changeEves : List (ℤ × ℤ × ℤ) :=
  [(-1744, 19, 1), (-1644, 0, 5), (-1544, 0, 4), (-1344, 19, 1), (-1244, 0, 5), (-1144, 0, 4),
   (-944, 19, 1), (-844, 0, 5), (-744, 0, 4), (-544, 19, 1), (-444, 0, 5), (-344, 0, 4)]

/-- The dates that follow them. -/
def changeDates : List (ℤ × ℤ × ℤ) :=
  [(-1744, 19, 2), (-1644, 19, 1), (-1544, 19, 1), (-1344, 19, 2), (-1244, 19, 1), (-1144, 19, 1),
   (-944, 19, 2), (-844, 19, 1), (-744, 19, 1), (-544, 19, 2), (-444, 19, 1), (-344, 19, 1)]

/-- The ten dates of year -261 (October 1582) whose day numbers fall in the reform gap. -/
def reformDates : List (ℤ × ℤ × ℤ) :=
  [(-261, 11, 9), (-261, 11, 10), (-261, 11, 11), (-261, 11, 12), (-261, 11, 13), (-261, 11, 14),
   (-261, 11, 15), (-261, 11, 16), (-261, 11, 17), (-261, 11, 18)]

/-- The date after the reform gap. -/
def reformEnd : ℤ × ℤ × ℤ := (-261, 11, 19)

end Verif
