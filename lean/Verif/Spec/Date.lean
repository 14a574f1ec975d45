import Verif.Spec.Days
import Verif.Model.Date

/-!
# Specification: the day a `date` object stands for
-/

namespace Verif

/-- The object stands for day number `n`: its year (in the long form, the year that Kull-i-Shay, Váḥid
and year of the Váḥid make up), month and day are those of day `n`. -/
def IsDay (C : Cal) (o : DateObj) (n : ℤ) : Prop :=
  match o with
  | .short y m d => DayNumber C y m d n
  | .long k v w m d => ∃ y, DenotesYear k v w y ∧ DayNumber C y m d n

/-- Day numbers that the library cannot convert back to a date: the twelve eves of a change of the
historical count, and ten days of the reform. -/
def lostDays (C : Cal) (n : ℤ) : Prop :=
  ∃ y m d, DayNumber C y m d n ∧ (y, m, d) ∈ changeEves ++ reformDates

/-- Day numbers that the library can convert to a date: from the first day of year -1843 to the first
day of year 1161, without the lost days. -/
def Convertible (C : Cal) (n : ℤ) : Prop :=
  (∃ a, C.yearStart (-1843) = some a ∧ a ≤ n) ∧ (∃ b, C.yearStart 1161 = some b ∧ n ≤ b) ∧ ¬ lostDays C n

end Verif
