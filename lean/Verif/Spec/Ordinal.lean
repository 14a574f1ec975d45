import Verif.Model.Badi

/-!
# Specification: what is assumed about the sunsets of the first days of the years

The ordinal of the first day of a year is computed from the difference between the time of the sunset
that starts it and the time of a fixed sunset, the one that starts the last day of year -1843, cut to
whole days. The hours of the two sunsets decide whether the cut loses a day. The code adds the lost day
back in three years it names.
-/

namespace Verif

/-- In the three years -1796, -1792 and -1788 the sun sets earlier (by the clock) on the eve of the
first day of the year than it did when the last day of year -1843 began; in all other years it does
not. -/
def NewYearOrder (C : Cal) : Prop :=
  ∀ (y : ℤ) (j0 j : ℚ), C.jdFromBadiDateDefault ⟨-1843, 19, 19, []⟩ = .ok j0 →
    C.jdFromBadiDateDefault ⟨y, 1, 1, []⟩ = .ok j →
    (Int.fract j < Int.fract j0 ↔ y = -1796 ∨ y = -1792 ∨ y = -1788)

end Verif
