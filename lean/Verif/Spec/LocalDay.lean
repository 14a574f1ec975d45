import Verif.Spec.Evening
import Verif.Model.SunRising

/-!
# Specification: the day of an instant in local mean time
-/

namespace Verif

/-- The day of the instant `x` (a Julian day in Universal Time) at the longitude `lon`, in local mean time: the number of
the Julian day that begins at its noon. -/
def localDay (lon x : ℚ) : ℤ := ⌊x + lon / 360 + 1 / 2⌋

/-- The time of day of the instant `x`, as a part of a day after local mean midnight. -/
def localClock (lon x : ℚ) : ℚ := x + lon / 360 + 1 / 2 - localDay lon x

/-- Two milliseconds or more away from local mean midnight. -/
def OffMidnight (lon x : ℚ) : Prop := 1 / 40000000 ≤ localClock lon x ∧ localClock lon x ≤ 1 - 1 / 40000000

/-- On every day of the era the sun rises in the morning and sets in the afternoon, a hundredth of a day or more from midnight
and noon. -/
def RisesAndSets (R : RiseAstro) (A : Astro) (lat lon : ℚ) : Prop :=
  ∀ D : ℤ, eraFirst ≤ D → D ≤ eraLast →
    (1 / 100 ≤ R.frac (localMidnight lon D) lat lon ∧ R.frac (localMidnight lon D) lat lon ≤ 49 / 100) ∧
    51 / 100 ≤ sunsetTime A lat lon D ∧ sunsetTime A lat lon D ≤ 99 / 100

end Verif
