import Verif.Model.Badi

/-!
# Specification: what is assumed about the sunset times

The astronomy of the library is an oracle (`Astro`).  The library asks it for the time of sunset on
a local civil day, counted by the Julian day number `D` of that day's noon (in the historical
numbering).  The answer is a fraction of a day, counted from local mean midnight.
-/

namespace Verif

/-- The Julian day of the local mean midnight that starts civil day `D` at longitude `lon`, as
the code computes it (base_calendar.py:348-351). -/
def localMidnight (lon : ℚ) (D : ℤ) : ℚ := fl (fl ((D : ℚ) - 1 / 2) - fl (lon / 360))

/-- Time of sunset on civil day `D`, as a fraction of a day after local mean midnight. -/
def sunsetTime (A : Astro) (lat lon : ℚ) (D : ℤ) : ℚ := A.setFrac (localMidnight lon D) lat lon

/-- First day of the era the library supports (with a margin), as a Julian day number. -/
def eraFirst : ℤ := 1721000
/-- Last day of the era the library supports (with a margin), as a Julian day number. -/
def eraLast : ℤ := 2820000

/-- On every day of the era the sun sets between 16:00 and 20:00 local mean time. -/
def Evening (A : Astro) (lat lon : ℚ) : Prop :=
  ∀ D : ℤ, eraFirst ≤ D → D ≤ eraLast →
    2 / 3 ≤ sunsetTime A lat lon D ∧ sunsetTime A lat lon D ≤ 5 / 6

/-- `Evening` at the reference point in Tehran. -/
def TehranEvening (A : Astro) : Prop := Evening A tehranLat tehranLon

end Verif
