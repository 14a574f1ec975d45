import Verif.Model.DateTime
import Verif.Py.Text

/-!
# Model of `class timezone` of `badidatetime/datetime.py`

Line numbers refer to `/repo/badidatetime/datetime.py`.
-/

namespace Verif

/-- A `timezone` object: identity, offset in microseconds, given name (lines 2683-2697). -/
structure Zone where
  id : ℕ
  off : ℤ
  name : Option Str
  deriving DecidableEq, Repr

/-- The zone as the rest of the model sees it. -/
def Zone.tz (z : Zone) : Tz := ⟨z.id, z.off⟩

/-- `timezone.utc` (line 2952), an object with the identity 0. -/
def utcZone : Zone := ⟨0, 0, some "UTC".toList⟩
/-- `timezone.badi` (line 2953), an object with the identity 1. -/
def badiZone : Zone := ⟨1, 12600000000, some "Asia/Tehran".toList⟩

/-- `timezone.__new__` (lines 2653-2680); `fresh` is the identity of a new object. -/
def newZone (fresh : ℕ) (off : ℤ) (name : Option Str) : Py Zone :=
  if name = none ∧ off = 0 then .ok utcZone
  else if -(24 * 3600000000 - 1) ≤ off ∧ off ≤ 24 * 3600000000 - 1 then .ok ⟨fresh, off, name⟩
  else .error .value

/-- `timezone.__eq__` between zones (lines 2699-2703). -/
def zoneEq (a b : Zone) : Bool := a.off == b.off

/-- `timezone.__hash__` (lines 2826-2827). -/
def zoneHash (H : PyHash) (z : Zone) : ℤ := H.delta z.off

/-- `timezone.utcoffset` (lines 2743-2756) with a datetime or `None`. -/
def zoneUtcOffset (z : Zone) (_dt : Option DT) : ℤ := z.off

/-- `timezone._name_from_offset` (lines 2796-2820). -/
def nameFromOffset (delta : ℤ) : Str :=
  if delta = 0 then "UTC".toList
  else
    let sign := if delta < 0 then '-' else '+'
    let n := delta.natAbs
    let hours := n / 3600000000
    let mins := n % 3600000000
    let minutes := mins / 60000000
    let seconds := mins % 60000000 / 1000000
    let micro := mins % 1000000
    let head := "UTC".toList ++ sign :: padNat 2 hours ++ ':' :: padNat 2 minutes
    if micro ≠ 0 then head ++ ':' :: padNat 2 seconds ++ '.' :: padNat 6 micro
    else if seconds ≠ 0 then head ++ ':' :: padNat 2 seconds
    else head

/-- `timezone.tzname` (lines 2767-2775). -/
def tzName (z : Zone) : Str :=
  match z.name with
  | none => nameFromOffset z.off
  | some s => s

/-- `timezone.fromutc` (lines 2784-2793). -/
def Cal.zoneFromUtc (C : Cal) (z : Zone) (x : DT) : Py DT :=
  if x.tz ≠ some z.tz then .error .value else C.dtAdd x z.off

/-- A `TZWithCoords` object (lines 2836-2863); the offset is in microseconds, `name` is the attribute `_name`. -/
structure CoordZone where
  lat : ℚ
  lon : ℚ
  zone : Option ℚ
  key : Str
  coords : ℚ × ℚ × Option ℚ
  off : ℤ
  name : Option Str
  deriving DecidableEq, Repr

/-- The offset for a zone in hours (lines 2850-2853). -/
def coordOffset (hours : ℚ → ℤ) : Option ℚ → ℤ
  | none => 0
  | some z => hours z

/-- `TZWithCoords.__new__` (lines 2838-2863). `hours` is `timedelta(hours=…)` in microseconds, whose rounding of
fractions is left open. -/
def newCoordZone (hours : ℚ → ℤ) (lat lon : ℚ) (zone : Option ℚ) (key : Option Str) : Py CoordZone := do
  let name := key.getD []
  let z ← newZone 0 (coordOffset hours zone) (some name)
  .ok ⟨lat, lon, zone, name, (lat, lon, zone), z.off, if name = [] then none else some name⟩

/-- `tzname` of a `TZWithCoords` object, inherited (lines 2767-2775). -/
def CoordZone.tzName (z : CoordZone) : Str :=
  match z.name with
  | none => nameFromOffset z.off
  | some s => s

/-- `TZWithCoords.__setstate__` (lines 2935-2949). -/
def CoordZone.setState (hours : ℚ → ℤ) (z : CoordZone) (zone : Option ℚ) (key : Str) : CoordZone :=
  { z with
    off := match zone with
      | none => z.off
      | some h => hours h
    key := key
    coords := (z.lat, z.lon, zone) }

/-- Pickling and unpickling a `TZWithCoords` object: `__reduce__` (lines 2924-2932), then the constructor with
two arguments and `__setstate__`. -/
def coordZonePickle (hours : ℚ → ℤ) (z : CoordZone) : Py CoordZone := do
  let n ← newCoordZone hours z.lat z.lon none none
  .ok (n.setState hours z.coords.2.2 z.key)

end Verif
