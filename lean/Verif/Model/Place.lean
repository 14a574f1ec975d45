import Verif.Model.Conversion
import Verif.Model.TimeZone

/-!
# The optional place of the conversions, and the place of `fromtimestamp`
-/

namespace Verif

/-- `if any([True if l is None else False for l in (lat, lon, zone)]): lat, lon, zone =
self._BAHAI_LOCATION[:3]` (badi_calendar.py:108-109, 131-132, 157-158, 198-199, 245-246, 513-514).
`zone` is not used further by the two functions below, so only the coordinates are kept. -/
def placeOr : Option ℚ → Option ℚ → Option ℚ → ℚ × ℚ
  | some lat, some lon, some _ => (lat, lon)
  | _, _, _ => (tehranLat, tehranLon)

/-- `jd_from_badi_date(b, lat, lon, zone)` (badi_calendar.py:165-210) with its optional place. -/
def Cal.jdFromBadiDateAt (C : Cal) (b : ShortT) (lat lon zone : Option ℚ) : Py ℚ :=
  C.jdFromBadiDate b (placeOr lat lon zone).1 (placeOr lat lon zone).2

/-- `badi_date_from_jd(jd, lat, lon, zone, ...)` (badi_calendar.py:212-283) with its optional
place. -/
def Cal.badiDateFromJdAt (C : Cal) (jd : ℚ) (lat lon zone : Option ℚ) (o : JdOpts) : Py BDate :=
  C.badiDateFromJd jd (placeOr lat lon zone).1 (placeOr lat lon zone).2 o

/-- `timestamp_from_badi_date(b, lat, lon, zone)` (badi_calendar.py:547-561) with its optional place. -/
def Cal.timestampAt (C : Cal) (b : ShortT) (lat lon zone : Option ℚ) : Py ℚ :=
  C.timestampFromBadiDate b (placeOr lat lon zone).1 (placeOr lat lon zone).2

/-- The argument `tz` of `datetime.fromtimestamp`: none, a zone without coordinates, or a `TZWithCoords`
(`id` tells zone objects apart, as in `Tz`). -/
inductive StampZone where
  | none
  | plain (z : Tz)
  | coord (id : ℕ) (z : CoordZone)

/-- The zone as a field of the result. -/
def StampZone.tz : StampZone → Option Tz
  | .none => Option.none
  | .plain z => some z
  | .coord id z => some ⟨id, z.off⟩

/-- The coordinates chosen by `_fromtimestamp` (datetime.py:1833-1840); `loc` is `LOCAL_COORD`. -/
def StampZone.coords (loc : ℚ × ℚ × ℚ) : StampZone → Option ℚ × Option ℚ × Option ℚ
  | .coord _ z => (some z.coords.1, some z.coords.2.1, z.coords.2.2)
  | _ => (some loc.1, some loc.2.1, some loc.2.2)

/-- `datetime.fromtimestamp(t, tz, short=…)` (datetime.py:1853-1870 and 1806-1850). -/
def Cal.fromTimestamp (C : Cal) (loc : ℚ × ℚ × ℚ) (t : ℚ) (z : StampZone) (short : Bool) : Py DT :=
  let c := z.coords loc
  C.dtFromTimestamp t (placeOr c.1 c.2.1 c.2.2).1 (placeOr c.1 c.2.1 c.2.2).2 z.tz short

end Verif
