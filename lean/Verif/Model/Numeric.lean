import Verif.Model.Base

/-!
# Numeric helpers of `badidatetime/base_calendar.py`

Line numbers refer to `/repo/badidatetime/base_calendar.py`.  `_poly`, `_sigma` and
`_interpolation_from_three` are modelled with exact arithmetic: that is their behaviour on `int` and
`Fraction` arguments; on floats every operation is rounded in addition, which is not modelled for these
three. All other functions are modelled with the binary64 rounding of every operation.
-/

namespace Verif

/-- `_poly` (base_calendar.py:1386-1413), exact arithmetic. -/
def poly (x : ℚ) : List ℚ → ℚ
  | [] => 0
  | a :: rest => a + x * poly x rest

/-- `_sigma` (base_calendar.py:1356-1384) for two parallel lists, exact arithmetic. -/
def sigma2 (l1 l2 : List ℚ) (f : ℚ → ℚ → ℚ) : Py ℚ :=
  if l1.length = l2.length then .ok ((List.zipWith f l1 l2).sum) else .error .assertion

/-- `_interpolation_from_three` (base_calendar.py:1573-1595), exact arithmetic. -/
def interpolationFromThree (y1 y2 y3 n : ℚ) (normalize : Bool := false) : ℚ :=
  let a := y2 - y1
  let b := y3 - y2
  let a := if normalize then a + (if a < 0 then 360 else 0) else a
  let b := if normalize then b + (if b < 0 then 360 else 0) else b
  let c := b - a
  y2 + (n / 2) * (a + b + n * c)

/-- C `fmod(x, y)` for `y > 0`: the remainder with the sign of `x`; it is exact in binary64. -/
def fmod (x y : ℚ) : ℚ :=
  let q := x / y
  x - y * (if 0 ≤ q then (⌊q⌋ : ℚ) else (⌈q⌉ : ℚ))

/-- `_coterminal_angle` (base_calendar.py:1561-1571). -/
def coterminalAngle (value : ℚ) : ℚ :=
  let v := fmod value 360
  if v < 0 then fl (v + 360) else v

/-- `_decimal_from_dms` (base_calendar.py:1037-1076); `direction` is the upper-cased direction
argument. -/
def decimalFromDms (degrees minutes : ℤ) (seconds : ℚ) (direction : String) : Py ℚ :=
  if direction ∈ ["N", "S", "E", "W"] then
    let degrees := if degrees < 0 then -degrees else degrees
    let decimal : ℚ := fl (fl (degrees + fl ((minutes : ℚ) / 60)) + fl (seconds / 3600))
    .ok (if direction ∈ ["S", "W"] then -decimal else decimal)
  else .error .assertion

/-- `_dms_from_decimal` (base_calendar.py:1078-1107); `direction` is the upper-cased direction
argument, as a list of characters. -/
def dmsFromDecimal (coord : ℚ) (direction : List Char) : Py (ℤ × ℤ × ℚ × String) :=
  if 3 ≤ direction.length ∧
      (direction.isPrefixOf "LATITUDE".toList ∨ direction.isPrefixOf "LONGITUDE".toList) then
    let degrees := ⌊|coord|⌋
    let minutes := ⌊fl (fl (|coord| - degrees) * 60)⌋
    let seconds := fl (fl (fl (|coord| - degrees) - fl ((minutes : ℚ) / 60)) * 3600)
    let direc :=
      if coord < 0 then (if direction = "LAT".toList then "S" else "W")
      else (if direction = "LAT".toList then "N" else "E")
    .ok (degrees, minutes, seconds, direc)
  else .error .assertion

/-- `_degrees_from_hms` (base_calendar.py:1109-1127). -/
def degreesFromHms (h m : ℤ) (s : ℚ) : ℚ :=
  fl (fl ((15 * h : ℤ) + fl ((15 * m : ℤ) / 60)) + fl (fl (15 * s) / 3600))

/-- `_hms_from_degrees` (base_calendar.py:1129-1148). -/
def hmsFromDegrees (deg : ℚ) : ℤ × ℤ × ℚ :=
  let h := ⌊fl (deg / 15)⌋
  let m := ⌊fl (fl (fl (deg / 15) - h) * 60)⌋
  let s := fl (fl (fl (fl (deg / 15) - h) - fl ((m : ℚ) / 60)) * 3600)
  (h, m, s)

/-- `_seconds_from_dhms` (base_calendar.py:1150-1175). The sum of the integer terms is exact. -/
def secondsFromDhms (days hours minutes : ℤ) (seconds : ℚ) (microseconds : ℤ := 0)
    (zone : ℚ := 0) : Py ℚ :=
  let total (sec : ℚ) : ℚ :=
    fl (fl ((days * 86400 + hours * 3600 + minutes * 60 : ℤ) + sec) + fl (zone * 3600))
  if 0 < microseconds then
    if pyMod1 seconds = 0 then .ok (total (fl (seconds + fl ((microseconds : ℚ) / 1000000))))
    else .error .assertion
  else .ok (total seconds)

/-- `_dhms_from_seconds` with `us=False` (base_calendar.py:1177-1216). -/
def dhmsFromSeconds (seconds : ℚ) (zone : ℚ := 0) : ℤ × ℤ × ℤ × ℚ :=
  let seconds := fl (seconds + fl (zone * 3600))
  let hours := ⌊fl (seconds / 3600)⌋
  let m := fl (fl (seconds - (hours * 3600 : ℤ)) / 60)
  let minutes := ⌊m⌋
  let day : ℤ := if hours < 24 then 0 else 1
  let seconds := if hours < 24 then seconds else fl (seconds - 86400)
  let hours := if hours < 24 then hours else hours - 24
  let sec := fl (fl (seconds - (hours * 3600 : ℤ)) - (minutes * 60 : ℤ))
  (day, hours, minutes, sec)

/-- `_dhms_from_seconds` with `us=True` (base_calendar.py:1209-1210). -/
def dhmsFromSecondsUs (seconds : ℚ) (zone : ℚ := 0) : ℤ × ℤ × ℤ × ℤ × ℤ :=
  let (day, hours, minutes, sec) := dhmsFromSeconds seconds zone
  (day, hours, minutes, ⌊sec⌋, pyInt (fl (pyRound (pyMod1 sec) 6 * 1000000)))

/-- `_tz_decimal_from_dhms` (base_calendar.py:1218-1237). -/
def tzDecimalFromDhms (days hours minutes : ℤ) (seconds : ℚ) : Py ℚ := do
  let s ← secondsFromDhms days hours minutes seconds
  .ok (fl (s / 86400))

/-- `_tz_dhms_from_decimal` (base_calendar.py:1239-1254). -/
def tzDhmsFromDecimal (dec : ℚ) : ℤ × ℤ × ℤ × ℚ := dhmsFromSeconds (fl (dec * 86400))

/-- `_local_zone_correction` (base_calendar.py:1627-1667); `_HR` is base_calendar.py:23. -/
def localZoneCorrection (jdUt : ℚ) (zone lon : Option ℚ) (inverse modJd : Bool := false) :
    Py ℚ := do
  match zone with
  | some z => pyAssert (-180 ≤ z ∧ z ≤ 180)
  | none => pure ()
  pyAssert (zone.isSome || lon.isSome)
  let z := match zone with
    | some z => z
    | none => fl ((lon.getD 0) / 360)
  let decHr := fl (z / 24)
  let modified := if inverse then fl (jdUt - decHr) else fl (jdUt + decHr)
  if modJd then .ok modified else .ok (pyRound (pyMod1 modified) 12)

/-- `_divide_and_round` (datetime.py:46-66); Python `divmod` is `Int.fdiv` / `Int.fmod`. -/
def divideAndRound (a b : ℤ) : ℤ :=
  let q := Int.fdiv a b
  let r := Int.fmod a b
  let r := r * 2
  let greaterThanHalf : Bool := if 0 < b then b < r else r < b
  q + (if greaterThanHalf || (r == b && q % 2 == 1) then 1 else 0)

end Verif
