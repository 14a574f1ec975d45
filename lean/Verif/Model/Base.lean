import Verif.Py.Float
import Verif.Py.Err

/-!
# Model of `badidatetime/base_calendar.py`

Everything except the astronomy proper.  Line numbers refer to
`/repo/badidatetime/base_calendar.py` unless another file is named.
-/

namespace Verif

/-- `_days_in_years` (base_calendar.py:1415-1444). Python `//` with a positive divisor is `Int./`. -/
def daysInYears (y : ℤ) (alt : Bool := false) : ℤ :=
  let n4 := y / 4
  let nLeap :=
    if alt then n4 - y / 128
    else n4 - y / 100 + y / 400
  let a := y - nLeap
  let b := y - a
  a * 365 + b * 366

/-- The table inside `_meeus_from_exact` (base_calendar.py:1463-1468). -/
def meeusTable : List (ℚ × ℤ) :=
  [(1757641.5, 0), (1794165.5, 1), (1830689.5, 2), (1903738.5, 3),
   (1940262.5, 4), (1976786.5, 5), (2049835.5, 6), (2086359.5, 7),
   (2122883.5, 8), (2195932.5, 9), (2232456.5, 10), (2268980.5, 11),
   (2299148.5, 12)]

/-- The table inside `_exact_from_meeus` (base_calendar.py:1546-1551). -/
def exactTable : List (ℚ × ℤ) :=
  [(1757641.5, 0), (1794166.5, 1), (1830691.5, 2), (1903741.5, 3),
   (1940266.5, 4), (1976791.5, 5), (2049841.5, 6), (2086366.5, 7),
   (2122891.5, 8), (2195941.5, 9), (2232466.5, 10), (2268991.5, 11),
   (2299160.5, 12)]

/-- The invalid historic days inside `_exact_from_meeus` (base_calendar.py:1535-1540). -/
def invalidDays : List (ℚ × ℚ) :=
  [(1757641.5, 1757642.5), (1794166.5, 1794167.5),
   (1830691.5, 1830692.5), (1903741.5, 1903742.5),
   (1940266.5, 1940267.5), (1976791.5, 1976792.5),
   (2049841.5, 2049842.5), (2086366.5, 2086367.5),
   (2122891.5, 2122892.5), (2195941.5, 2195942.5),
   (2232466.5, 2232467.5), (2268991.5, 2268992.5)]

/-- The loops `for j, df in jd_diff: if jd < j: diff = df; break` with the default `diff = 2`
(base_calendar.py:1469-1474 and 1552-1557). -/
def lookupDiff (jd : ℚ) : List (ℚ × ℤ) → ℤ
  | [] => 2
  | (j, df) :: rest => if jd < j then df else lookupDiff jd rest

/-- `_meeus_from_exact` (base_calendar.py:1446-1476). -/
def meeusFromExact (jd : ℚ) : Py ℚ :=
  if 2299148.5 ≤ jd ∧ jd < 2299158.5 then .error .value
  else .ok (fl (jd + lookupDiff jd meeusTable))

/-- `_exact_from_meeus` (base_calendar.py:1478-1559). -/
def exactFromMeeus (jd : ℚ) : Py ℚ :=
  if invalidDays.any (fun se => se.1 ≤ jd ∧ jd < se.2) then .error .value
  else .ok (fl (jd - lookupDiff jd exactTable))

/-- The astronomy oracle: `setFrac jd0 lat lon` stands for the value returned by
`_rising_setting(jd0, lat, lon, offset=_SUN_OFFSET, sr_ss='SET')` (base_calendar.py:356-400), that
is, for the sidereal time, right ascension and declination computation and the C math library underneath. The
code ends with `return m % 1`, so the value lies in `[0, 1]`. -/
structure Astro where
  setFrac : ℚ → ℚ → ℚ → ℚ

/-- `_sun_setting` (base_calendar.py:325-354). -/
def sunSetting (A : Astro) (jd lat lon : ℚ) : ℚ :=
  let lonFrac := fl (lon / 360)
  let jdLocal := fl (jd + lonFrac)
  let jd0 := fl ((⌊fl (jdLocal + 1 / 2)⌋ : ℚ) - 1 / 2)
  let jd0 := fl (jd0 - lonFrac)
  let m := A.setFrac jd0 lat lon
  pyRound (fl (jd0 + m)) 12

/-- `_PARTIAL_DAY_TO_HOURS` (base_calendar.py:39). -/
def partialDayToHours (x : ℚ) : ℚ := pyRound (fl (pyMod1 x * 24)) 6

/-- `_PARTIAL_HOUR_TO_MINUTE` and `_PARTIAL_MINUTE_TO_SECOND` (base_calendar.py:40-41). -/
def partialHourToMinute (x : ℚ) : ℚ := pyRound (fl (pyMod1 x * 60)) 6

/-- `_PARTIAL_SECOND_TO_MICROSECOND` (base_calendar.py:42). -/
def partialSecondToMicrosecond (x : ℚ) : ℤ := pyInt (fl (pyRound (pyMod1 x) 6 * 1000000))

/-- `_hms_from_decimal_day` with `us=False` (base_calendar.py:1256-1285). -/
def hmsFromDecimalDay (dec : ℚ) : ℤ × ℤ × ℚ :=
  let h := partialDayToHours dec
  let hour := ⌊h⌋
  let m := partialHourToMinute h
  let minute := ⌊m⌋
  let second := partialHourToMinute m
  (hour, minute, second)

/-- `_hms_from_decimal_day` with `us=True` (base_calendar.py:1256-1285). -/
def hmsFromDecimalDayUs (dec : ℚ) : ℤ × ℤ × ℤ × ℤ :=
  let (hour, minute, second) := hmsFromDecimalDay dec
  (hour, minute, ⌊second⌋, partialSecondToMicrosecond second)

/-- `_decimal_day_from_hms` (base_calendar.py:1287-1303), including the assertion that seconds
have no fraction when microseconds are given. Hours and minutes are integers here (the API also
accepts fractional hours or minutes, which are not used through this function). -/
def decimalDayFromHms (h m : ℚ) (s : ℚ) (us : ℚ) : Py ℚ :=
  if (pyMod1 s ≠ 0 ∧ us = 0) ∨ (pyMod1 s = 0 ∧ us ≠ 0) ∨ (pyMod1 s = 0 ∧ us = 0) then
    .ok (fl (fl (fl (fl (fl (h * 3600) + fl (m * 60)) + s) + fl (us / 1000000)) / 86400))
  else .error .assertion

/-- `_sec_microsec_from_seconds` (base_calendar.py:1305-1318). -/
def secMicrosecFromSeconds (second : ℚ) : ℤ × ℤ :=
  let p := pyMod1 second
  let s := fl (|second| - p)
  let s := if second < 0 then -s else s
  (⌊s⌋, partialSecondToMicrosecond second)

/-- `_truncate_decimal` with a float argument (base_calendar.py:1597-1612): the product with the
integer `10^places` and the final integer division are rounded to binary64. -/
def truncateDecimal (n : ℚ) (places : ℕ) : ℚ :=
  fl ((⌊fl (n * 10 ^ places)⌋ : ℚ) / 10 ^ places)

/-- `_xor_boolean` (base_calendar.py:1614-1625). -/
def xorBoolean (bs : List Bool) : Bool :=
  let count := bs.count true
  count % 2 == 1 || count == 0

end Verif
