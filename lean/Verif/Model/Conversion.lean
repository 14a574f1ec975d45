import Verif.Model.DateTime
import Verif.Model.Gregorian
import Verif.Model.Numeric

/-!
# Conversions between the calendars and timestamps

`badidatetime/badi_calendar.py` (BC below), `badidatetime/gregorian_calendar.py` (GC below) and the
constructors of `badidatetime/datetime.py` (DT below) that read a timestamp. Where the code takes the location
from a default, the model takes it as an argument: `_BAHAI_LOCATION` (BC:28) is `tehranLat`, `tehranLon`,
`tehranZone`, and `LOCAL_COORD` is any location.
-/

namespace Verif

/-- `ymdhms_from_date` with `us=True` (GC:286-311). -/
def ymdhmsFromDateUs (g : GDate) : Py GDate := do
  checkGregorian g
  let total := fl (fl (fl (fl (g.t.getD 0 0 * 3600) + fl (g.t.getD 1 0 * 60)) + g.t.getD 2 0)
    + fl (g.t.getD 3 0 / 1000000))
  let day := fl (g.d + fl (total / 86400))
  let (h, m, s, u) := hmsFromDecimalDayUs day
  .ok ⟨g.y, g.m, ⌊day⌋, [h, m, s, u]⟩

/-- `gregorian_date_from_jd` with `exact=True` (GC:84-184). -/
def gregorianDateFromJd (jd : ℚ) (hms us : Bool) : Py GDate :=
  let g := gregorianFromJdExact jd
  if hms then (if us then ymdhmsFromDateUs g else ymdhmsFromDate g) else .ok g

/-- `jd += self._HR(zone)` after `jd_from_badi_date` (BC:112-113, 135-136, 161-162 and 516-517). -/
def Cal.zoneJd (C : Cal) (b : ShortT) (lat lon zone : ℚ) : Py ℚ := do
  let jd ← C.jdFromBadiDate b lat lon
  .ok (fl (jd + fl (zone / 24)))

/-- `utc_sunset` (BC:96-114). -/
def Cal.utcSunset (C : Cal) (y m : ℤ) (d : ℚ) (lat lon zone : ℚ) : Py (ℤ × ℤ × ℚ) := do
  let jd ← C.zoneJd ⟨y, m, d, []⟩ lat lon zone
  .ok (hmsFromDecimalDay (fl (jd + 1 / 2)))

/-- `naw_ruz_g_date` (BC:116-137). -/
def Cal.nawRuzGDate (C : Cal) (year : ℤ) (lat lon zone : ℚ) (hms : Bool) : Py GDate := do
  let jd ← C.zoneJd ⟨year, 1, 1, []⟩ lat lon zone
  gregorianDateFromJd jd hms false

/-- `first_day_of_ridvan_g_date` (BC:139-163). -/
def Cal.ridvanGDate (C : Cal) (year : ℤ) (lat lon zone : ℚ) (hms : Bool) : Py GDate := do
  let jd ← C.zoneJd ⟨year, 2, 13, []⟩ lat lon zone
  gregorianDateFromJd jd hms false

/-- `badi_date_from_gregorian_date` (BC:458-491) with `_exact=True`. -/
def Cal.badiFromGregorian (C : Cal) (g : GDate) (lat lon : ℚ) (o : JdOpts) : Py BDate := do
  let jd ← jdFromGregorianExact g
  C.badiDateFromJd jd lat lon { o with fraction := false }

/-- `gregorian_date_from_badi_date` (BC:493-520) with `_exact=True`. -/
def Cal.gregorianFromBadi (C : Cal) (b : ShortT) (lat lon zone : ℚ) (us : Bool) : Py GDate := do
  let jd ← C.zoneJd b lat lon zone
  gregorianDateFromJd jd true us

/-- `midday` (BC:563-587) of a short form date, with `hms=False`. `_GMT_LOCATION` is BC:34; its zone is zero. -/
def Cal.midday (C : Cal) (b : ShortT) : Py ℚ := do
  let jd ← C.jdFromBadiDateDefault b
  let jd1 ← meeusFromExact jd
  let ss0 := sunSetting C.astro jd1 gmtLat gmtLon
  let jd2 ← meeusFromExact (fl (jd + 1))
  let ss1 := sunSetting C.astro jd2 gmtLat gmtLon
  localZoneCorrection (fl (fl (ss1 - ss0) / 2)) (some 0) none

/-- `_day_length` (BC:746-779) up to `ut_ss` (BC:760-770). `jd0` and `jd1` are integers of Python here. -/
def Cal.dayLengthRaw (C : Cal) (jd lat lon : ℚ) : Py ℚ := do
  let jd0 : ℚ := ⌊jd⌋
  let jd1 ← meeusFromExact (jd0 + 1)
  let ss1 := sunSetting C.astro jd1 lat lon
  let jd0 ← meeusFromExact jd0
  let ss0 := sunSetting C.astro jd0 lat lon
  .ok (fl (ss1 - ss0))

/-- `_day_length` (BC:746-779) with `decimal=True`. -/
def Cal.dayLength (C : Cal) (jd lat lon : ℚ) : Py ℚ := do
  let l ← C.dayLengthRaw jd lat lon
  .ok (pyRound l 12)

/-- `_day_length` (BC:746-779) with `decimal=False` (BC:774-777). -/
def Cal.dayLengthHms (C : Cal) (jd lat lon : ℚ) : Py (ℤ × ℤ × ℚ) := do
  let l ← C.dayLengthRaw jd lat lon
  let v := hmsFromDecimalDay l
  .ok (if v.1 = 0 then 24 else v.1, v.2.1, v.2.2)

/-- The tuple `date[:3]` or `date[:5]` passed to the constructor of `date` (DT:309-310). -/
def Cal.dateOfConversion (C : Cal) : BDate → Py DateObj
  | .short s => C.newDate (.short s.y s.m ⌊s.d⌋)
  | .long l => C.newDate (.long l.k l.v l.y l.m ⌊l.d⌋)

/-- `date.fromtimestamp` (DT:294-310); the coordinates are `LOCAL_COORD`. -/
def Cal.dateFromTimestamp (C : Cal) (t lat lon : ℚ) (short : Bool) : Py DateObj := do
  let b ← C.badiDateFromTimestamp t lat lon { short := short, trim := true }
  C.dateOfConversion b

/-- The end of `datetime._fromtimestamp` (DT:1845-1850): the seconds are limited to 59. The tuple has four time
fields, all integers. -/
def Cal.dtOfTuple (C : Cal) (d : DateObj) (t : List ℚ) (tz : Option Tz) : Py DT :=
  match t with
  | [h, mi, s, us] => C.newDT ⟨d, ⌊h⌋, ⌊mi⌋, min ⌊s⌋ 59, ⌊us⌋, tz, 0⟩
  | _ => .error .index

/-- `datetime._fromtimestamp` (DT:1806-1850) at the coordinates that line 1833-1840 choose. -/
def Cal.dtFromTimestamp (C : Cal) (t lat lon : ℚ) (tz : Option Tz) (short : Bool) : Py DT := do
  let b ← C.badiDateFromTimestamp t lat lon { us := true, short := short }
  match b with
  | .short s => C.dtOfTuple (.short s.y s.m ⌊s.d⌋) s.t tz
  | .long l => C.dtOfTuple (.long l.k l.v l.y l.m ⌊l.d⌋) l.t tz

/-- `datetime.date()` (DT:1988-1995): year, month and day only, whatever the form is. -/
def Cal.dtDate (C : Cal) (x : DT) : Py DateObj := C.newDate (.short x.d.ymd.1 x.d.ymd.2.1 x.d.ymd.2.2)

/-- `datetime.time()` (DT:1997-2005). -/
def dtTime (x : DT) : Py TimeObj := newTime ⟨x.h, x.mi, x.s, x.us, none, x.fold⟩

/-- `datetime.timetz()` (DT:2007-2015). -/
def dtTimetz (x : DT) : Py TimeObj := newTime ⟨x.h, x.mi, x.s, x.us, x.tz, x.fold⟩

end Verif
