import Verif.Model.Base
import Verif.Model.Coeff

/-!
# Model of `badidatetime/badi_calendar.py`

Line numbers refer to `/repo/badidatetime/badi_calendar.py`.

Tuples: a short form tuple `(year, month, day) + time` is `ShortT`, a long form tuple
`(kull_i_shay, vahid, year, month, day) + time` is `LongT`; `time` is the list of the remaining
elements (hour, minute, second, microsecond; possibly fewer).  `None` entries, which the code treats as
zero, are not represented: they are written as `0`.
-/

namespace Verif

/-- A short form Badí' tuple `(y, m, d, *t)`. -/
structure ShortT where
  y : ℤ
  m : ℤ
  d : ℚ
  t : List ℚ
  deriving DecidableEq, Repr

/-- A long form Badí' tuple `(k, v, y, m, d, *t)`. -/
structure LongT where
  k : ℤ
  v : ℤ
  y : ℤ
  m : ℤ
  d : ℚ
  t : List ℚ
  deriving DecidableEq, Repr

/-- A date in either form (return type of `badi_date_from_jd`). -/
inductive BDate where
  | short (s : ShortT)
  | long (l : LongT)
  deriving DecidableEq, Repr

/-- Latitude of `_BAHAI_LOCATION` (badi_calendar.py:28). -/
def tehranLat : ℚ := fl 35.69435
/-- Longitude of `_BAHAI_LOCATION` (badi_calendar.py:28). -/
def tehranLon : ℚ := fl 51.288701
/-- Zone of `_BAHAI_LOCATION` (badi_calendar.py:28). -/
def tehranZone : ℚ := 3.5
/-- `_GMT_LOCATION` latitude and longitude (badi_calendar.py:34). -/
def gmtLat : ℚ := fl 51.477928
/-- Longitude of `_GMT_LOCATION` (badi_calendar.py:34). -/
def gmtLon : ℚ := fl (-0.001545)
/-- `_BADI_EPOCH` (badi_calendar.py:40). -/
def badiEpoch : ℚ := fl 2394643.11511551
/-- `KULLISHAY_MIN` (badi_calendar.py:45). -/
def kullishayMin : ℤ := -5
/-- `KULLISHAY_MAX` (badi_calendar.py:49). -/
def kullishayMax : ℤ := 4
/-- `MINYEAR` (badi_calendar.py:53). -/
def minYear : ℤ := -1842
/-- `MAXYEAR` (badi_calendar.py:57). -/
def maxYear : ℤ := 1161
/-- `PROLEPTIC_GREG_1ST_DAY` (badi_calendar.py:61). -/
def prolepticGreg1stDay : ℚ := 1721423.5
/-- `_RD_START` (badi_calendar.py:65). -/
def rdStart : ℤ := -287

/-- The class attributes that are filled in by `init_leap_cache` (`__init__.py`:111-117):
`_YEAR_START` (a dict) and `_RD_END`, together with the astronomy oracle. -/
structure Cal where
  astro : Astro
  yearStart : ℤ → Option ℤ
  rdEnd : ℤ

/-- `_is_leap_year` (badi_calendar.py:715-723); a missing key raises `KeyError`. -/
def Cal.isLeapYear (C : Cal) (year : ℤ) : Py Bool :=
  match C.yearStart (year + 1), C.yearStart year with
  | some b, some a => .ok (b - a == 366)
  | _, _ => .error .key

/-- `_get_hms` (badi_calendar.py:725-744) on the time part of a tuple. -/
def getHms (t : List ℚ) : ℚ × ℚ × ℚ × ℚ :=
  (t.getD 0 0, t.getD 1 0, t.getD 2 0, t.getD 3 0)

/-- `_trim_hms` (badi_calendar.py:589-624): the loop over the reversed tuple. -/
def trimLoop : List ℚ → Bool → List ℚ → List ℚ
  | [], _, items => items
  | v :: rest, has, items =>
    if v = 0 ∧ has = false then trimLoop rest has items
    else trimLoop rest true (items ++ [v])

/-- `_trim_hms` (badi_calendar.py:589-624). -/
def trimHms (hms : List ℚ) : List ℚ := (trimLoop hms.reverse false []).reverse

/-- `_check_valid_badi_time` (badi_calendar.py:690-713). -/
def checkValidBadiTime (hour minute second us : ℚ) (maxsec : ℚ := 60) : Py Unit := do
  pyAssert (0 ≤ hour ∧ hour < 25)
  pyAssert (0 ≤ minute ∧ minute < 60)
  pyAssert (0 ≤ second ∧ second < maxsec)
  pyAssert (0 ≤ us ∧ us < 1000000)

/-- `cycle` for the day check (badi_calendar.py:643 and 670). -/
def Cal.cycleOf (C : Cal) (ly m : ℤ) : Py ℤ :=
  if m = 0 then do
    let leap ← C.isLeapYear ly
    .ok (5 + if leap then 1 else 0)
  else .ok 20

/-- The checks on fractional parts (badi_calendar.py:677-688). -/
def checkFractions (d hour minute second : ℚ) : Py Unit :=
  if (hour ≠ 0 ∨ minute ≠ 0 ∨ second ≠ 0) ∧ pyMod1 d ≠ 0 then .error .assertion
  else if (minute ≠ 0 ∨ second ≠ 0) ∧ pyMod1 hour ≠ 0 then .error .assertion
  else if second ≠ 0 ∧ pyMod1 minute ≠ 0 then .error .assertion
  else .ok ()

/-- The common tail of `_check_valid_badi_date` (badi_calendar.py:667-688), `ly` being the short
form year used for the leap year test. -/
def Cal.checkTail (C : Cal) (ly m : ℤ) (d : ℚ) (t : List ℚ) : Py Unit := do
  let (hour, minute, second, us) := getHms t
  pyAssert (0 ≤ m ∧ m < 20)
  let cycle ← C.cycleOf ly m
  pyAssert (1 ≤ d ∧ d < cycle)
  checkValidBadiTime hour minute second us
  checkFractions d hour minute second

/-- `_check_valid_badi_date` with `short_in=True` (badi_calendar.py:626-688). -/
def Cal.checkShort (C : Cal) (b : ShortT) : Py Unit := do
  pyAssert (minYear - 1 ≤ b.y ∧ b.y ≤ maxYear + 1)
  C.checkTail b.y b.m b.d b.t

/-- The short form year of a long form date (badi_calendar.py:658 and 320). -/
def longYear (k v y : ℤ) : ℤ := (k - 1) * 361 + (v - 1) * 19 + y

/-- `_check_valid_badi_date` with `short_in=False` (badi_calendar.py:626-688). -/
def Cal.checkLong (C : Cal) (b : LongT) : Py Unit := do
  pyAssert (kullishayMin - 1 ≤ b.k ∧ b.k ≤ kullishayMax + 1)
  pyAssert (1 ≤ b.v ∧ b.v < 20)
  pyAssert (1 ≤ b.y ∧ b.y < 20)
  C.checkTail (longYear b.k b.v b.y) b.m b.d b.t

/-- Days of the year before the month (badi_calendar.py:188-193). -/
def Cal.daysBefore (C : Cal) (y m : ℤ) : Py ℤ :=
  if m = 0 then .ok (18 * 19)
  else if m < 19 then .ok ((m - 1) * 19)
  else do
    let leap ← C.isLeapYear y
    .ok (18 * 19 + 4 + if leap then 1 else 0)

/-- `jd_from_badi_date` (badi_calendar.py:165-210) with explicit coordinates. The sum
`td + floor(epoch + 1) + days + day` is an integer plus `day`; it is rounded once (`day` may have
a fraction). -/
def Cal.jdFromBadiDate (C : Cal) (b : ShortT) (lat lon : ℚ) : Py ℚ := do
  C.checkShort b
  let (hh, mm, ss, us) := getHms b.t
  let days ← C.daysBefore b.y b.m
  let td := daysInYears (b.y - 1)
  let jd := fl ((td + ⌊fl (badiEpoch + 1)⌋ + days : ℤ) + b.d)
  let jd0 ← meeusFromExact jd
  let coeff := getDayCoeff b.y
  let jd0 := fl (jd0 + coeff)
  let jdSs := sunSetting C.astro jd0 lat lon
  let aSs ← exactFromMeeus jdSs
  let dayFrac ← decimalDayFromHms hh mm ss us
  .ok (pyRound (fl (aSs + dayFrac)) 12)

/-- `jd_from_badi_date` with the default location (badi_calendar.py:198-199). -/
def Cal.jdFromBadiDateDefault (C : Cal) (b : ShortT) : Py ℚ :=
  C.jdFromBadiDate b tehranLat tehranLon

/-- The loop body of `_build_badi_year_start` (badi_calendar.py:815-821). -/
def Cal.yearStartRd (C : Cal) (year : ℤ) : Py ℤ := do
  let lonDiv := fl (tehranLon / 360)
  let jd ← C.jdFromBadiDateDefault ⟨year, 1, 1, []⟩
  let jdInt := pyInt jd
  let frac := fl (jd - jdInt)
  .ok ⌊fl (fl (jdInt - prolepticGreg1stDay) +
    fl (fl (fl (frac + lonDiv) + 1 / 2) + fl 1e-12))⌋

/-- The dict built by `_build_badi_year_start` (badi_calendar.py:811-823) as a lookup function. A
key is present when the loop visits it and the body does not raise. -/
def Cal.buildYearStart (C : Cal) : ℤ → Option ℤ := fun year =>
  if minYear - 1 ≤ year ∧ year < maxYear + 2 then
    match C.yearStartRd year with
    | .ok rd => some rd
    | .error _ => none
  else none

/-- `init_leap_cache` (`__init__.py`:111-117) run from the state `C`: it stores the new table and
`_RD_END = _YEAR_START[MAXYEAR]`. (A missing key would raise; the value `0` is then never used.) -/
def Cal.initLeapCache (C : Cal) : Cal :=
  let ys := C.buildYearStart
  { astro := C.astro, yearStart := ys, rdEnd := (ys maxYear).getD 0 }

/-- The state right after `import badidatetime`: no table (`None`) before `init_leap_cache`. -/
def Cal.init (A : Astro) : Cal :=
  Cal.initLeapCache { astro := A, yearStart := fun _ => none, rdEnd := 0 }

/-- `_badi_year_from_rd` (badi_calendar.py:285-305). -/
def Cal.badiYearFromRd (C : Cal) (rd : ℤ) : Py ℤ := do
  pyAssert (rdStart ≤ rd ∧ rd ≤ C.rdEnd)
  let y := pyInt (fl ((rd - rdStart : ℤ) / fl 365.2425)) + minYear
  let y := if y < minYear then minYear else if maxYear < y then maxYear else y
  match C.yearStart y with
  | none => .error .key
  | some ys =>
    if rd < ys then .ok (y - 1)
    else if (C.yearStart (y + 1)).getD (C.rdEnd + 1) ≤ rd then .ok (y + 1)
    else .ok y

/-- `_utc_to_badi_time` (badi_calendar.py:781-809). -/
def Cal.utcToBadiTime (C : Cal) (jd lat lon : ℚ) : Py (ℚ × ℚ) := do
  let histJd ← meeusFromExact jd
  let ssPrev ← exactFromMeeus (sunSetting C.astro (fl (histJd + (-1))) lat lon)
  let ssCurr ← exactFromMeeus (sunSetting C.astro (fl (histJd + 0)) lat lon)
  let astroSs := if ssCurr ≤ jd then ssCurr else ssPrev
  let delta := fl (jd - astroSs)
  let astroSs := if delta < 0 then fl (astroSs - 1) else if 1 ≤ delta then fl (astroSs + 1)
    else astroSs
  .ok (astroSs, fl (jd - astroSs))

/-- Month and day from the day of the year (badi_calendar.py:258-266). -/
def monthDayFromDoy (doy ayyamiha : ℤ) : ℤ × ℤ :=
  if doy ≤ 342 then ((doy - 1) / 19 + 1, (doy - 1) % 19 + 1)
  else if doy ≤ 342 + ayyamiha then (0, doy - 342)
  else (19, doy - (342 + ayyamiha))

/-- The first half of `badi_date_from_jd` (badi_calendar.py:247-266): year, month, day and the
elapsed day fraction. -/
def Cal.badiYmdFromJd (C : Cal) (jd lat lon : ℚ) : Py (ℤ × ℤ × ℤ × ℚ) := do
  let (astroSs, frac) ← C.utcToBadiTime jd lat lon
  let localCivilDay := ⌊fl (fl (astroSs + fl (lon / 360)) + 1 / 2)⌋
  let civilEpoch := ⌊fl (prolepticGreg1stDay + 1 / 2)⌋
  let rd := localCivilDay - civilEpoch + 1
  let year ← C.badiYearFromRd rd
  match C.yearStart year with
  | none => .error .key
  | some ysRd =>
    let doy := rd - ysRd + 1
    let leap ← C.isLeapYear year
    let ayyamiha : ℤ := 4 + if leap then 1 else 0
    let (month, day) := monthDayFromDoy doy ayyamiha
    .ok (year, month, day, frac)

/-- `dm`, the length of the month (badi_calendar.py:321). -/
def Cal.monthLen (C : Cal) (y m : ℤ) : Py ℤ :=
  if 1 ≤ m ∧ m < 20 then .ok 19 else do
    let leap ← C.isLeapYear y
    .ok (4 + if leap then 1 else 0)

/-- `short_date_from_long_date` (badi_calendar.py:307-351). -/
def Cal.shortFromLong (C : Cal) (b : LongT) (trim : Bool) : Py ShortT := do
  let (hh, mm, ss, us) := getHms b.t
  let y := longYear b.k b.v b.y
  let dm ← C.monthLen y b.m
  let (mm, ss) := if 60 ≤ ss then (fl (mm + 1), fl (ss - 1)) else (mm, ss)
  let (hh, mm) := if 60 ≤ mm then (fl (hh + 1), fl (mm - 1)) else (hh, mm)
  let (day, hh) := if 24 ≤ hh then (fl (b.d + 1), fl (hh - 1)) else (b.d, hh)
  let (month, day) :=
    if (dm : ℚ) < day then
      if dm = 4 ∨ dm = 5 then (19, 1) else (b.m + 1, fl (day - 1))
    else (b.m, day)
  let (month, y) := if 19 < month then (1, y + 1) else (month, y)
  let t := [hh, mm, ss, us]
  let date : ShortT := ⟨y, month, day, if trim then trimHms t else t⟩
  C.checkShort date
  .ok date

/-- Kull-i-Shay, Váḥid and year in the Váḥid of a short form year
(badi_calendar.py:365-375). -/
def kvyFromYear (y : ℤ) : ℤ × ℤ × ℤ :=
  let k := fl ((y : ℚ) / 361)
  let kull := if y = 0 then 0 else ⌈k⌉
  let k0 := truncateDecimal (pyMod1 k) 12
  let v := fl (fl (k0 / 19) * 361)
  if v = 0 then (kull, 19, 19)
  else (kull, ⌈v⌉, ⌈fl (pyMod1 v * 19)⌉)

/-- `long_date_from_short_date` (badi_calendar.py:353-380). -/
def Cal.longFromShort (C : Cal) (b : ShortT) (trim : Bool) : Py LongT := do
  let (hh, mm, ss, us) := getHms b.t
  let (kull, vahid, year) := kvyFromYear b.y
  let t := [hh, mm, ss, us]
  let date : LongT := ⟨kull, vahid, year, b.m, b.d, if trim then trimHms t else t⟩
  C.checkLong date
  .ok date

/-- `date_from_kvymdhms` (badi_calendar.py:382-402). `_HR`, `_MN`, `_SEC`, `_US` are
base_calendar.py:23-29. -/
def Cal.dateFromKvymdhms (C : Cal) (b : LongT) (short : Bool) : Py BDate := do
  C.checkLong b
  let (hour, minute, second, us) := getHms b.t
  let hr := fl (hour / 24)
  let mn := fl (fl (minute / 24) / 60)
  let sec := fl (fl (fl (second / 24) / 60) / 60)
  let usd := fl (us / 1000000)
  let day := fl (b.d + pyRound (fl (fl (fl (hr + mn) + sec) + usd)) 6)
  let date : LongT := ⟨b.k, b.v, b.y, b.m, day, []⟩
  if short then do
    let s ← C.shortFromLong date true
    .ok (.short s)
  else .ok (.long date)

/-- `kvymdhms_from_b_date` (badi_calendar.py:404-456). -/
def Cal.kvymdhmsFromBDate (C : Cal) (b : LongT) (us short trim : Bool) : Py BDate := do
  let b := if b.t.length > 0 then { b with t := trimHms b.t } else b
  C.checkLong b
  let (hour, minute, second) :=
    if b.t.length = 0 then
      let hd := partialDayToHours b.d
      let md := partialHourToMinute hd
      ((⌊hd⌋ : ℚ), (⌊md⌋ : ℚ), pyRound (partialHourToMinute md) 6)
    else (b.t.getD 0 0, b.t.getD 1 0, b.t.getD 2 0)
  let hmsms : List ℚ :=
    if us then
      let (s, u) := secMicrosecFromSeconds second
      [hour, minute, (s : ℚ), (u : ℚ)]
    else [hour, minute, second]
  let date : LongT := ⟨b.k, b.v, b.y, b.m, (⌊b.d⌋ : ℚ), if trim then trimHms hmsms else hmsms⟩
  if short then do
    let s ← C.shortFromLong date trim
    .ok (.short s)
  else .ok (.long date)

/-- Output options of `badi_date_from_jd` (badi_calendar.py:212-215). -/
structure JdOpts where
  us : Bool := false
  short : Bool := false
  fraction : Bool := false
  trim : Bool := false
  rtd : Bool := false

/-- `badi_date_from_jd` (badi_calendar.py:212-283) with explicit coordinates. -/
def Cal.badiDateFromJd (C : Cal) (jd lat lon : ℚ) (o : JdOpts) : Py BDate := do
  pyAssert (xorBoolean [o.fraction, o.us, o.rtd])
  let (year, month, day, frac) ← C.badiYmdFromJd jd lat lon
  if o.fraction then
    .ok (.short ⟨year, month, pyRound (fl (day + frac)) 6, []⟩)
  else if o.rtd then do
    let b : ShortT := ⟨year, month, (roundHalfEven (fl (day + frac)) : ℚ), []⟩
    if o.short then .ok (.short b)
    else do
      let l ← C.longFromShort b o.trim
      .ok (.long l)
  else do
    let trim := if o.us then o.trim else true
    let (h, mi, s) := hmsFromDecimalDay frac
    let l ← C.longFromShort ⟨year, month, day, [h, mi, s]⟩ true
    C.kvymdhmsFromBDate l o.us o.short trim

/-- `badi_date_from_timestamp` (badi_calendar.py:522-545); `_POSIX_EPOCH` is
base_calendar.py:60. -/
def Cal.badiDateFromTimestamp (C : Cal) (t lat lon : ℚ) (o : JdOpts) : Py BDate :=
  C.badiDateFromJd (fl (fl (t / 86400) + 2440585.5)) lat lon o

/-- `timestamp_from_badi_date` (badi_calendar.py:547-561). -/
def Cal.timestampFromBadiDate (C : Cal) (b : ShortT) (lat lon : ℚ) : Py ℚ := do
  let jd ← C.jdFromBadiDate b lat lon
  .ok (pyRound (fl (fl (jd - 2440585.5) * 86400)) 12)

end Verif
