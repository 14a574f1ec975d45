import Verif.Model.Base

/-!
# Model of `badidatetime/gregorian_calendar.py`

Line numbers refer to `/repo/badidatetime/gregorian_calendar.py`.  A Gregorian tuple
`(year, month, day, *t)` is `GDate`; `None` entries of `t` are written `0`.
-/

namespace Verif

/-- A Gregorian tuple `(year, month, day, *t)`. -/
structure GDate where
  y : ℤ
  m : ℤ
  d : ℚ
  t : List ℚ := []
  deriving DecidableEq, Repr

/-- `_GREGORIAN_EPOCH` (gregorian_calendar.py:18). -/
def gregorianEpoch : ℚ := 1721423.5

/-- `_MONTHS` (gregorian_calendar.py:19). -/
def gMonths : List ℤ := [31, 28, 31, 30, 31, 30, 31, 31, 30, 31, 30, 31]

/-- `_is_leap_year` (gregorian_calendar.py:313-330). The code multiplies and adds booleans. -/
def gIsLeap (y : ℤ) (alt : Bool := false) : Bool :=
  if alt then (if y % 4 = 0 then 1 else 0) * (if y % 128 ≠ 0 then 1 else 0) == (1 : ℤ)
  else (if y % 4 = 0 then 1 else 0) *
    ((if y % 100 ≠ 0 then 1 else 0) + (if y % 400 = 0 then 1 else 0)) == (1 : ℤ)

/-- `_JULIAN_LEAP_YEAR` (julian_period.py:31). -/
def julianLeap (y : ℤ) : Bool := y % 4 == 0

/-- `month_days` with February adjusted (gregorian_calendar.py:58-59 and 131-132). -/
def monthDays (leap : Bool) : List ℤ :=
  [31, 28 + (if leap then 1 else 0), 31, 30, 31, 30, 31, 31, 30, 31, 30, 31]

/-- Python slice `l[:i]`, including negative `i`. -/
def pyTake {α : Type} (l : List α) (i : ℤ) : List α :=
  if 0 ≤ i then l.take i.toNat else l.take (l.length + i).toNat

/-- `_check_valid_gregorian_month_day` (gregorian_calendar.py:332-374). -/
def checkGregorian (g : GDate) (historical : Bool := false) : Py Unit := do
  let month := |g.m|
  let day := |g.d|
  let hour := g.t.getD 0 0
  let minute := g.t.getD 1 0
  let second := g.t.getD 2 0
  pyAssert (1 ≤ month ∧ month ≤ 12)
  let leap := if historical ∧ g.y < 1583 then julianLeap g.y else gIsLeap g.y
  let days := gMonths.getD (month - 1).toNat 0 + (if month = 2 ∧ leap then 1 else 0)
  pyAssert (1 ≤ ⌊day⌋ ∧ ⌊day⌋ ≤ days)
  pyAssert (hour < 24)
  pyAssert (minute < 60)
  if (hour ≠ 0 ∨ minute ≠ 0 ∨ second ≠ 0) ∧ pyMod1 day ≠ 0 then .error .assertion
  else if (minute ≠ 0 ∨ second ≠ 0) ∧ pyMod1 hour ≠ 0 then .error .assertion
  else if second ≠ 0 ∧ pyMod1 minute ≠ 0 then .error .assertion
  else .ok ()

/-- `date_from_ymdhms` (gregorian_calendar.py:265-284). -/
def dateFromYmdhms (g : GDate) : Py GDate := do
  checkGregorian g
  let hr := fl (g.t.getD 0 0 / 24)
  let mn := fl (fl (g.t.getD 1 0 / 24) / 60)
  let sec := fl (fl (fl (g.t.getD 2 0 / 24) / 60) / 60)
  .ok ⟨g.y, g.m, fl (g.d + pyRound (fl (fl (hr + mn) + sec)) 12), []⟩

/-- `jd_from_gregorian_date` with `exact=True` (gregorian_calendar.py:53-61). -/
def jdFromGregorianExact (g : GDate) (alt : Bool := false) : Py ℚ := do
  let g ← dateFromYmdhms g
  let td := daysInYears (g.y - 1) alt
  let days := fl (td + (gregorianEpoch - 1))
  let md := monthDays (gIsLeap g.y alt)
  let days := fl (days + fl ((pyTake md (g.m - 1)).sum + g.d))
  .ok (pyRound days 12)

/-- `jd_from_gregorian_date` with `exact=False`, Meeus' algorithm
(gregorian_calendar.py:53, 62-80). `_JULIAN_YEAR` is julian_period.py:30. -/
def jdFromGregorianMeeus (g : GDate) : Py ℚ := do
  let g ← dateFromYmdhms g
  let year := g.y
  let month := g.m
  let day := g.d
  if year = 1582 ∧ month = 10 ∧ day ∈ ([5, 6, 7, 8, 9, 10, 11, 12, 13, 14] : List ℚ) then
    .error .assertion
  else
    let (year, month) := if month ≤ 2 then (year - 1, month + 12) else (year, month)
    let b : ℤ :=
      if 1582 < year ∨ (year = 1582 ∧ (10 < month ∨ (month = 10 ∧ 15 ≤ day))) then
        let a := ⌊fl ((year : ℚ) / 100)⌋
        2 - a + ⌊fl ((a : ℚ) / 4)⌋
      else 0
    let s := fl (fl (fl ((⌊fl (365.25 * year)⌋ + ⌊fl (fl 30.6001 * (month + 1))⌋ : ℤ) + day) + b)
      + 1720994.5)
    .ok (pyRound s 12)

/-- The `while days > 365` loop (gregorian_calendar.py:121-124). `fuel` bounds the number of
rounds; `gregLoop_exit` in `Lemmas/Gregorian` shows the caller's value is always enough. -/
def gregLoop (md : ℚ) (alt : Bool) : ℕ → ℤ → ℚ → ℤ × ℚ
  | 0, year, days => (year, days)
  | fuel + 1, year, days =>
    if 365 < days then
      gregLoop md alt fuel (year + 1) (fl (md - daysInYears (year + 1) alt))
    else (year, days)

/-- The `for month, ds in enumerate(month_days, start=1)` loop (gregorian_calendar.py:133-139);
returns `month` and the integer `day` (`0` when the loop is not left by `break`). -/
def gregMonthLoop (days : ℚ) : List ℤ → ℤ → ℤ → ℤ × ℤ
  | [], month, _ => (month - 1, 0)
  | ds :: rest, month, d =>
    if ((d + ds : ℤ) : ℚ) < days then gregMonthLoop days rest (month + 1) (d + ds)
    else (month, ⌈fl (days - ((d + ds) - ds : ℤ))⌉)

/-- `gregorian_date_from_jd` with `exact=True, hms=False` (gregorian_calendar.py:112-149);
`_MEAN_TROPICAL_YEAR` is base_calendar.py:44. -/
def gregorianFromJdExact (jd : ℚ) (alt : Bool := false) : GDate :=
  let md := fl (jd - (gregorianEpoch - 1))
  let year := ⌊|fl (md / fl 365.2421897)|⌋ + 1
  let year := if md < gregorianEpoch - 1 then year * -1 else year
  let days := fl (md - daysInYears year alt)
  let (year, days) := gregLoop md alt (⌊days⌋.toNat + 1) year days
  let (year, days) :=
    if days = 0 then (year, if year < 0 ∧ year % 4 ≠ 0 then (365 : ℚ) else 366)
    else (year + 1, days)
  let md := monthDays (gIsLeap year alt)
  let (month, day) := gregMonthLoop days md 1 0
  let f := pyMod1 jd
  let day := fl (day + fl (f - (if 1 / 2 < f then 3 / 2 else 1 / 2)))
  let (year, month, day) :=
    if day < 1 then
      let month := if 1 < month then month - 1 else month + 11
      let day := fl (md.getD (month - 1).toNat 0 + day)
      (if month = 12 then year - 1 else year, month, day)
    else (year, month, day)
  ⟨year, month, pyRound day 12, []⟩

/-- `gregorian_date_from_jd` with `exact=False, hms=False`, Meeus' algorithm
(gregorian_calendar.py:150-179). -/
def gregorianFromJdMeeus (jd : ℚ) : GDate :=
  let jDay := fl (jd + 1 / 2)
  let z := ⌊jDay⌋
  let f := pyMod1 jDay
  let a :=
    if 2299161 ≤ z then
      let alpha := ⌊fl (fl (z - 1867216.25) / 36524.25)⌋
      z + 1 + alpha - ⌊fl ((alpha : ℚ) / 4)⌋
    else z
  let b := a + 1524
  let c := ⌊fl (fl (b - fl 122.1) / 365.25)⌋
  let d := ⌊fl (365.25 * c)⌋
  let e := ⌊fl ((b - d : ℤ) / fl 30.6001)⌋
  let day := fl ((b - d - ⌊fl (fl 30.6001 * e)⌋ : ℤ) + f)
  let month := if 13 < e then e - 13 else e - 1
  let year := if 2 < month then c - 4716 else c - 4715
  ⟨year, month, pyRound day 12, []⟩

/-- `gregorian_year_from_jd` (gregorian_calendar.py:255-263). -/
def gregorianYearFromJd (jd : ℚ) : ℤ := (gregorianFromJdMeeus jd).y

/-- `ymdhms_from_date` with `us=False` (gregorian_calendar.py:286-311). -/
def ymdhmsFromDate (g : GDate) : Py GDate := do
  checkGregorian g
  let total := fl (fl (fl (fl (g.t.getD 0 0 * 3600) + fl (g.t.getD 1 0 * 60)) + g.t.getD 2 0)
    + fl (g.t.getD 3 0 / 1000000))
  let day := fl (g.d + fl (total / 86400))
  let (h, m, s) := hmsFromDecimalDay day
  .ok ⟨g.y, g.m, ⌊day⌋, [h, m, s]⟩

/-- The `while True` loop of `posix_timestamp` (gregorian_calendar.py:214-219). `fuel` bounds the
number of rounds (each round removes at least 365 days). -/
def posixLoop : ℕ → ℤ → ℤ → ℤ × ℤ
  | 0, year, days => (year, days)
  | fuel + 1, year, days =>
    let diy := 365 + (if gIsLeap year then 1 else 0)
    if days < diy then (year, days) else posixLoop fuel (year + 1) (days - diy)

/-- The month loop of `posix_timestamp` (gregorian_calendar.py:225-234) on integers. When the loop
is not left by `break`, `day` is unbound (`UnboundLocalError`); this cannot happen. -/
def posixMonthLoop (days : ℤ) : List ℤ → ℤ → ℤ → Option (ℤ × ℤ)
  | [], _, _ => none
  | ds :: rest, month, d =>
    if d + ds < days then posixMonthLoop days rest (month + 1) (d + ds)
    else some (month, days - d)

/-- Python's `x % n` on a float for a positive integer `n`: exact for `x ≥ 0`, one rounding for
negative `x`. -/
def pyModInt (x : ℚ) (n : ℕ) : ℚ :=
  if 0 ≤ x then x - n * ⌊x / n⌋
  else
    let r := x - n * ⌈x / n⌉
    if r = 0 then 0 else fl (r + n)

/-- `posix_timestamp` with `us=False` (gregorian_calendar.py:207-253); the last line is the check of
the result. -/
def posixTimestamp (t : ℚ) (zone : ℚ := 0) : Py GDate := do
  let t := fl (t + fl (zone * 3600))
  let days := ⌊fl (t / 86400)⌋
  let days := |days| + 1
  let (year, days) := posixLoop (days.toNat + 1) 1970 days
  match posixMonthLoop days (monthDays (gIsLeap year)) 1 0 with
  | none => .error .value
  | some (month, day) =>
    let seconds := pyModInt t 86400
    let minutes := ⌊fl (seconds / 60)⌋
    let g : GDate := ⟨year, month, day,
      [(⌊fl ((minutes : ℚ) / 60)⌋ : ℚ), ((minutes % 60 : ℤ) : ℚ), pyRound (pyModInt seconds 60) 6]⟩
    checkGregorian g (historical := true)
    .ok g

end Verif
