import Verif.Model.Badi

/-!
# Model of the ordinal, weekday and ISO week code of `badidatetime/_timedateutils.py`

Line numbers refer to `/repo/badidatetime/_timedateutils.py`.  All dates here are short form with
integer fields.
-/

namespace Verif

/-- `ORDINAL_1ST_YEAR_EPOCH` (_timedateutils.py:53). -/
def ordinal1stYearEpoch : ℚ := fl 1721501.260417
/-- `DAYS_BEFORE_1ST_YEAR` (_timedateutils.py:57). -/
def daysBefore1stYear : ℤ := 77

/-- `_days_before_year` (_timedateutils.py:988-999). -/
def Cal.daysBeforeYear (C : Cal) (year : ℤ) : Py ℤ := do
  let jd0 ← C.jdFromBadiDateDefault ⟨minYear - 1, 19, 19, []⟩
  let jd1 ← C.jdFromBadiDateDefault ⟨year, 1, 1, []⟩
  .ok (⌊fl (jd1 - jd0)⌋ - 1)

/-- `_days_before_month` (_timedateutils.py:1001-1018). -/
def Cal.daysBeforeMonth (C : Cal) (year month : ℤ) : Py ℤ :=
  let month := month - (if month < 2 then -18 else if 1 < month ∧ month < 19 then 1 else 19)
  if 0 < month ∧ month < 19 then .ok (month * 19)
  else if month = 0 then do
    let leap ← C.isLeapYear year
    .ok (18 * 19 + 4 + if leap then 1 else 0)
  else .ok 0

/-- `fudge` in `_ymd2ord` (_timedateutils.py:1056-1059). -/
def fudge (year : ℤ) : ℤ := if year ∈ [-1796, -1792, -1788] then 1 else 0

/-- `_ymd2ord` (_timedateutils.py:1035-1062). -/
def Cal.ymd2ord (C : Cal) (year month day : ℤ) : Py ℤ := do
  let a ← C.daysBeforeYear year
  let b ← C.daysBeforeMonth year month
  .ok (a + b + day + fudge year + daysBefore1stYear)

/-- `_day_of_week` (_timedateutils.py:1020-1033). -/
def Cal.dayOfWeek (C : Cal) (year month day : ℤ) : Py ℤ := do
  let o ← C.ymd2ord year month day
  .ok (((o + 1) % 7 + 7) % 7)

/-- The JD computed in `_ord2ymd` (_timedateutils.py:1085-1086). -/
def ordJd (n : ℤ) : ℚ :=
  let jd := fl (fl (fl (ordinal1stYearEpoch - 1) - daysBefore1stYear) + n)
  fl ((⌊jd⌋ : ℚ) + 1 / 2)

/-- `_ord2ymd` (_timedateutils.py:1064-1087). -/
def Cal.ord2ymd (C : Cal) (n : ℤ) (short : Bool) : Py BDate :=
  C.badiDateFromJd (ordJd n) tehranLat tehranLon { short := short, trim := true, rtd := true }

/-- `_isoweek1jalal` (_timedateutils.py:1155-1172). -/
def Cal.isoweek1jalal (C : Cal) (year : ℤ) : Py ℤ := do
  let firstday ← C.ymd2ord year 1 1
  let firstweekday := (firstday - 6) % 7
  let week1 := firstday - firstweekday
  .ok (if 3 < firstweekday then week1 + 7 else week1)

/-- `_year_week_day` (_timedateutils.py:959-986). -/
def Cal.yearWeekDay (C : Cal) (year month day : ℤ) (week0 : Bool := false) : Py (ℤ × ℤ × ℤ) := do
  let w1 ← C.isoweek1jalal year
  let today ← C.ymd2ord year month day
  let week := (today - w1) / 7
  let d := (today - w1) % 7
  if week0 = false ∧ week < 0 then do
    let w1 ← C.isoweek1jalal (year - 1)
    .ok (year - 1, (today - w1) / 7 + 1, (today - w1) % 7 + 1)
  else if week0 = false ∧ 52 ≤ week then do
    let w1n ← C.isoweek1jalal (year + 1)
    if w1n ≤ today then .ok (year + 1, 0 + 1, d + 1) else .ok (year, week + 1, d + 1)
  else .ok (year, week + 1, d + 1)

/-- `p_offset` and the week check of `_isoweek_to_badi` (_timedateutils.py:1130-1145). -/
def Cal.isoweekOffset (C : Cal) (year week : ℤ) : Py ℤ :=
  if ¬ (0 < week ∧ week < 52) then do
    let dow ← C.dayOfWeek year 1 1
    let dayOne := dow + 1
    if dayOne = 3 ∨ dayOne = 4 then
      if week = 52 then .ok 7 else .error .assertion
    else .ok 0
  else .ok 0

/-- `_isoweek_to_badi` (_timedateutils.py:1113-1153). -/
def Cal.isoweekToBadi (C : Cal) (year week day : ℤ) (short : Bool) : Py BDate := do
  let pOffset ← C.isoweekOffset year week
  pyAssert (0 < day ∧ day < 8)
  let dayOffset := (week - 1) * 7 + (day - 1) + pOffset
  let day1 ← C.isoweek1jalal year
  C.ord2ymd (day1 + dayOffset) short

end Verif
