import Verif.Model.IsoText

/-!
# `isoformat` with a `timespec` (datetime.py:122-155, 1336-1359, 2169-2203)
-/

namespace Verif

/-- `_format_time` (datetime.py:122-155). The keys of `specs` are compared in the order of the dictionary; `auto` itself is never
looked up. -/
def formatTimeSpec (h mi s us : ℤ) (timespec : Str) : Py Str :=
  let spec := if timespec = "auto".toList then (if us ≠ 0 then "microseconds".toList else "seconds".toList) else timespec
  let us := if timespec = "milliseconds".toList then us / 1000 else us
  if spec = "hours".toList then .ok (padInt 2 h)
  else if spec = "minutes".toList then .ok (padInt 2 h ++ ':' :: padInt 2 mi)
  else if spec = "seconds".toList then .ok (padInt 2 h ++ ':' :: padInt 2 mi ++ ':' :: padInt 2 s)
  else if spec = "milliseconds".toList then .ok (padInt 2 h ++ ':' :: padInt 2 mi ++ ':' :: padInt 2 s ++ '.' :: padInt 3 us)
  else if spec = "microseconds".toList then .ok (padInt 2 h ++ ':' :: padInt 2 mi ++ ':' :: padInt 2 s ++ '.' :: padInt 6 us)
  else .error .value

/-- `time.isoformat` (datetime.py:1336-1359). -/
def timeIsoSpec (t : TimeObj) (timespec : Str) : Py Str := do
  let s ← formatTimeSpec t.h t.mi t.s t.us timespec
  let off ← utcOffset t.tz
  .ok (s ++ formatOffset off)

/-- `datetime.isoformat` (datetime.py:2169-2203). -/
def dtIsoSpec (x : DT) (sep : Char) (timespec : Str) : Py Str := do
  let s ← formatTimeSpec x.h x.mi x.s x.us timespec
  let off ← utcOffset x.tz
  let (y, m, d) := x.d.ymd
  .ok (formatDate y m d ++ sep :: s ++ formatOffset off)

end Verif
