import Verif.Model.TimeSpec
import Verif.Model.AnyTime
import Verif.Model.AnyTuple

/-!
# Model of `isoformat`, `dst` and `tzname` of objects with any `tzinfo`

Line numbers refer to `/repo/badidatetime/datetime.py`. As in `Model/AnyZone.lean` the zone is an argument beside the object,
whose own field `tz` is not used.
-/

namespace Verif

/-- `datetime.isoformat` (lines 2169-2203). -/
def anyIso (x : DT) (p : Option AnyZone) (sep : Char) (timespec : Str) : Py Str := do
  let s ← formatTimeSpec x.h x.mi x.s x.us timespec
  let off ← anyOffset p x
  let (y, m, d) := x.d.ymd
  .ok (formatDate y m d ++ sep :: s ++ formatOffset off)

/-- `time.isoformat` (lines 1336-1359). -/
def clockIsoSpec (t : TimeObj) (p : Option ClockZone) (timespec : Str) : Py Str := do
  let s ← formatTimeSpec t.h t.mi t.s t.us timespec
  let off ← clockOffset p
  .ok (s ++ formatOffset off)

/-- `datetime.dst` (lines 2306-2322), in microseconds. -/
def anyDst (z : Option AnyInfo) (x : DT) : Py (Option ℤ) :=
  match z with
  | none => .ok none
  | some i => do
    let o ← i.dst x
    match o with
    | none => .ok none
    | some o => do
      checkOffset o
      .ok (some o)

/-- `datetime.tzname` (lines 2289-2304). A return value that is neither `None` nor a string is the TypeError of `_check_tzname`
(lines 193-202). -/
def anyTzname (z : Option AnyInfo) (x : DT) : Py (Option Str) :=
  match z with
  | none => .ok none
  | some i => i.name x

end Verif
