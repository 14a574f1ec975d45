import Verif.Model.Format
import Verif.Model.TimeZone

/-!
# Model of `struct_time` and the time tuples

From `badidatetime/_structures.py` (ST), `_timedateutils.py` (TU) and `datetime.py` (DT).
-/

namespace Verif

/-- A `ShortFormStruct` or `LongFormStruct` (ST:11-84): the first nine or eleven fields, the flag for daylight saving, the
name of the zone and the offset in seconds. -/
structure Struct where
  tup : Tup
  isdst : ℤ
  zone : Option Str
  gmtoff : Option ℚ
  deriving DecidableEq, Repr

/-- A zone as `struct_time` sees it: a `timezone` and what its method `dst` returns, in microseconds (`None` for
`timezone`, DT:2777-2781; a `timedelta` for `TZWithCoords`, DT:2875-2892). -/
structure TzInfo where
  zone : Zone
  dst : Option ℤ
  deriving DecidableEq, Repr

/-- The offset in seconds (ST:173-174): `None` for a missing offset and for zero, which is false in Python. -/
def offsetSeconds : Option TzInfo → Option ℚ
  | none => none
  | some z => if z.zone.off = 0 then none else some (fl ((z.zone.off : ℚ) / 1000000))

/-- The flag for daylight saving (ST:161-171). -/
def dstFlag (flag : ℤ) : Option TzInfo → ℤ
  | none => flag
  | some z =>
    match z.dst with
    | none => flag
    | some d => if d = 0 then 0 else 1

/-- The first nine or eleven fields. -/
def tupOf (d : DateObj) (h mi s wday yday : ℤ) : Tup :=
  match d with
  | .short y m dd => ⟨true, 0, 0, y, m, dd, h, mi, s, wday, yday⟩
  | .long k v y m dd => ⟨false, k, v, y, m, dd, h, mi, s, wday, yday⟩

/-- `struct_time.__new__` with `__fill_in_missing` (ST:92-118, 145-188) for a date, a time of day and three more fields. -/
def Cal.structTime (C : Cal) (d : DateObj) (h mi s wday yday flag : ℤ) (z : Option TzInfo) : Py Struct :=
  if ¬ (flag = -1 ∨ flag = 0 ∨ flag = 1) then .error .value
  else do
    let _ ← C.newDT ⟨d, h, mi, s, 0, z.map (fun i => i.zone.tz), 0⟩
    .ok ⟨tupOf d h mi s wday yday, dstFlag flag z, z.map (fun i => tzName i.zone), offsetSeconds z⟩

/-- Year, month and day in `_build_struct_time` (TU:1103-1107). -/
def Cal.structYmd (C : Cal) (d : DateObj) (h mi s : ℤ) : Py (ℤ × ℤ × ℤ) :=
  match d with
  | .short y m dd => .ok (y, m, dd)
  | .long k v y m dd => do
    let b ← C.shortFromLong ⟨k, v, y, m, dd, [(h : ℚ), (mi : ℚ), (s : ℚ)]⟩ false
    .ok (b.y, b.m, ⌊b.d⌋)

/-- `_build_struct_time` (TU:1089-1111). -/
def Cal.buildStructTime (C : Cal) (d : DateObj) (h mi s flag : ℤ) (z : Option TzInfo) : Py Struct := do
  let (y, m, dd) ← C.structYmd d h mi s
  let wday ← C.dayOfWeek y m dd
  let before ← C.daysBeforeMonth y m
  C.structTime d h mi s wday (before + dd) flag z

/-- `date.timetuple` (DT:611-619). -/
def Cal.dateTimetuple (C : Cal) (d : DateObj) : Py Struct := C.buildStructTime d 0 0 0 (-1) none

/-- `datetime.timetuple` (DT:1933-1942); `z` is the zone of `x`. -/
def Cal.dtTimetuple (C : Cal) (x : DT) (z : Option TzInfo) : Py Struct :=
  C.buildStructTime x.d x.h x.mi x.s (-1) z

/-- The subtraction of the offset in `_timetuple` (DT:1982-1983). -/
def Cal.utcOf (C : Cal) (x : DT) : Option ℤ → Py DT
  | none => .ok x
  | some off => if off = 0 then .ok x else C.dtSubDelta x off

/-- `datetime.utctimetuple` with `_timetuple` (DT:1966-1986). -/
def Cal.utcTimetuple (C : Cal) (x : DT) : Py Struct := do
  let off ← utcOffset x.tz
  let u ← C.utcOf x off
  C.buildStructTime u.d u.h u.mi u.s 0 none

/-- `date.ctime` (DT:444-457). -/
def Cal.dateCtime (C : Cal) (d : DateObj) : Py Str := do
  let (y, m, dd) ← C.dateShort d
  let w ← C.dayOfWeek y m dd
  .ok (nameAt dayNames w ++ ' ' :: nameAt monthNames m ++ ' ' :: (if dd < 10 then ' ' :: padInt 1 dd else padInt 1 dd)
    ++ " 00:00:00 ".toList ++ padInt (if -1 < y then 4 else 5) y)

/-- The short form date and time in `datetime.ctime` (DT:2155-2159). -/
def Cal.ctimeFields (C : Cal) (x : DT) : Py (ℤ × ℤ × ℤ × ℤ × ℤ × ℤ) :=
  match x.d with
  | .short y m d => .ok (y, m, d, x.h, x.mi, x.s)
  | .long k v y m d => do
    let b ← C.shortFromLong ⟨k, v, y, m, d, [(x.h : ℚ), (x.mi : ℚ), (x.s : ℚ), (x.us : ℚ)]⟩ false
    .ok (b.y, b.m, ⌊b.d⌋, ⌊b.t.getD 0 0⌋, ⌊b.t.getD 1 0⌋, ⌊b.t.getD 2 0⌋)

/-- `datetime.ctime` (DT:2147-2167). -/
def Cal.dtCtime (C : Cal) (x : DT) : Py Str := do
  let (y, m, dd, h, mi, s) ← C.ctimeFields x
  let w ← C.dayOfWeek y m dd
  .ok (nameAt dayNames w ++ ' ' :: nameAt monthNames m ++ ' ' :: (if dd < 10 then ' ' :: padInt 1 dd else padInt 1 dd)
    ++ ' ' :: padInt 2 h ++ ':' :: padInt 2 mi ++ ':' :: padInt 2 s ++ ' ' :: padInt (if -1 < y then 4 else 5) y)

end Verif
