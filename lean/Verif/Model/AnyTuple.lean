import Verif.Model.AnyZone
import Verif.Model.StructTime

/-!
# Model of the time tuples and timestamps of `datetime` objects with any `tzinfo`

From `badidatetime/_structures.py` (ST), `_timedateutils.py` (TU) and `datetime.py` (DT). As in `Model/AnyZone.lean` the zone
is an argument beside the object. For zones of the library the tuples are in `Model/StructTime.lean`.
-/

namespace Verif

/-- An object of a subclass of `tzinfo` with all three methods: what `dst(dt)` returns, in microseconds, and what `tzname(dt)`
returns. A value of `dst` without `total_seconds` is taken as `None` (ST:164). -/
structure AnyInfo where
  zone : AnyZone
  dst : DT → Py (Option ℤ)
  name : DT → Py (Option Str)

/-- The flag for daylight saving (ST:161-171). The object of `tzinfo` is a true value, as it is unless its class says
otherwise. -/
def anyDstFlag (flag : ℤ) (z : Option AnyInfo) (dt : DT) : Py ℤ :=
  match z with
  | none => .ok flag
  | some i => do
    let dst ← i.dst dt
    match dst with
    | none => .ok flag
    | some d => .ok (if d = 0 then 0 else 1)

/-- The name of the zone (ST:176-179). The answer is not checked, as it is in `datetime.tzname`. -/
def anyName (z : Option AnyInfo) (dt : DT) : Py (Option Str) :=
  match z with
  | none => .ok none
  | some i => i.name dt

/-- The offset in seconds (ST:173-174): `None` for a missing offset and for zero, which is false in Python. -/
def secondsOf (off : Option ℤ) : Option ℚ :=
  match off with
  | none => none
  | some o => if o = 0 then none else some (fl ((o : ℚ) / 1000000))

/-- `struct_time.__new__` with `__fill_in_missing` (ST:92-118, 145-188). The zone is asked about an object made anew from the
date and the time of day, without microseconds and with `fold` 0 (ST:158). -/
def Cal.anyStructTime (C : Cal) (d : DateObj) (h mi s wday yday flag : ℤ) (z : Option AnyInfo) : Py Struct :=
  if ¬ (flag = -1 ∨ flag = 0 ∨ flag = 1) then .error .value
  else do
    let dt ← C.newDT ⟨d, h, mi, s, 0, none, 0⟩
    let isdst ← anyDstFlag flag z dt
    let off ← anyOffset (z.map (·.zone)) dt
    let name ← anyName z dt
    .ok ⟨tupOf d h mi s wday yday, isdst, name, secondsOf off⟩

/-- `_build_struct_time` (TU:1089-1111). -/
def Cal.anyBuildStruct (C : Cal) (d : DateObj) (h mi s flag : ℤ) (z : Option AnyInfo) : Py Struct := do
  let (y, m, dd) ← C.structYmd d h mi s
  let wday ← C.dayOfWeek y m dd
  let before ← C.daysBeforeMonth y m
  C.anyStructTime d h mi s wday (before + dd) flag z

/-- `datetime.timetuple` (DT:1933-1942). -/
def Cal.anyTimetuple (C : Cal) (x : DT) (z : Option AnyInfo) : Py Struct :=
  C.anyBuildStruct x.d x.h x.mi x.s (-1) z

/-- `datetime.utctimetuple` with `_timetuple` (DT:1966-1986). The tuple is made without the zone. -/
def Cal.anyUtcTimetuple (C : Cal) (x : DT) (p : Option AnyZone) : Py Struct := do
  let off ← anyOffset p x
  let u ← C.utcOf x off
  C.anyBuildStruct u.d u.h u.mi u.s 0 none

/-- `datetime.timestamp` of an object with a `tzinfo` (DT:1964), in microseconds; `u` is `timezone.utc`, the zone of `_EPOCH`
(DT:2956-2957). -/
def Cal.anyTimestampUs (C : Cal) (x : DT) (p : AnyZone) (u : Tz) : Py ℤ :=
  C.anySub x (some p) (epochDT u) (some (AnyZone.ofTz u))

end Verif
