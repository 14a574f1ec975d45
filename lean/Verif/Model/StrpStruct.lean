import Verif.Model.StrpTime
import Verif.Model.StructTime

/-!
# Model of `_strptime_time`

From `badidatetime/_strptime.py`.
-/

namespace Verif

/-- `StrpTime.start` (lines 371-382) and `_strptime_time` (lines 649-655) after the matching: the first six fields go to
`_build_struct_time` with the flag 0 and without a zone. -/
def Cal.strptimeTimeFound (C : Cal) (gs : List (Char × Str)) : Py Struct := do
  let f ← parseFound gs
  checkIsoWeek f
  let r ← C.fromWeeks f
  let q ← C.fromJulian r.1 r.2.1 r.2.2.1 r.2.2.2
  C.missingWeekday f q.1 q.2.1 q.2.2
  C.buildStructTime (.short q.1 q.2.1 q.2.2) f.hour f.minute f.second 0 none

/-- `_strptime_time(data_string, format)` (lines 649-655), for the formats of `Cal.strptime`. -/
def Cal.strptimeTime (C : Cal) (s fmt : Str) : Option (Py Struct) :=
  match compileFmt false fmt with
  | none => none
  | some (.error e) => some (.error e)
  | some (.ok ps) => some (do
      let gs ← findRegex s ps
      C.strptimeTimeFound gs)

end Verif
