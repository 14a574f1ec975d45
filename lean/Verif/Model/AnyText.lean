import Verif.Model.AnyTime
import Verif.Model.AnyTuple
import Verif.Model.Directives

/-!
# Model of `strftime` of datetimes and times with any `tzinfo`

From `badidatetime/datetime.py` (DT) and `_timedateutils.py` (TU). As in `Model/AnyTuple.lean` the zone is an argument beside
the object. For zones of the library the texts are in `Model/Directives.lean`.
-/

namespace Verif

/-- `date.strftime` of a `datetime` (DT:459-471, 1933-1942; `_wrap_strftime`, TU:1463-1507). -/
def Cal.anyStrftime (C : Cal) (L : Locale) (x : DT) (z : Option AnyInfo) (f : Str) : Py Str := do
  let s ← C.anyTimetuple x z
  C.strftimeStruct L (wrapFormat (padInt 6 x.us) f) s

/-- `time.strftime` (DT:1380-1391; TU:861-883): the tuple has the date of the first day of the era, and the zone is asked about
the datetime made from it (`struct_time`, Model/AnyTuple.lean). -/
def Cal.anyTimeStrftime (C : Cal) (L : Locale) (t : TimeObj) (z : Option AnyInfo) (f : Str) : Py Str :=
  let g := wrapFormat (padInt 6 t.us) f
  match checkFormat g with
  | .error e => .error e
  | .ok () => do
    C.checktm (tupOf (.short 1 1 1) t.h t.mi t.s 0 1)
    let s ← C.anyStructTime (.short 1 1 1) t.h t.mi t.s 0 1 (-1) z
    formatLoop (C.allDirectives L s) (lastChar g) g

end Verif
