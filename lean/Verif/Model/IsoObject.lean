import Verif.Model.Date
import Verif.Model.Repr

/-!
# Model of the object that `isocalendar()` returns

`_IsoCalendarDate` (`badidatetime/datetime.py`:993-1059) is a tuple of three integers with names for them.
-/

namespace Verif

/-- `_IsoCalendarDate.__repr__` (lines 1051-1059); the name of the class stands without a module. -/
def isoRepr (t : ℤ × ℤ × ℤ) : Str :=
  callText "_IsoCalendarDate".toList ["year=".toList ++ strInt t.1, "week=".toList ++ strInt t.2.1, "weekday=".toList ++ strInt t.2.2]

/-- The comparison of two such objects, which is that of `tuple` (line 993): negative, zero or positive. -/
def isoCmp (t u : ℤ × ℤ × ℤ) : ℤ := tupleCmp [t.1, t.2.1, t.2.2] [u.1, u.2.1, u.2.2]

end Verif
