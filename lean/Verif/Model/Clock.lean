import Verif.Model.Place

/-!
# The constructors that read the clock

Line numbers refer to `/repo/badidatetime/datetime.py`. The clock is not modelled: `clock` is the value that `time.time()`
returned.
-/

namespace Verif

/-- `date.today` (lines 312-323); `loc` is `LOCAL_COORD`. -/
def Cal.today (C : Cal) (loc : ℚ × ℚ × ℚ) (clock : ℚ) (short : Bool) : Py DateObj :=
  C.dateFromTimestamp clock loc.1 loc.2.1 short

/-- `datetime.now` (lines 1871-1882). -/
def Cal.now (C : Cal) (loc : ℚ × ℚ × ℚ) (clock : ℚ) (z : StampZone) (short : Bool) : Py DT :=
  C.fromTimestamp loc clock z short

end Verif
