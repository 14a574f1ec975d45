import Verif.Model.Directives
import Verif.Model.StrText

/-!
# `format()` of dates, times and datetimes

The argument is a `str`, so the `TypeError` for other types does not arise.
-/

namespace Verif

/-- `date.__format__` (datetime.py:473-491) of a date. -/
def Cal.dateFormat (C : Cal) (L : Locale) (d : DateObj) (fmt : Str) : Py Str :=
  if fmt.length ≠ 0 then C.dateStrftime L d fmt else C.dateStr d

/-- `date.__format__` (datetime.py:473-491), which datetimes inherit; `strftime` takes the tuple of the datetime and `str` is
`datetime.__str__` (datetime.py:2263). `z` is the zone of `x`. -/
def Cal.dtFormat (C : Cal) (L : Locale) (x : DT) (z : Option TzInfo) (fmt : Str) : Py Str :=
  if fmt.length ≠ 0 then C.datetimeStrftime L x z fmt else dtStr x

/-- `time.__format__` (datetime.py:1393-1410); `str` of a time is its `isoformat` (line 1361). -/
def Cal.timeFormat (C : Cal) (L : Locale) (t : TimeObj) (z : Option TzInfo) (fmt : Str) : Py Str :=
  if fmt.length ≠ 0 then C.timeStrftime L t z fmt else timeIso t

end Verif
