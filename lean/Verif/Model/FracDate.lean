import Verif.Model.FracTime
import Verif.Model.IsoText
import Verif.Model.Gregorian

/-!
# Model of short form `date` objects whose day is an integer or a fraction

Line numbers refer to `/repo/badidatetime/datetime.py`. The constructor hands the day to `_check_valid_badi_date`
(badi_calendar.py:626-688), which allows a part of a day, and keeps it as it is.
-/

namespace Verif

/-- A short form `date` object (lines 280-285). -/
structure FracDate where
  y : ℤ
  m : ℤ
  d : Num
  deriving DecidableEq, Repr

/-- `date.__new__` with three numbers (lines 239-291). -/
def Cal.newFracDate (C : Cal) (f : FracDate) : Py FracDate := do
  C.checkShort ⟨f.y, f.m, f.d.val, []⟩
  .ok f

/-- An `int` plus a number. The integers here are small, and exact as a `float`. -/
def Num.addInt (a : ℤ) : Num → Num
  | .int n => .int (a + n)
  | .float q => .float (fl (a + q))

/-- `x % 7`. -/
def Num.mod7 : Num → Num
  | .int n => .int (n % 7)
  | .float q => .float (pyModInt q 7)

/-- `x - y`. -/
def Num.sub : Num → Num → Num
  | .int a, .int b => .int (a - b)
  | a, b => .float (fl (a.val - b.val))

/-- `date.toordinal` (lines 621-632) with `_ymd2ord` (_timedateutils.py:1035-1062). -/
def Cal.fracOrd (C : Cal) (f : FracDate) : Py Num := do
  let a ← C.daysBeforeYear f.y
  let b ← C.daysBeforeMonth f.y f.m
  .ok (((f.d.addInt (a + b)).addInt (fudge f.y)).addInt daysBefore1stYear)

/-- `date.weekday` (lines 846-855) with `_day_of_week` (_timedateutils.py:1020-1033). -/
def Cal.fracWeekday (C : Cal) (f : FracDate) : Py Num := do
  let o ← C.fracOrd f
  .ok ((o.addInt 1).mod7.addInt 7).mod7

/-- The index of the name of the day in `DAYNAMES`, in `date.ctime` (lines 451-453). A tuple takes no `float`. -/
def Cal.fracCtimeDay (C : Cal) (f : FracDate) : Py ℤ := do
  let w ← C.fracWeekday f
  w.index

/-- `date.isoformat` (lines 493-507) and `str` (lines 509-526). The format code `d` is refused for a `float`. -/
def Cal.fracDateIso (C : Cal) (f : FracDate) : Py Str :=
  match f.d with
  | .int d => C.dateIso (.short f.y f.m d)
  | .float _ => .error .value

/-- `date._getstate` (lines 930-951): the day is the last item of the bytes. -/
def fracDateState (f : FracDate) : Py (List ℤ) := do
  let _ ← pyBytes [(f.y - minYear) / 256, (f.y - minYear) % 256, f.m]
  let d ← f.d.index
  dateState (.short f.y f.m d)

/-- `date.__hash__` (lines 790-800). -/
def fracDateHash (h : List ℤ → ℤ) (f : FracDate) : Py ℤ := (fracDateState f).map h

/-- `pickle.loads(pickle.dumps(d))` (lines 972-979). -/
def Cal.fracDatePickle (C : Cal) (f : FracDate) : Py DateObj := do
  let s ← fracDateState f
  C.dateOfBytes s

/-- `date._cmp` of two short form objects (lines 768-788). -/
def fracDateCmp (a b : FracDate) : ℤ :=
  numCmp [(a.y : ℚ), (a.m : ℚ), a.d.val] [(b.y : ℚ), (b.m : ℚ), b.d.val]

/-- The microseconds of `timedelta(x)` of the standard library: the whole days of a `float` exactly, its fraction times
the microseconds of a day with one rounding, and the nearest microsecond. -/
def Num.asDays : Num → TimeDelta
  | .int n => TimeDelta.ofDays n
  | .float q =>
    let w : ℤ := if 0 ≤ q then ⌊q⌋ else ⌈q⌉
    ⟨w * 86400000000 + roundHalfEven (fl (86400000000 * (q - w)))⟩

/-- `date.__sub__` with a `date` (lines 837-840). -/
def Cal.fracSubDate (C : Cal) (a b : FracDate) : Py TimeDelta := do
  let i ← C.fracOrd a
  let j ← C.fracOrd b
  .ok (i.sub j).asDays

/-- The JD computed in `_ord2ymd` (_timedateutils.py:1085-1086) from a `float`. -/
def ordJdFloat (x : ℚ) : ℚ :=
  let jd := fl (fl (fl (ordinal1stYearEpoch - 1) - daysBefore1stYear) + x)
  fl ((⌊jd⌋ : ℚ) + 1 / 2)

/-- `date.fromordinal` (lines 326-342) with `_ord2ymd` (_timedateutils.py:1064-1087), of a number. -/
def Cal.fromOrdinalNum (C : Cal) (n : Num) (short : Bool) : Py DateObj :=
  match n with
  | .int n => C.fromOrdinal n short
  | .float q => do
    let b ← C.badiDateFromJd (ordJdFloat q) tehranLat tehranLon { short := short, trim := true, rtd := true }
    C.newDateOf b

/-- `date.__add__` with a `timedelta` (lines 804-822). -/
def Cal.fracAdd (C : Cal) (f : FracDate) (t : TimeDelta) : Py DateObj := do
  let o ← C.fracOrd f
  let od := o.addInt t.days
  if (daysBefore1stYear : ℚ) < od.val ∧ od.val ≤ maxOrdinal then C.fromOrdinalNum od true else .error .overflow

end Verif
