import Verif.Model.Ordinal

/-!
# Model of `class date` of `badidatetime/datetime.py`, without its text conversions

Line numbers refer to `/repo/badidatetime/datetime.py`. The fields of a date are Python integers (the
library itself also lets fractional days through its checks; such objects are not modelled). The calendar
tables used by the methods of `date` and those used by `_td_utils` are the same table `C`.
-/

namespace Verif

/-- A `date` object (lines 262-285): the tuple `b_date`, with three fields in the short form and five in
the long form. -/
inductive DateObj where
  | short (y m d : ℤ)
  | long (k v y m d : ℤ)
  deriving DecidableEq, Repr

/-- The property `is_short` (lines 586-595). -/
def DateObj.isShort : DateObj → Bool
  | .short .. => true
  | .long .. => false

/-- The properties `year`, `month` and `day` (lines 549-584). -/
def DateObj.ymd : DateObj → ℤ × ℤ × ℤ
  | .short y m d => (y, m, d)
  | .long _ _ y m d => (y, m, d)

/-- `date.__new__` with three or five integers (lines 239-291), through `_check_date_fields`
(_timedateutils.py:1420-1443). -/
def Cal.newDate (C : Cal) : DateObj → Py DateObj
  | .short y m d => do
    C.checkShort ⟨y, m, d, []⟩
    .ok (.short y m d)
  | .long k v y m d => do
    C.checkLong ⟨k, v, y, m, d, []⟩
    .ok (.long k v y m d)

/-- The tuple that a calendar conversion returned, passed to `cls(*date)`: the constructor takes three
or five arguments; a tuple of another length is refused (lines 266-270). The days are integers. -/
def Cal.newDateOf (C : Cal) : BDate → Py DateObj
  | .short ⟨y, m, d, []⟩ => C.newDate (.short y m ⌊d⌋)
  | .long ⟨k, v, y, m, d, []⟩ => C.newDate (.long k v y m ⌊d⌋)
  | _ => .error .assertion

/-- `date.fromordinal` (lines 326-342). -/
def Cal.fromOrdinal (C : Cal) (n : ℤ) (short : Bool) : Py DateObj := do
  let b ← C.ord2ymd n short
  C.newDateOf b

/-- `date.fromisocalendar` (lines 381-399). -/
def Cal.fromIsoCalendar (C : Cal) (year week day : ℤ) (short : Bool) : Py DateObj := do
  let b ← C.isoweekToBadi year week day short
  match b with
  | .short s => C.newDate (.short s.y s.m ⌊s.d⌋)
  | .long l => C.newDate (.long l.k l.v l.y l.m ⌊l.d⌋)

/-- `date._short_from_long_form()[:3]` (lines 425-442). -/
def Cal.dateShort (C : Cal) : DateObj → Py (ℤ × ℤ × ℤ)
  | .short y m d => .ok (y, m, d)
  | .long k v y m d => do
    let s ← C.shortFromLong ⟨k, v, y, m, d, []⟩ false
    .ok (s.y, s.m, ⌊s.d⌋)

/-- `date.toordinal` (lines 621-632). -/
def Cal.toOrdinal (C : Cal) (o : DateObj) : Py ℤ := do
  let (y, m, d) ← C.dateShort o
  C.ymd2ord y m d

/-- `date.weekday` (lines 846-855). -/
def Cal.weekday (C : Cal) (o : DateObj) : Py ℤ := do
  let (y, m, d) ← C.dateShort o
  C.dayOfWeek y m d

/-- `date.isoweekday` (lines 857-866). -/
def Cal.isoWeekday (C : Cal) (o : DateObj) : Py ℤ := do
  let (y, m, d) ← C.dateShort o
  let w ← C.dayOfWeek y m d
  .ok (w + 1)

/-- `date.isocalendar` (lines 868-890). -/
def Cal.isoCalendar (C : Cal) (o : DateObj) : Py (ℤ × ℤ × ℤ) := do
  let (y, m, d) ← C.dateShort o
  C.yearWeekDay y m d

/-- The weekday and the day of the year in `date.timetuple()` (lines 611-619), from
`_build_struct_time` (_timedateutils.py:1089-1111). -/
def Cal.timetupleDays (C : Cal) (o : DateObj) : Py (ℤ × ℤ) := do
  let (y, m, d) ← C.dateShort o
  let w ← C.dayOfWeek y m d
  let b ← C.daysBeforeMonth y m
  .ok (w, b + d)

/-- `_MAXORDINAL` (line 21). -/
def maxOrdinal : ℤ := 1097267

/-- A `timedelta`: a number of microseconds. -/
structure TimeDelta where
  us : ℤ
  deriving DecidableEq, Repr

/-- The attribute `days` of a `timedelta`: the value is normalised so that the rest is between 0 and 24
hours. -/
def TimeDelta.days (t : TimeDelta) : ℤ := t.us / 86400000000

/-- `timedelta(n)`: `n` whole days. -/
def TimeDelta.ofDays (n : ℤ) : TimeDelta := ⟨n * 86400000000⟩

/-- `-t` for a `timedelta`. -/
def TimeDelta.neg (t : TimeDelta) : TimeDelta := ⟨-t.us⟩

/-- `t + u` for `timedelta`s. -/
def TimeDelta.add (t u : TimeDelta) : TimeDelta := ⟨t.us + u.us⟩

/-- `date.__add__` with a `timedelta` (lines 804-822). -/
def Cal.addDelta (C : Cal) (o : DateObj) (t : TimeDelta) : Py DateObj := do
  let n ← C.toOrdinal o
  if daysBefore1stYear < n + t.days ∧ n + t.days ≤ maxOrdinal then C.fromOrdinal (n + t.days) o.isShort
  else .error .overflow

/-- `date.__sub__` with a `timedelta` (lines 835-836). -/
def Cal.subDelta (C : Cal) (o : DateObj) (t : TimeDelta) : Py DateObj :=
  C.addDelta o (TimeDelta.ofDays (-t.days))

/-- `date.__sub__` with a `date` (lines 837-840). -/
def Cal.subDate (C : Cal) (o p : DateObj) : Py TimeDelta := do
  let a ← C.toOrdinal o
  let b ← C.toOrdinal p
  .ok (TimeDelta.ofDays (a - b))

/-- Comparison of two tuples of integers by `==` and `>`; `_cmp` (lines 35-43). -/
def tupleCmp : List ℤ → List ℤ → ℤ
  | [], [] => 0
  | [], _ :: _ => -1
  | _ :: _, [] => 1
  | a :: l, b :: r => if a = b then tupleCmp l r else if b < a then 1 else -1

/-- `date._cmp` (lines 768-788). A short form object has no attribute `_kull_i_shay`. -/
def dateCmp (a b : DateObj) : Py ℤ :=
  match a with
  | .short y m d => .ok (tupleCmp [y, m, d] [b.ymd.1, b.ymd.2.1, b.ymd.2.2])
  | .long k v y m d =>
    match b with
    | .short .. => .error .attribute
    | .long k' v' y' m' d' => .ok (tupleCmp [k, v, y, m, d] [k', v', y', m', d'])

/-- `date.__eq__` (lines 748-750). -/
def dateEq (a b : DateObj) : Py Bool := (dateCmp a b).map (· == 0)
/-- `date.__le__` (lines 752-754). -/
def dateLe (a b : DateObj) : Py Bool := (dateCmp a b).map (fun c => decide (c ≤ 0))
/-- `date.__lt__` (lines 756-758). -/
def dateLt (a b : DateObj) : Py Bool := (dateCmp a b).map (fun c => decide (c < 0))
/-- `date.__ge__` (lines 760-762). -/
def dateGe (a b : DateObj) : Py Bool := (dateCmp a b).map (fun c => decide (0 ≤ c))
/-- `date.__gt__` (lines 764-766). -/
def dateGt (a b : DateObj) : Py Bool := (dateCmp a b).map (fun c => decide (0 < c))

/-- `bytes(state)`: every item must be in `range(256)`. -/
def pyBytes (l : List ℤ) : Py (List ℤ) :=
  if ∀ x ∈ l, 0 ≤ x ∧ x < 256 then .ok l else .error .value

/-- `date._getstate` (lines 930-951). -/
def dateState : DateObj → Py (List ℤ)
  | .short y m d => pyBytes [(y - minYear) / 256, (y - minYear) % 256, m, d]
  | .long k v y m d => pyBytes [k + 19, v, y, m, d]

/-- `date._is_pickle_data` on bytes (lines 893-928), followed by `__setstate` (lines 953-970) and the check
in `date.__new__` (lines 258-262 and 288). Bytes whose month byte is not in 1..19 are not taken as pickle
data; the constructor then finds one field and its assertion fails. -/
def Cal.dateOfBytes (C : Cal) : List ℤ → Py DateObj
  | [yhi, ylo, m, d] =>
    if 1 ≤ m ∧ m ≤ 19 then C.newDate (.short (yhi * 256 + minYear + ylo) m d) else .error .assertion
  | [k, v, y, m, d] =>
    if 1 ≤ m ∧ m ≤ 19 then C.newDate (.long (k - 19) v y m d) else .error .assertion
  | _ => .error .assertion

/-- `pickle.loads(pickle.dumps(d))`, and `copy.copy(d)`: `date.__reduce__` (lines 972-979) hands the state to
the constructor. -/
def Cal.datePickle (C : Cal) (o : DateObj) : Py DateObj := do
  let s ← dateState o
  C.dateOfBytes s

/-- `date.__hash__` (lines 790-800): Python's hash of the one-tuple of the state bytes, an unspecified
function of the bytes. -/
def dateHash (h : List ℤ → ℤ) (o : DateObj) : Py ℤ := (dateState o).map h

/-- The optional arguments of `date.replace`. -/
structure ReplaceArgs where
  k : Option ℤ := none
  v : Option ℤ := none
  y : Option ℤ := none
  m : Option ℤ := none
  d : Option ℤ := none
  deriving DecidableEq, Repr

/-- Truth value of an optional integer: `None` and `0` are false. -/
def pyTruthy : Option ℤ → Bool
  | none => false
  | some x => x != 0

/-- `date.replace` (lines 634-662) with `_replace_short` (lines 664-700) and `_replace_long` (lines
702-744). -/
def Cal.replaceDate (C : Cal) (o : DateObj) (a : ReplaceArgs) : Py DateObj :=
  match o with
  | .short y m d =>
    if pyTruthy a.k || pyTruthy a.v then .error .value
    else C.newDate (.short (a.y.getD y) (a.m.getD m) (a.d.getD d))
  | .long k v y m d =>
    if a.y.any (fun y' => y' < 1 || 19 < y') then .error .value
    else C.newDate (.long (a.k.getD k) (a.v.getD v) (a.y.getD y) (a.m.getD m) (a.d.getD d))

end Verif
