import Verif.Model.Time

/-!
# Model of `time` objects whose fields are integers or fractions

Line numbers refer to `/repo/badidatetime/datetime.py`. The parameters `hour`, `minute` and `second` of the constructor are
documented as `float` (lines 1089-1103), and nothing turns them into integers. Only objects without a zone are modelled
here; `Model/Time.lean` has those with integer fields and a zone.
-/

namespace Verif

/-- A number of Python: an `int` or a `float`. -/
inductive Num where
  | int (n : ℤ)
  | float (q : ℚ)
  deriving DecidableEq, Repr

/-- The value that comparisons of Python see; those of an `int` with a `float` are exact. -/
def Num.val : Num → ℚ
  | .int n => n
  | .float q => q

/-- A `time` object without a zone (lines 1125-1134). -/
structure FracTime where
  h : Num
  mi : Num
  s : Num
  us : Num
  fold : ℤ := 0
  deriving DecidableEq, Repr

/-- `time.__new__` with numbers (lines 1089-1136): `_check_time_fields` (_timedateutils.py:1445-1461) with
`_check_valid_badi_time` for `maxsec=61` (badi_calendar.py:690-713). -/
def newFracTime (t : FracTime) : Py FracTime := do
  pyAssert (0 ≤ t.h.val ∧ t.h.val < 25)
  pyAssert (0 ≤ t.mi.val ∧ t.mi.val < 60)
  pyAssert (0 ≤ t.s.val ∧ t.s.val < 61)
  pyAssert (0 ≤ t.us.val ∧ t.us.val < 1000000)
  pyAssert (t.fold = 0 ∨ t.fold = 1)
  .ok t

/-- `_cmp` (lines 35-43) on tuples of numbers. -/
def numCmp : List ℚ → List ℚ → ℤ
  | [], [] => 0
  | [], _ :: _ => -1
  | _ :: _, [] => 1
  | a :: l, b :: r => if a = b then numCmp l r else if b < a then 1 else -1

/-- `time._cmp` (lines 1220-1259) of two objects without a zone: the zones are the same object `None` (line 1237). -/
def fracCmp (a b : FracTime) : ℤ :=
  numCmp [a.h.val, a.mi.val, a.s.val, a.us.val] [b.h.val, b.mi.val, b.s.val, b.us.val]

/-- `time.__eq__` (lines 1200-1202). -/
def fracEq (a b : FracTime) : Bool := fracCmp a b == 0
/-- `time.__le__` (lines 1204-1206). -/
def fracLe (a b : FracTime) : Bool := decide (fracCmp a b ≤ 0)
/-- `time.__lt__` (lines 1208-1210). -/
def fracLt (a b : FracTime) : Bool := decide (fracCmp a b < 0)

/-- A number as an item of `bytes([...])`: a `float` is refused, whatever its value. -/
def Num.index : Num → Py ℤ
  | .int n => .ok n
  | .float _ => .error .type

/-- The bytes of `time._getstate` (lines 1518-1536). `divmod` of a `float` gives floats, and adding 128 to one gives
one, so each is refused where the field itself would be. -/
def fracState (t : FracTime) (protocol : ℕ) : Py (List ℤ) := do
  let h ← t.h.index
  let mi ← t.mi.index
  let s ← t.s.index
  let us ← t.us.index
  timeState ⟨h, mi, s, us, none, t.fold⟩ protocol

/-- `time.__reduce_ex__` (lines 1559-1567) and the call of the class with its result (lines 1106-1122). -/
def fracPickle (t : FracTime) (protocol : ℕ) : Py TimeObj := do
  let s ← fracState t protocol
  timeOfBytes none s

/-- `time.__hash__` (lines 1263-1294) of an object without a zone. -/
def fracHash (H : PyHash) (t : FracTime) : Py ℤ := do
  let t0 ← if t.fold ≠ 0 then newFracTime { t with fold := 0 } else .ok t
  (fracState t0 3).map H.bytes

/-- The object with the same integer fields. -/
def TimeObj.frac (t : TimeObj) : FracTime := ⟨.int t.h, .int t.mi, .int t.s, .int t.us, t.fold⟩

end Verif
