import Verif.Model.Date
import Verif.Model.Time
import Verif.Model.DateTime

/-!
# Model of the operators of Python on dates, times, datetimes and timedeltas

Line numbers refer to `/repo/badidatetime/datetime.py`. An operator asks the methods of the two objects in the order of the
Python language reference: those of the right object first if its class is a proper subclass of the class of the left one that
overrides the method, as `datetime` is of `date` (line 1585). The objects are instances of these four classes themselves;
`timedelta` is that of the standard library.
-/

namespace Verif

/-- An object of one of the four classes. -/
inductive Val where
  | date (d : DateObj)
  | time (t : TimeObj)
  | datetime (x : DT)
  | delta (t : TimeDelta)
  deriving DecidableEq, Repr

/-- The class of an object. -/
inductive Kind where
  | date | time | datetime | delta
  deriving DecidableEq, Repr

def Val.kind : Val → Kind
  | .date _ => .date
  | .time _ => .time
  | .datetime _ => .datetime
  | .delta _ => .delta

/-- The comparison operators. -/
inductive CmpOp where
  | eq | ne | lt | le | gt | ge
  deriving DecidableEq, Repr

/-- The operator with its sides exchanged. -/
def CmpOp.swap : CmpOp → CmpOp
  | .eq => .eq
  | .ne => .ne
  | .lt => .gt
  | .le => .ge
  | .gt => .lt
  | .ge => .le

/-- The comparison methods of `date` with two dates (lines 748-766); `__ne__` is that of `object`. -/
def dateOp : CmpOp → DateObj → DateObj → Py Bool
  | .eq, a, b => dateEq a b
  | .ne, a, b => (dateEq a b).map not
  | .lt, a, b => dateLt a b
  | .le, a, b => dateLe a b
  | .gt, a, b => dateGt a b
  | .ge, a, b => dateGe a b

/-- The comparison methods of `time` with two times (lines 1200-1218). -/
def timeOp : CmpOp → TimeObj → TimeObj → Py Bool
  | .eq, a, b => timeEq a b
  | .ne, a, b => (timeEq a b).map not
  | .lt, a, b => timeLt a b
  | .le, a, b => timeLe a b
  | .gt, a, b => timeGt a b
  | .ge, a, b => timeGe a b

/-- The comparison methods of `datetime` with two datetimes (lines 2326-2364). -/
def Cal.dtOp (C : Cal) : CmpOp → DT → DT → Py Bool
  | .eq, a, b => C.dtEq a b
  | .ne, a, b => (C.dtEq a b).map not
  | .lt, a, b => C.dtLt a b
  | .le, a, b => C.dtLe a b
  | .gt, a, b => C.dtGt a b
  | .ge, a, b => C.dtGe a b

/-- The comparisons of `timedelta`. -/
def deltaOp : CmpOp → TimeDelta → TimeDelta → Bool
  | .eq, a, b => a.us = b.us
  | .ne, a, b => a.us ≠ b.us
  | .lt, a, b => a.us < b.us
  | .le, a, b => a.us ≤ b.us
  | .gt, a, b => b.us < a.us
  | .ge, a, b => b.us ≤ a.us

/-- The method of the left object (lines 748-766, 1200-1218, 2326-2364); `none` is `NotImplemented`. A datetime is an instance
of `date`, so the method of a date compares it with the date. The method of a datetime refuses a date with `_cmperror` (lines
110-119), except `__eq__`. -/
def Cal.cmpMethod (C : Cal) (op : CmpOp) : Val → Val → Py (Option Bool)
  | .date a, .date b => (dateOp op a b).map some
  | .date a, .datetime y => (dateOp op a y.d).map some
  | .datetime x, .datetime y => (C.dtOp op x y).map some
  | .datetime _, .date _ =>
    match op with
    | .eq => .ok (some false)
    | .ne => .ok (some true)
    | _ => .error .type
  | .time a, .time b => (timeOp op a b).map some
  | .delta a, .delta b => .ok (some (deltaOp op a b))
  | _, _ => .ok none

/-- When both methods return `NotImplemented`: `==` and `!=` compare the identity, here of objects of different classes, and the
other operators raise TypeError. -/
def cmpDefault : CmpOp → Py Bool
  | .eq => .ok false
  | .ne => .ok true
  | _ => .error .type

/-- The class of the second is a proper subclass of the class of the first. -/
def properSub : Kind → Kind → Bool
  | .date, .datetime => true
  | _, _ => false

/-- The first of two methods that does not return `NotImplemented`. -/
def firstOf {α : Type} (a b : Py (Option α)) (default : Py α) : Py α := do
  match ← a with
  | some r => .ok r
  | none =>
    match ← b with
    | some r => .ok r
    | none => default

/-- A comparison operator. -/
def Cal.compare (C : Cal) (op : CmpOp) (a b : Val) : Py Bool :=
  if properSub a.kind b.kind then firstOf (C.cmpMethod op.swap b a) (C.cmpMethod op a b) (cmpDefault op)
  else firstOf (C.cmpMethod op a b) (C.cmpMethod op.swap b a) (cmpDefault op)

/-- `__add__` and `__radd__` (lines 804-824, 2419-2447); a time has neither. -/
def Cal.addMethod (C : Cal) : Val → Val → Py (Option Val)
  | .date d, .delta t => (C.addDelta d t).map (fun r => some (.date r))
  | .datetime x, .delta t => (C.dtAdd x t.us).map (fun r => some (.datetime r))
  | .delta t, .delta u => .ok (some (.delta (t.add u)))
  | _, _ => .ok none

/-- The operator `+`. Both classes of dates define `__radd__`, so that of a datetime on the right of a date comes first. -/
def Cal.plus (C : Cal) (a b : Val) : Py Val :=
  if properSub a.kind b.kind then firstOf (C.addMethod b a) (C.addMethod a b) (.error .type)
  else firstOf (C.addMethod a b) (C.addMethod b a) (.error .type)

/-- `__sub__` (lines 826-844, 2449-2485). -/
def Cal.subMethod (C : Cal) : Val → Val → Py (Option Val)
  | .date d, .delta t => (C.subDelta d t).map (fun r => some (.date r))
  | .date d, .date e => (C.subDate d e).map (fun r => some (.delta r))
  | .date d, .datetime y => (C.subDate d y.d).map (fun r => some (.delta r))
  | .datetime x, .delta t => (C.dtSubDelta x t.us).map (fun r => some (.datetime r))
  | .datetime x, .datetime y => (C.dtSub x y).map (fun r => some (.delta ⟨r⟩))
  | .delta t, .delta u => .ok (some (.delta (t.add u.neg)))
  | _, _ => .ok none

/-- The operator `-`. No class of the library defines `__rsub__`; that of `timedelta` takes only timedeltas. -/
def Cal.minus (C : Cal) (a b : Val) : Py Val := firstOf (C.subMethod a b) (.ok none) (.error .type)

end Verif
