import Verif.Model.IsoText

/-!
# Model of `time` objects with any `tzinfo`

Line numbers refer to `/repo/badidatetime/datetime.py`. The class `time` takes any subclass of `tzinfo` of the standard
library (`_check_tzinfo_arg`, lines 98-107) and asks it with `utcoffset(None)` (line 1423). The answer can be `None`, as it is
from the zones of `zoneinfo` that change their offset, or an exception. The zone is an argument beside the object, whose own
field `tz` is not used.
-/

namespace Verif

/-- An object of a subclass of `tzinfo`: its identity, and what `utcoffset(None)` returns, in microseconds. A return value
that is no `timedelta` is the TypeError of `_check_offset` (lines 87-89). That the same object is asked twice and answers
differently is not modelled. -/
structure ClockZone where
  id : ℕ
  off : Py (Option ℤ)

/-- `time.utcoffset` (lines 1412-1425). -/
def clockOffset (p : Option ClockZone) : Py (Option ℤ) :=
  match p with
  | none => .ok none
  | some z => do
    let o ← z.off
    match o with
    | none => .ok none
    | some o => do
      checkOffset o
      .ok (some o)

/-- `is` on two values of `tzinfo` (line 1236). -/
def sameClockZone : Option ClockZone → Option ClockZone → Bool
  | none, none => true
  | some p, some q => p.id == q.id
  | _, _ => false

/-- `time._cmp` (lines 1220-1259). -/
def clockCmp (a : TimeObj) (p : Option ClockZone) (b : TimeObj) (q : Option ClockZone) (mixed : Bool) : Py ℤ :=
  if sameClockZone p q then .ok (tupleCmp [a.h, a.mi, a.s, a.us] [b.h, b.mi, b.s, b.us])
  else do
    let x ← clockOffset p
    let y ← clockOffset q
    timeCmpOff a b mixed x y

/-- `time.__eq__` (lines 1200-1202). -/
def clockEq (a : TimeObj) (p : Option ClockZone) (b : TimeObj) (q : Option ClockZone) : Py Bool :=
  (clockCmp a p b q true).map (· == 0)
/-- `time.__le__` (lines 1204-1206). The class `time`, a true value, is passed for `allow_mixed`. -/
def clockLe (a : TimeObj) (p : Option ClockZone) (b : TimeObj) (q : Option ClockZone) : Py Bool :=
  (clockCmp a p b q true).map (fun c => decide (c ≤ 0))
/-- `time.__lt__` (lines 1208-1210). -/
def clockLt (a : TimeObj) (p : Option ClockZone) (b : TimeObj) (q : Option ClockZone) : Py Bool :=
  (clockCmp a p b q false).map (fun c => decide (c < 0))
/-- `time.__ge__` (lines 1212-1214). -/
def clockGe (a : TimeObj) (p : Option ClockZone) (b : TimeObj) (q : Option ClockZone) : Py Bool :=
  (clockCmp a p b q false).map (fun c => decide (0 ≤ c))
/-- `time.__gt__` (lines 1216-1218). -/
def clockGt (a : TimeObj) (p : Option ClockZone) (b : TimeObj) (q : Option ClockZone) : Py Bool :=
  (clockCmp a p b q false).map (fun c => decide (0 < c))

/-- `time.__hash__` (lines 1263-1294). -/
def clockHash (H : PyHash) (t : TimeObj) (p : Option ClockZone) : Py ℤ := do
  let t0 ← if t.fold ≠ 0 then newTime { t with fold := 0 } else .ok t
  let off ← clockOffset p
  match off with
  | none => timeHashBytes H t0
  | some z => if z = 0 then timeHashBytes H t0 else timeHashOff H t z

/-- `time.isoformat` with `timespec='auto'` (lines 1336-1359) and `_tzstr` (lines 1298-1306). -/
def clockIso (t : TimeObj) (p : Option ClockZone) : Py Str := do
  let off ← clockOffset p
  .ok (formatTime t.h t.mi t.s t.us ++ formatOffset off)

/-- `time.badioffset` (lines 1427-1441): `BADI_COORD[2]` is 3.5 (line 25). -/
def clockBadi (p : Option ClockZone) : Py (Option ℤ) := do
  let off ← clockOffset p
  .ok (off.map (· - 12600000000))

end Verif
