import Verif.Model.Date

/-!
# Model of `class time` of `badidatetime/datetime.py`, without its text conversions

Line numbers refer to `/repo/badidatetime/datetime.py`. The fields are Python integers (the constructor also
lets fractions through; such objects are not modelled). Time zones are fixed offset zones: `timezone` and
`TZWithCoords` both answer `utcoffset` with a constant (lines 2743-2756).
-/

namespace Verif

/-- A fixed offset zone object: an object identity and the offset in microseconds. Two references are the same
object (`is`) exactly when they are equal here. -/
structure Tz where
  id : ℕ
  off : ℤ
  deriving DecidableEq, Repr

/-- Microseconds in a day. -/
def usPerDay : ℤ := 86400000000

/-- A `time` object (lines 1125-1134). -/
structure TimeObj where
  h : ℤ
  mi : ℤ
  s : ℤ
  us : ℤ
  tz : Option Tz := none
  fold : ℤ := 0
  deriving DecidableEq, Repr

/-- `_check_time_fields` (_timedateutils.py:1445-1461) with `_check_valid_badi_time` for `maxsec=61`
(badi_calendar.py:690-713). -/
def checkTimeFields (h mi s us fold : ℤ) : Py Unit := do
  pyAssert (0 ≤ h ∧ h < 25)
  pyAssert (0 ≤ mi ∧ mi < 60)
  pyAssert (0 ≤ s ∧ s < 61)
  pyAssert (0 ≤ us ∧ us < 1000000)
  pyAssert (fold = 0 ∨ fold = 1)

/-- `time.__new__` with integer arguments (lines 1089-1136). -/
def newTime (t : TimeObj) : Py TimeObj := do
  checkTimeFields t.h t.mi t.s t.us t.fold
  .ok t

/-- `_check_offset` (lines 69-95) on the offset of the zone. -/
def checkOffset (off : ℤ) : Py Unit :=
  if -usPerDay < off ∧ off < usPerDay then .ok () else .error .value

/-- `time.utcoffset` (lines 1412-1423) and `datetime.utcoffset` (lines 2279-2287). -/
def utcOffset : Option Tz → Py (Option ℤ)
  | none => .ok none
  | some z => do
    checkOffset z.off
    .ok (some z.off)

/-- The end of `time._cmp` (lines 1240-1259), the offsets being known. -/
def timeCmpOff (a b : TimeObj) (mixed : Bool) (myoff otoff : Option ℤ) : Py ℤ :=
  if myoff = otoff then .ok (tupleCmp [a.h, a.mi, a.s, a.us] [b.h, b.mi, b.s, b.us])
  else
    match myoff, otoff with
    | some x, some y =>
      .ok (tupleCmp [a.h * 60 + a.mi - x / 60000000, a.s, a.us] [b.h * 60 + b.mi - y / 60000000, b.s, b.us])
    | _, _ => if mixed then .ok 2 else .error .type

/-- `time._cmp` (lines 1220-1259). -/
def timeCmp (a b : TimeObj) (mixed : Bool) : Py ℤ :=
  if a.tz = b.tz then .ok (tupleCmp [a.h, a.mi, a.s, a.us] [b.h, b.mi, b.s, b.us])
  else do
    let x ← utcOffset a.tz
    let y ← utcOffset b.tz
    timeCmpOff a b mixed x y

/-- `time.__eq__` (lines 1200-1202). -/
def timeEq (a b : TimeObj) : Py Bool := (timeCmp a b true).map (· == 0)
/-- `time.__le__` (lines 1204-1206). The class `time`, a true value, is passed for `allow_mixed`. -/
def timeLe (a b : TimeObj) : Py Bool := (timeCmp a b true).map (fun c => decide (c ≤ 0))
/-- `time.__lt__` (lines 1208-1210). -/
def timeLt (a b : TimeObj) : Py Bool := (timeCmp a b false).map (fun c => decide (c < 0))
/-- `time.__ge__` (lines 1212-1214). -/
def timeGe (a b : TimeObj) : Py Bool := (timeCmp a b false).map (fun c => decide (0 ≤ c))
/-- `time.__gt__` (lines 1216-1218). -/
def timeGt (a b : TimeObj) : Py Bool := (timeCmp a b false).map (fun c => decide (0 < c))

/-- The bytes of `time._getstate` (lines 1518-1536). -/
def timeState (t : TimeObj) (protocol : ℕ) : Py (List ℤ) :=
  pyBytes [t.h + (if t.fold ≠ 0 ∧ 3 < protocol then 128 else 0), t.mi, t.s, t.us / 256 / 256, t.us / 256 % 256,
    t.us % 256]

/-- `time.__new__` with pickled state (lines 1106-1122) and `time.__setstate` (lines 1538-1558); the hour byte
without its top bit must be below 24. Otherwise the constructor goes on to compare the bytes with numbers. -/
def timeOfBytes (tz : Option Tz) : List ℤ → Py TimeObj
  | [h, mi, s, u1, u2, u3] =>
    if h % 128 < 24 then
      .ok (if 127 < h then ⟨h - 128, mi, s, (u1 * 256 + u2) * 256 + u3, tz, 1⟩
        else ⟨h, mi, s, (u1 * 256 + u2) * 256 + u3, tz, 0⟩)
    else .error .type
  | _ => .error .type

/-- Pickling a `time` with a protocol and restoring it (`__reduce_ex__`, lines 1559-1567). The zone object is
taken to be restored by its own pickling. -/
def timePickle (t : TimeObj) (protocol : ℕ) : Py TimeObj := do
  let s ← timeState t protocol
  timeOfBytes t.tz s

/-- Hash functions of Python that the library applies: to state bytes, to tuples of numbers and to
timedeltas. They are unspecified. -/
structure PyHash where
  bytes : List ℤ → ℤ
  tuple : List ℤ → ℤ
  delta : ℤ → ℤ

/-- The hash of a `time` without offset: the hash of the state bytes for protocol 3 (line 1280). -/
def timeHashBytes (H : PyHash) (t : TimeObj) : Py ℤ := (timeState t 3).map H.bytes

/-- `time.__hash__` for a nonzero offset (lines 1281-1292). -/
def timeHashOff (H : PyHash) (t : TimeObj) (off : ℤ) : Py ℤ :=
  let d := (t.h * 60 + t.mi) * 60000000 - off
  let h := d / 3600000000
  let m := d % 3600000000
  if m % 60000000 ≠ 0 then .error .assertion
  else
    let m := m / 60000000
    if 0 ≤ h ∧ h < 24 then do
      let n ← newTime ⟨h, m, t.s, t.us, none, 0⟩
      timeHashBytes H n
    else .ok (H.tuple [h, m, t.s, t.us])

/-- `time.__hash__` (lines 1263-1294). -/
def timeHash (H : PyHash) (t : TimeObj) : Py ℤ := do
  let t0 ← if t.fold ≠ 0 then newTime { t with fold := 0 } else .ok t
  let off ← utcOffset t0.tz
  match off with
  | none => timeHashBytes H t0
  | some z => if z = 0 then timeHashBytes H t0 else timeHashOff H t z

/-- The arguments of `time.replace`; an absent `tzinfo` is the default `True` of the code. -/
structure TimeArgs where
  h : Option ℤ := none
  mi : Option ℤ := none
  s : Option ℤ := none
  us : Option ℤ := none
  tz : Option (Option Tz) := none
  fold : Option ℤ := none
  deriving DecidableEq, Repr

/-- `time.replace` (lines 1482-1514). -/
def replaceTime (t : TimeObj) (a : TimeArgs) : Py TimeObj :=
  newTime ⟨a.h.getD t.h, a.mi.getD t.mi, a.s.getD t.s, a.us.getD t.us, a.tz.getD t.tz, a.fold.getD t.fold⟩

end Verif
