import Verif.Model.DateTime

/-!
# Model of `datetime` objects with any `tzinfo`

Line numbers refer to `/repo/badidatetime/datetime.py`. The rest of the model has zones with a fixed offset, as the
classes `timezone` and `TZWithCoords` of the library are. The class `datetime` takes any subclass of `tzinfo` of the
standard library (`_check_tzinfo_arg`, lines 98-107), so here the offset is a function of the object, `fold` included,
and it can be `None` or an exception. The zone is an argument beside the object, whose own field `tz` is not used.
-/

namespace Verif

/-- An object of a subclass of `tzinfo`: its identity, and what `utcoffset(dt)` returns, in microseconds. That the
same object is asked twice and answers differently is not modelled. -/
structure AnyZone where
  id : ℕ
  off : DT → Py (Option ℤ)

/-- `datetime.utcoffset` (lines 2279-2287). -/
def anyOffset (z : Option AnyZone) (x : DT) : Py (Option ℤ) :=
  match z with
  | none => .ok none
  | some z => do
    let o ← z.off x
    match o with
    | none => .ok none
    | some o => do
      checkOffset o
      .ok (some o)

/-- `is` on two values of `tzinfo`. -/
def sameZone : Option AnyZone → Option AnyZone → Bool
  | none, none => true
  | some p, some q => p.id == q.id
  | _, _ => false

/-- The end of `datetime.__sub__` with a `datetime` (lines 2474-2485). -/
def anySubOff (x : DT) (p : Option AnyZone) (y : DT) (q : Option AnyZone) (base : ℤ) : Py ℤ :=
  if sameZone p q then .ok base
  else do
    let a ← anyOffset p x
    let b ← anyOffset q y
    if a = b then .ok base
    else
      match a, b with
      | some a, some b => .ok (base + b - a)
      | _, _ => .error .type

/-- `datetime.__sub__` with a `datetime` (lines 2465-2485), in microseconds. -/
def Cal.anySub (C : Cal) (x : DT) (p : Option AnyZone) (y : DT) (q : Option AnyZone) : Py ℤ := do
  let m ← C.toOrdinal x.d
  let n ← C.toOrdinal y.d
  let secs1 := x.s + x.mi * 60 + x.h * 3600
  let secs2 := y.s + y.mi * 60 + y.h * 3600
  anySubOff x p y q ((m - n) * usPerDay + (secs1 - secs2) * 1000000 + (x.us - y.us))

/-- The object with the other `fold` (lines 2392 and 2395). -/
def Cal.flipFold (C : Cal) (x : DT) : Py DT :=
  C.replaceDT x { t := { fold := some (if x.fold = 0 then 1 else 0) } }

/-- Whether `fold` decides about the offset of one of the two objects (lines 2391-2396). -/
def Cal.foldMatters (C : Cal) (x : DT) (p : Option AnyZone) (y : DT) (q : Option AnyZone) (a b : Option ℤ) :
    Py Bool := do
  let x' ← C.flipFold x
  let a' ← anyOffset p x'
  if a ≠ a' then .ok true
  else do
    let y' ← C.flipFold y
    let b' ← anyOffset q y'
    .ok (b != b')

/-- The end of `datetime._cmp` (lines 2398-2417). -/
def Cal.anyCmpOff (C : Cal) (x : DT) (p : Option AnyZone) (y : DT) (q : Option AnyZone) (mixed : Bool)
    (a b : Option ℤ) : Py ℤ :=
  if a = b then .ok (tupleCmp x.cmpFields y.cmpFields)
  else
    match a, b with
    | some _, some _ => do
      let diff ← C.anySub x p y q
      .ok (if diff / usPerDay < 0 then -1 else if diff = 0 then 0 else 1)
    | _, _ => if mixed then .ok 2 else .error .type

/-- `datetime._cmp` (lines 2366-2417). -/
def Cal.anyCmp (C : Cal) (x : DT) (p : Option AnyZone) (y : DT) (q : Option AnyZone) (mixed : Bool) : Py ℤ :=
  if sameZone p q then .ok (tupleCmp x.cmpFields y.cmpFields)
  else do
    let a ← anyOffset p x
    let b ← anyOffset q y
    let m ← if mixed then C.foldMatters x p y q a b else .ok false
    if m then .ok 2 else C.anyCmpOff x p y q mixed a b

/-- `datetime.__eq__` (lines 2326-2332). -/
def Cal.anyEq (C : Cal) (x : DT) (p : Option AnyZone) (y : DT) (q : Option AnyZone) : Py Bool :=
  (C.anyCmp x p y q true).map (· == 0)
/-- `datetime.__le__` (lines 2334-2340). -/
def Cal.anyLe (C : Cal) (x : DT) (p : Option AnyZone) (y : DT) (q : Option AnyZone) : Py Bool :=
  (C.anyCmp x p y q false).map (fun c => decide (c ≤ 0))
/-- `datetime.__lt__` (lines 2342-2348). -/
def Cal.anyLt (C : Cal) (x : DT) (p : Option AnyZone) (y : DT) (q : Option AnyZone) : Py Bool :=
  (C.anyCmp x p y q false).map (fun c => decide (c < 0))
/-- `datetime.__ge__` (lines 2350-2356). -/
def Cal.anyGe (C : Cal) (x : DT) (p : Option AnyZone) (y : DT) (q : Option AnyZone) : Py Bool :=
  (C.anyCmp x p y q false).map (fun c => decide (0 ≤ c))
/-- `datetime.__gt__` (lines 2358-2364). -/
def Cal.anyGt (C : Cal) (x : DT) (p : Option AnyZone) (y : DT) (q : Option AnyZone) : Py Bool :=
  (C.anyCmp x p y q false).map (fun c => decide (0 < c))

/-- `datetime.__hash__` (lines 2487-2509). -/
def Cal.anyHash (C : Cal) (H : PyHash) (x : DT) (p : Option AnyZone) : Py ℤ := do
  let t ← C.dtNoFold x
  let off ← anyOffset p t
  match off with
  | none => (dtState t 3).map H.bytes
  | some z => do
    let days ← C.ymd2ord x.d.ymd.1 x.d.ymd.2.1 x.d.ymd.2.2
    .ok (H.delta (days * usPerDay + x.tod - z))

/-- `datetime.astimezone` (lines 2109-2147) of an object that has an offset, to a zone that inherits `fromutc` from
`tzinfo`, as the subclasses that follow the documentation of `tzinfo` do. That method takes the `datetime` of the
standard library only, and raises TypeError for the one of this library, which is no subclass of it. -/
def Cal.anyAstimezone (C : Cal) (x : DT) (p w : AnyZone) (o : ℤ) : Py DT :=
  if p.id = w.id then .ok x
  else do
    let u ← C.dtSubDelta x o
    let _ ← C.replaceDT u {}
    .error .type

/-- A zone of the library, with a fixed offset, as an object of this kind. -/
def AnyZone.ofTz (z : Tz) : AnyZone := ⟨z.id, fun _ => .ok (some z.off)⟩

end Verif
