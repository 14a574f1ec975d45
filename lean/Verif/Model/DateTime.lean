import Verif.Model.Time

/-!
# Model of `class datetime` of `badidatetime/datetime.py`, without its text conversions

Line numbers refer to `/repo/badidatetime/datetime.py`. The fields of the objects are Python integers; the
constructor's treatment of fractional hours, minutes and seconds is `createTime`.
-/

namespace Verif

/-- A `datetime` object: a date in either form and a time of day (lines 1630-1656). -/
structure DT where
  d : DateObj
  h : ℤ
  mi : ℤ
  s : ℤ
  us : ℤ
  tz : Option Tz := none
  fold : ℤ := 0
  deriving DecidableEq, Repr

/-- `datetime.__new__` with integer arguments (lines 1595-1663). -/
def Cal.newDT (C : Cal) (x : DT) : Py DT := do
  let _ ← C.newDate x.d
  checkTimeFields x.h x.mi x.s x.us x.fold
  .ok x

/-- `datetime.combine` (lines 1885-1913). -/
def Cal.combine (C : Cal) (d : DateObj) (t : TimeObj) : Py DT :=
  C.newDT ⟨d, t.h, t.mi, t.s, t.us, t.tz, t.fold⟩

/-- The time of day in microseconds. -/
def DT.tod (x : DT) : ℤ := ((x.h * 60 + x.mi) * 60 + x.s) * 1000000 + x.us

/-- `datetime.__add__` with a `timedelta` (lines 2419-2445). The limits of `timedelta` itself (about 2.7
million years) are not modelled; they raise OverflowError too. -/
def Cal.dtAdd (C : Cal) (x : DT) (t : ℤ) : Py DT := do
  let n ← C.toOrdinal x.d
  let delta := n * usPerDay + x.tod + t
  let days := delta / usPerDay
  let seconds := delta % usPerDay / 1000000
  let us := delta % usPerDay % 1000000
  let hour := seconds / 3600
  let rem := seconds % 3600
  if daysBefore1stYear < days ∧ days ≤ maxOrdinal then do
    let d ← C.fromOrdinal days x.d.isShort
    let tm ← newTime ⟨hour, rem / 60, rem % 60, us, x.tz, 0⟩
    C.combine d tm
  else .error .overflow

/-- `datetime.__sub__` with a `timedelta` (lines 2460-2461). -/
def Cal.dtSubDelta (C : Cal) (x : DT) (t : ℤ) : Py DT := C.dtAdd x (-t)

/-- The end of `datetime.__sub__` with a `datetime` (lines 2474-2485). -/
def dtSubOff (x y : DT) (base : ℤ) : Py ℤ :=
  if x.tz = y.tz then .ok base
  else do
    let a ← utcOffset x.tz
    let b ← utcOffset y.tz
    match a, b with
    | some p, some q => if p = q then .ok base else .ok (base + q - p)
    | none, none => .ok base
    | _, _ => .error .type

/-- `datetime.__sub__` with a `datetime` (lines 2465-2485), in microseconds. -/
def Cal.dtSub (C : Cal) (x y : DT) : Py ℤ := do
  let m ← C.toOrdinal x.d
  let n ← C.toOrdinal y.d
  let secs1 := x.s + x.mi * 60 + x.h * 3600
  let secs2 := y.s + y.mi * 60 + y.h * 3600
  dtSubOff x y ((m - n) * usPerDay + (secs1 - secs2) * 1000000 + (x.us - y.us))

/-- The seven fields that `datetime._cmp` compares (lines 2400-2403): not the Kull-i-Shay and Váḥid of a long
form. -/
def DT.cmpFields (x : DT) : List ℤ :=
  [x.d.ymd.1, x.d.ymd.2.1, x.d.ymd.2.2, x.h, x.mi, x.s, x.us]

/-- The end of `datetime._cmp` (lines 2399-2417), the offsets being known. -/
def Cal.dtCmpOff (C : Cal) (x y : DT) (mixed : Bool) (a b : Option ℤ) : Py ℤ :=
  if a = b then .ok (tupleCmp x.cmpFields y.cmpFields)
  else
    match a, b with
    | some _, some _ => do
      let diff ← C.dtSub x y
      .ok (if diff / usPerDay < 0 then -1 else if diff = 0 then 0 else 1)
    | _, _ => if mixed then .ok 2 else .error .type

/-- `datetime._cmp` (lines 2366-2417). The offset of a fixed offset zone does not depend on `fold`, so the two
comparisons with the flipped `fold` in lines 2392-2396 never answer. -/
def Cal.dtCmp (C : Cal) (x y : DT) (mixed : Bool) : Py ℤ :=
  if x.tz = y.tz then .ok (tupleCmp x.cmpFields y.cmpFields)
  else do
    let a ← utcOffset x.tz
    let b ← utcOffset y.tz
    C.dtCmpOff x y mixed a b

/-- `datetime.__eq__` (lines 2326-2332). -/
def Cal.dtEq (C : Cal) (x y : DT) : Py Bool := (C.dtCmp x y true).map (· == 0)
/-- `datetime.__le__` (lines 2334-2340). -/
def Cal.dtLe (C : Cal) (x y : DT) : Py Bool := (C.dtCmp x y false).map (fun c => decide (c ≤ 0))
/-- `datetime.__lt__` (lines 2342-2348). -/
def Cal.dtLt (C : Cal) (x y : DT) : Py Bool := (C.dtCmp x y false).map (fun c => decide (c < 0))
/-- `datetime.__ge__` (lines 2350-2356). -/
def Cal.dtGe (C : Cal) (x y : DT) : Py Bool := (C.dtCmp x y false).map (fun c => decide (0 ≤ c))
/-- `datetime.__gt__` (lines 2358-2364). -/
def Cal.dtGt (C : Cal) (x y : DT) : Py Bool := (C.dtCmp x y false).map (fun c => decide (0 < c))

/-- The bytes of `datetime._getstate` (lines 2550-2583). -/
def dtState (x : DT) (protocol : ℕ) : Py (List ℤ) :=
  let f : ℤ := if x.fold ≠ 0 ∧ 3 < protocol then 128 else 0
  let tail (m d : ℤ) : List ℤ := [m + f, d, x.h, x.mi, x.s, x.us / 256 / 256, x.us / 256 % 256, x.us % 256]
  match x.d with
  | .short y m d => pyBytes ([(y - minYear) / 256, (y - minYear) % 256] ++ tail m d)
  | .long k v y m d => pyBytes ([k + 19, v, y] ++ tail m d)

/-- The fields from the month on in `datetime.__setstate` (lines 2595-2620), and the checks at the end of
`datetime.__new__` (lines 1658-1661), which here see the default time arguments. -/
def Cal.dtSetTail (C : Cal) (tz : Option Tz) (mk : ℤ → DateObj) (m h mi s u1 u2 u3 : ℤ) : Py DT := do
  let d ← C.newDate (mk (if 127 < m then m - 128 else m))
  checkTimeFields 0 0 0 0 0
  .ok ⟨d, h, mi, s, (u1 * 256 + u2) * 256 + u3, tz, if 127 < m then 1 else 0⟩

/-- `datetime.__new__` with pickled state: `_is_pickle_data` (lines 2514-2548) and `__setstate` (lines
2585-2620). Data with a month byte outside 1..19 (without its top bit) are not taken as pickle data; the
constructor then counts too few fields and its assertion fails. -/
def Cal.dtOfBytes (C : Cal) (tz : Option Tz) : List ℤ → Py DT
  | [yhi, ylo, m, d, h, mi, s, u1, u2, u3] =>
    if 1 ≤ m % 128 ∧ m % 128 ≤ 19 then
      C.dtSetTail tz (fun m => .short (yhi * 256 + minYear + ylo) m d) m h mi s u1 u2 u3
    else .error .assertion
  | [k, v, y, m, d, h, mi, s, u1, u2, u3] =>
    if 1 ≤ m % 128 ∧ m % 128 ≤ 19 then
      C.dtSetTail tz (fun m => .long (k - 19) v y m d) m h mi s u1 u2 u3
    else .error .assertion
  | _ => .error .assertion

/-- Pickling a `datetime` with a protocol and restoring it (`__reduce_ex__`, lines 2622-2630). -/
def Cal.dtPickle (C : Cal) (x : DT) (protocol : ℕ) : Py DT := do
  let s ← dtState x protocol
  C.dtOfBytes x.tz s

/-- The arguments of `datetime.replace`. -/
structure DTArgs where
  d : ReplaceArgs := {}
  t : TimeArgs := {}
  deriving DecidableEq, Repr

/-- `datetime.replace` (lines 2017-2075) with `_replace_short` and `_replace_long` (lines 664-744). -/
def Cal.replaceDT (C : Cal) (x : DT) (a : DTArgs) : Py DT :=
  let mk (o : DateObj) : DT := ⟨o, a.t.h.getD x.h, a.t.mi.getD x.mi, a.t.s.getD x.s, a.t.us.getD x.us,
    a.t.tz.getD x.tz, a.t.fold.getD x.fold⟩
  match x.d with
  | .short y m d =>
    if pyTruthy a.d.k || pyTruthy a.d.v then .error .value
    else C.newDT (mk (.short (a.d.y.getD y) (a.d.m.getD m) (a.d.d.getD d)))
  | .long k v y m d =>
    if a.d.y.any (fun y' => y' < 1 || 19 < y') then .error .value
    else C.newDT (mk (.long (a.d.k.getD k) (a.d.v.getD v) (a.d.y.getD y) (a.d.m.getD m) (a.d.d.getD d)))

/-- The object whose offset and state `datetime.__hash__` uses (lines 2495-2498). -/
def Cal.dtNoFold (C : Cal) (x : DT) : Py DT :=
  if x.fold ≠ 0 then C.replaceDT x { t := { fold := some 0 } } else .ok x

/-- `datetime.__hash__` (lines 2487-2509). -/
def Cal.dtHash (C : Cal) (H : PyHash) (x : DT) : Py ℤ := do
  let t ← C.dtNoFold x
  let off ← utcOffset t.tz
  match off with
  | none => (dtState t 3).map H.bytes
  | some z => do
    let days ← C.ymd2ord x.d.ymd.1 x.d.ymd.2.1 x.d.ymd.2.2
    .ok (H.delta (days * usPerDay + x.tod - z))

/-- `timezone.fromutc` (lines 2782-2790). -/
def Cal.fromUtc (C : Cal) (z : Tz) (x : DT) : Py DT :=
  if x.tz = some z then C.dtAdd x z.off else .error .value

/-- `datetime.astimezone` of an aware `datetime` (lines 2109-2147). The zone of a naive one is read from the
configuration of the machine (`_local_timezone`), which is not modelled. -/
def Cal.asTimezone (C : Cal) (x : DT) (z0 z : Tz) : Py DT :=
  if z ≠ z0 then do
    let u ← C.dtSubDelta x z0.off
    let u ← C.replaceDT u { t := { tz := some (some z) } }
    C.fromUtc z u
  else .ok x

/-- `_EPOCH` without its zone, whose offset is zero (lines 2956-2957). -/
def epochDT (z : Tz) : DT := ⟨.short 126 16 2, 7, 59, 32, 492400, some z, 0⟩

/-- `datetime.timestamp` of an aware `datetime` (line 1964), in microseconds (`total_seconds` divides by a
million). `z` is `timezone.utc`. -/
def Cal.awareTimestampUs (C : Cal) (x : DT) (z : Tz) : Py ℤ := C.dtSub x (epochDT z)

/-- `datetime.timestamp` of a naive `datetime` (lines 1944-1962) at the coordinates `LOCAL_COORD`. The tuple
`b_date + b_time` is read as a short form date whatever the form is: the fields of a long form date are taken for
year, month, day, hour and minute. -/
def Cal.naiveTimestamp (C : Cal) (x : DT) (lat lon : ℚ) : Py ℚ :=
  match x.d with
  | .short y m d => do
    let t ← C.timestampFromBadiDate ⟨y, m, d, [x.h, x.mi, x.s, x.us]⟩ lat lon
    .ok (fl (t + fl (x.us / 1000000)))
  | .long k v y m d => do
    let t ← C.timestampFromBadiDate ⟨k, v, y, [m, d, x.h, x.mi, x.s, x.us]⟩ lat lon
    .ok (fl (t + fl (x.us / 1000000)))

/-- `_PARTIAL_HOUR_TO_MINUTE` and `_PARTIAL_MINUTE_TO_SECOND` (base_calendar.py:40-41). -/
def partialSixty (x : ℚ) : ℚ := pyRound (fl (pyMod1 x * 60)) 6
/-- `_PARTIAL_SECOND_TO_MICROSECOND` (base_calendar.py:42). -/
def partialMicro (x : ℚ) : ℤ := pyInt (fl (pyRound (pyMod1 x) 6 * 1000000))

/-- `datetime._create_time` (lines 1665-1709). The microsecond argument is an integer. -/
def createTime (hour minute second : ℚ) (us : ℤ) : Py (ℚ × ℚ × ℚ × ℤ) :=
  if pyMod1 hour ≠ 0 ∧ (minute ≠ 0 ∨ second ≠ 0 ∨ us ≠ 0) then .error .value
  else if pyMod1 minute ≠ 0 ∧ (second ≠ 0 ∨ us ≠ 0) then .error .value
  else if pyMod1 second ≠ 0 ∧ us ≠ 0 then .error .value
  else if pyMod1 hour ≠ 0 then
    let mm := partialSixty hour
    let ss := partialSixty mm
    .ok (⌊hour⌋, ⌊mm⌋, ⌊ss⌋, partialMicro ss)
  else if pyMod1 minute ≠ 0 then
    let ss := partialSixty minute
    .ok (hour, ⌊minute⌋, ⌊ss⌋, partialMicro ss)
  else if pyMod1 second ≠ 0 then .ok (hour, minute, ⌊second⌋, partialMicro second)
  else .ok (hour, minute, second, us)

/-- The checks of `_check_time_fields` on the arguments of `datetime.__new__` (line 1659), which may be
fractions. -/
def checkTimeArgs (h mi s : ℚ) (us : ℤ) : Py Unit := do
  pyAssert (0 ≤ h ∧ h < 25)
  pyAssert (0 ≤ mi ∧ mi < 60)
  pyAssert (0 ≤ s ∧ s < 61)
  pyAssert (0 ≤ us ∧ us < 1000000)

/-- The time fields of a `datetime` constructed from numbers (lines 1654-1659). -/
def newDTTime (hour minute second : ℚ) (us : ℤ) : Py (ℚ × ℚ × ℚ × ℤ) := do
  let t ← createTime hour minute second us
  checkTimeArgs hour minute second us
  .ok t

end Verif
