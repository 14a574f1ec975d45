import Verif.Model.StructTime
import Verif.Model.Conversion

/-!
# Model of the local zone of `datetime.astimezone`

Line numbers refer to `/repo/badidatetime/datetime.py` unless another file is named (ST is `_structures.py`, TU is
`_timedateutils.py`).
-/

namespace Verif

/-- `LOCAL_COORD[:2]` and `LOCAL` (`__init__.py`:73-91). -/
structure LocalConf where
  lat : ℚ
  lon : ℚ
  zone : Zone

/-- `datetime._mktime` (lines 1944-1952): the date and the time of either form are joined and read as a short form date. -/
def Cal.mktime (C : Cal) (x : DT) (lat lon : ℚ) : Py ℚ :=
  match x.d with
  | .short y m d => C.timestampFromBadiDate ⟨y, m, d, [x.h, x.mi, x.s, x.us]⟩ lat lon
  | .long k v y m d => C.timestampFromBadiDate ⟨k, v, y, [m, d, x.h, x.mi, x.s, x.us]⟩ lat lon

/-- The timestamp in `_local_timezone` (lines 2084-2087); `utc` is the zone of `_EPOCH`. -/
def Cal.localStamp (C : Cal) (x : DT) (lat lon : ℚ) (utc : Tz) : Py ℚ :=
  match x.tz with
  | none => C.mktime x lat lon
  | some _ => do
    let d ← C.dtSub x (epochDT utc)
    .ok ((d / 1000000 : ℤ) : ℚ)

/-- The hour, minute and second with the zeros added in lines 2093-2094 and 2098-2099. -/
def padTime (t : List ℚ) : ℚ × ℚ × ℚ := (t[0]?.getD 0, t[1]?.getD 0, t[2]?.getD 0)

/-- `struct_time.__new__` (ST:92-118, 145-188) of a tuple whose second may be a fraction, reduced to `tm_zone` and
`tm_gmtoff`. The datetime of ST:158 is made to check the fields. -/
def Cal.structZone (C : Cal) (d : DateObj) (t : ℚ × ℚ × ℚ) (loc : Zone) : Py (Option Str × Option ℚ) := do
  let _ ← createTime t.1 t.2.1 t.2.2 0
  let _ ← C.newDate d
  let _ ← checkTimeArgs t.1 t.2.1 t.2.2 0
  .ok (some (tzName loc), offsetSeconds (some ⟨loc, none⟩))

/-- `_build_struct_time` (TU:1089-1111) in `_local_timezone` (lines 2092-2102). -/
def Cal.localStruct (C : Cal) (b : BDate) (loc : Zone) : Py (Option Str × Option ℚ) :=
  match b with
  | .short s => do
    let _ ← C.dayOfWeek s.y s.m ⌊s.d⌋
    let _ ← C.daysBeforeMonth s.y s.m
    C.structZone (.short s.y s.m ⌊s.d⌋) (padTime s.t) loc
  | .long l => do
    let t := padTime l.t
    let s ← C.shortFromLong { l with t := [t.1, t.2.1, t.2.2] } false
    let _ ← C.dayOfWeek s.y s.m ⌊s.d⌋
    let _ ← C.daysBeforeMonth s.y s.m
    C.structZone (.long l.k l.v l.y l.m ⌊l.d⌋) t loc

/-- `timedelta(seconds=s)` of a float, in microseconds: the whole seconds exactly, the rest rounded. -/
def secondsUs (s : ℚ) : ℤ := pyInt s * 1000000 + roundHalfEven (fl (1000000 * (s - pyInt s)))

/-- `datetime._local_timezone` (lines 2077-2107); `fresh` is the identity of the new zone. `timedelta(seconds=None)` is a
`TypeError`. -/
def Cal.localTimezone (C : Cal) (L : LocalConf) (utc : Tz) (fresh : ℕ) (x : DT) : Py Zone := do
  let ts ← C.localStamp x L.lat L.lon utc
  let b ← C.badiDateFromTimestamp ts L.lat L.lon { short := x.d.isShort, trim := true }
  let (name, gmtoff) ← C.localStruct b L.zone
  match gmtoff with
  | none => .error .type
  | some g => newZone fresh (secondsUs g) name

/-- The target zone of `astimezone` (lines 2116-2120). -/
def Cal.targetZone (C : Cal) (L : LocalConf) (utc : Tz) (fresh : ℕ) (x : DT) : Option Tz → Py Tz
  | none => do
    let z ← C.localTimezone L utc fresh x
    .ok z.tz
  | some z => .ok z

/-- `datetime.astimezone` (lines 2109-2147) with or without a zone, of a naive or aware datetime; `f` and `g` are the
identities of the zones that are made. -/
def Cal.asTimezoneAny (C : Cal) (L : LocalConf) (utc : Tz) (f g : ℕ) (x : DT) (tz : Option Tz) : Py DT := do
  let z ← C.targetZone L utc f x tz
  match x.tz with
  | none => do
    let m ← C.localTimezone L utc g x
    C.asTimezone x m.tz z
  | some z0 => C.asTimezone x z0 z

end Verif
