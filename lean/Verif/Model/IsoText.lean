import Verif.Model.TimeZone

/-!
# Model of the ISO text conversions

Line numbers refer to `/repo/badidatetime/_timedateutils.py` unless another file is named. Numbers inside the
strings are ASCII digits (see `Verif/Py/Text.lean`).
-/

namespace Verif

/-- `_format_time` (datetime.py:122-155) with the default `timespec='auto'`. -/
def formatTime (h mi s us : ℤ) : Str :=
  padInt 2 h ++ ':' :: padInt 2 mi ++ ':' :: padInt 2 s ++ (if us ≠ 0 then '.' :: padInt 6 us else [])

/-- `_format_offset` (datetime.py:158-190); the offset is in microseconds. -/
def formatOffset : Option ℤ → Str
  | none => []
  | some off =>
    let sign := if off < 0 then '-' else '+'
    let n := off.natAbs
    let hh := n / 3600000000
    let mm := n % 3600000000 / 60000000
    let ss := n % 3600000000 % 60000000
    sign :: padNat 2 hh ++ ':' :: padNat 2 mm ++
      (if ss ≠ 0 then
        ':' :: padNat 2 (ss / 1000000) ++ (if ss % 1000000 ≠ 0 then '.' :: padNat 6 (ss % 1000000) else [])
      else [])

/-- The date part of the texts: `f"{year:04d}-{month:02d}-{day:02d}"`. -/
def formatDate (y m d : ℤ) : Str := padInt 4 y ++ '-' :: padInt 2 m ++ '-' :: padInt 2 d

/-- `date.isoformat` (datetime.py:493-508). -/
def Cal.dateIso (C : Cal) (o : DateObj) : Py Str := do
  let (y, m, d) ← C.dateShort o
  .ok (formatDate y m d)

/-- `time.isoformat` (datetime.py:1336-1359). -/
def timeIso (t : TimeObj) : Py Str := do
  let off ← utcOffset t.tz
  .ok (formatTime t.h t.mi t.s t.us ++ formatOffset off)

/-- `datetime.isoformat` (datetime.py:2169-2202) with the separator `sep`: the fields `_year`, `_month` and
`_day`, which for a long form are those inside the vahid. -/
def dtIso (x : DT) (sep : Char) : Py Str := do
  let off ← utcOffset x.tz
  let (y, m, d) := x.d.ymd
  .ok (formatDate y m d ++ sep :: formatTime x.h x.mi x.s x.us ++ formatOffset off)

/-- The months in the order of the year with their lengths (`_BADI_MONTH_NUM_DAYS`, lines 72-76, with the
entry for Ayyam-i-Ha replaced, lines 1264-1265). -/
def badiMonthDays (leap : Bool) : List (ℤ × ℤ) :=
  [(1, 19), (2, 19), (3, 19), (4, 19), (5, 19), (6, 19), (7, 19), (8, 19), (9, 19), (10, 19), (11, 19), (12, 19),
    (13, 19), (14, 19), (15, 19), (16, 19), (17, 19), (18, 19), (0, 4 + if leap then 1 else 0), (19, 19)]

/-- The loop over the months (lines 1268-1270); `month` is the loop variable so far. -/
def doyLoop : List (ℤ × ℤ) → ℤ → ℤ → ℤ × ℤ
  | [], month, days => (month, days)
  | (m, ds) :: rest, _, days => if days ≤ ds then (m, days) else doyLoop rest m (days - ds)

/-- `_parse_isoformat_date`, the year and day of year branch (lines 1263-1272). -/
def Cal.parseDoy (C : Cal) (year : ℤ) (s : Str) : Py (ℤ × ℤ × ℤ) := do
  let leap ← C.isLeapYear year
  let days ← intOf s
  let (m, d) := doyLoop (badiMonthDays leap) 0 days
  .ok (year, m, d)

/-- The weekday (line 1261): 1 if it is missing. -/
def weekDayOf (d : Str) : Py ℤ := if d ≠ [] ∧ d.all isDig then intOf d else .ok 1

/-- `_parse_isoformat_date`, the week branch (lines 1250-1262); `s` is the text after the minus sign. -/
def Cal.parseWeek (C : Cal) (year : ℤ) (s : Str) (dc : ℕ) : Py (ℤ × ℤ × ℤ) := do
  let pos := if dc = 0 then 5 else 6
  let week ← intOf (slice s pos (pos + 2))
  let d := s.drop (pos + if dc = 0 then 2 else 3)
  pyAssert (7 < s.length)
  pyAssert ((dc = 1 ∧ s.length = 8) ∨ dc = 0 ∨ dc = 2)
  let day ← weekDayOf d
  let b ← C.isoweekToBadi year week day true
  match b with
  | .short r => .ok (r.y, r.m, ⌊r.d⌋)
  | .long r => .ok (r.k, r.v, r.y)

/-- `_parse_isoformat_date` after the year (lines 1234-1276); `none` is the empty tuple. -/
def Cal.parseDateTail (C : Cal) (year : ℤ) (s : Str) : Py (Option (ℤ × ℤ × ℤ)) := do
  let dc := s.count '-'
  let wc := s.count 'W'
  pyAssert (wc ≤ 1 ∧ dc ≤ 2)
  let n := s.length
  if dc = 1 ∧ n = 7 ∧ wc = 0 then do
    let m ← intOf (slice s 5 7)
    .ok (some (year, m, 1))
  else if dc = 0 ∧ n = 8 ∧ wc = 0 then do
    let m ← intOf (slice s 4 6)
    let d ← intOf (slice s 7 9)
    .ok (some (year, m, d))
  else if dc = 2 ∧ wc = 0 then do
    let m ← intOf (slice s 5 7)
    let d ← intOf (slice s 8 10)
    .ok (some (year, m, d))
  else if wc ≠ 0 ∧ 7 ≤ n ∧ n ≤ 10 then (C.parseWeek year s dc).map some
  else if n = 7 ∨ n = 8 then (C.parseDoy year (if dc = 0 then slice s 4 7 else slice s 5 8)).map some
  else .ok none

/-- `_parse_isoformat_date` (lines 1208-1276). For the empty string the year is not read (and not used). -/
def Cal.parseDate (C : Cal) (s : Str) : Py (Option (ℤ × ℤ × ℤ)) :=
  if s.any (fun c => !isDig c && c ≠ '-' && c ≠ 'W') then .error .value
  else
    match s with
    | [] => C.parseDateTail 0 []
    | c :: r => do
      let neg := c = '-'
      let year ← intOf ((c :: r).take (if neg then 5 else 4))
      pyAssert (minYear ≤ year ∧ year ≤ maxYear)
      C.parseDateTail year (if neg then r else c :: r)

/-- `date.fromisoformat` after the parser (datetime.py:362-378). Every exception of the parser becomes a
ValueError. -/
def Cal.dateOfParsed (C : Cal) (short : Bool) : Py (Option (ℤ × ℤ × ℤ)) → Py DateObj
  | .error _ => .error .value
  | .ok none => .error .value
  | .ok (some (y, m, d)) =>
    if short then C.newDate (.short y m d)
    else do
      let b ← C.longFromShort ⟨y, m, d, []⟩ true
      C.newDateOf (.long b)

/-- `date.fromisoformat` (datetime.py:344-378). -/
def Cal.dateFromIso (C : Cal) (s : Str) (short : Bool) : Py DateObj :=
  if s.any (fun c => c = 'T' || c = ' ') then .error .value else C.dateOfParsed short (C.parseDate s)

/-- `_parse_isoformat_time` once the designator has been checked (lines 1322-1360); `s` starts with `T`. The
result is hour, minute and second; `none` is the empty tuple. `math.floor` of a whole second does not change
the number. -/
def parseTimeTail (s : Str) : Py (Option (ℤ × ℤ × ℚ)) := do
  let cc := s.count ':'
  pyAssert (cc < 3)
  pyAssert (s.count '.' ≤ 1)
  let n := s.length
  if 2 < n then do
    let hour ← intOf (slice s 1 3)
    let p0 := if cc ≠ 0 then 1 else 0
    let p1 := if cc = 2 then 2 else 0
    if 3 < n then
      if slice s 3 4 = ['.'] then do
        let f ← floatOf (s.drop 3)
        let ph := fl (f * 60)
        .ok (some (hour, ⌊ph⌋, fl (pyMod1 ph * 60)))
      else if slice s (5 + p0) (6 + p0) = ['.'] then do
        let minute ← intOf (slice s (3 + p0) (5 + p0))
        let pm ← floatOf (s.drop (5 + p0))
        .ok (some (hour, minute, fl (pm * 60)))
      else if slice s (7 + p0) (8 + p0) = ['.'] then do
        let minute ← intOf (slice s (3 + p0) (5 + p0))
        let second ← floatOf (s.drop (5 + p0))
        .ok (some (hour, minute, second))
      else if n = 5 + p0 then do
        let minute ← intOf (slice s (3 + p0) (5 + p0))
        .ok (some (hour, minute, 0))
      else if 7 + p1 ≤ n then do
        let minute ← intOf (slice s (3 + p0) (5 + p0))
        let second ← floatOf (s.drop (5 + p1))
        .ok (some (hour, minute, second))
      else .error .value
    else .ok (some (hour, 0, 0))
  else .ok none

/-- `_parse_isoformat_time` (lines 1278-1360). -/
def parseTime (s : Str) : Py (Option (ℤ × ℤ × ℚ)) :=
  if s.any (fun c => !isDig c && c ≠ 'T' && c ≠ ' ' && c ≠ ':' && c ≠ '.') then .error .value
  else do
    let tc := s.count 'T'
    let sc := s.count ' '
    pyAssert ((tc = 0 ∧ sc = 0) ∨ ((tc = 1 ∨ sc = 1) ∧ (tc ≠ 0 ∨ sc ≠ 0) ∧ ¬ (tc ≠ 0 ∧ sc ≠ 0)))
    let t := if sc ≠ 0 then 'T' :: s.drop 1 else s
    if t ≠ [] ∧ t.take 1 ≠ ['T'] then .error .value else parseTimeTail t

/-- The number list of an offset (lines 1408-1414): hours and minutes; a missing minute is 0. The list has at
most two elements, since there is at most one colon. -/
def offsetParts : List Str → Py (ℤ × ℤ)
  | [h] => do
    let a ← intOf h
    .ok (a, 0)
  | [h, m] => do
    let a ← intOf h
    let b ← intOf m
    .ok (a, b)
  | _ => .error .index

/-- `_parse_isoformat_timezone` (lines 1362-1418). Only the hours are negated for a minus sign. -/
def parseZone (fresh : ℕ) (s : Str) : Py (Option Zone) :=
  if s.any (fun c => !isDig c && c ≠ 'Z' && c ≠ 'B' && c ≠ '+' && c ≠ '-' && c ≠ ':') then .error .value
  else do
    let nc := s.count '-'
    let zc := s.count 'Z'
    let bc := s.count 'B'
    pyAssert (nc + s.count '+' + zc + bc ≤ 1)
    if s ≠ [] ∧ s.take 1 ∉ [['-'], ['+'], ['Z'], ['B']] then .error .value
    else do
      pyAssert (s.count ':' < 2)
      if s = [] then .ok none
      else if zc = 1 ∧ s.length = 1 then .ok (some utcZone)
      else if bc = 1 ∧ s.length = 1 then .ok (some badiZone)
      else do
        let (h, m) ← offsetParts (splitAt ':' (s.drop 1))
        (newZone fresh (((if nc ≠ 0 then -h else h) * 60 + m) * 60000000) none).map some

/-- `find_index` (lines 1183-1185): the last position of the first listed character that occurs. -/
def findIndex (s : Str) (cs : List Char) : ℕ := (cs.findSome? (rfind · s)).getD s.length

/-- `_parse_isoformat_date_time_timezone`, the time and zone (lines 1193-1204). -/
def parseOther (fresh : ℕ) (s : Str) : Py (Option (ℤ × ℤ × ℚ) × Option Zone) :=
  match s with
  | [] => .error .index
  | c :: _ =>
    if c ∈ ['Z', 'B', '+', '-'] then do
      let z ← parseZone fresh s
      .ok (none, z)
    else do
      let i := findIndex s ['Z', 'B', '+', '-']
      let t ← if s.take i = [] then .ok none else parseTime (s.take i)
      let z ← if s.drop i = [] then .ok none else parseZone fresh (s.drop i)
      .ok (t, z)

/-- `_parse_isoformat_date_time_timezone` (lines 1174-1206). -/
def Cal.parseAll (C : Cal) (fresh : ℕ) (s : Str) :
    Py (Option (ℤ × ℤ × ℤ) × Option (ℤ × ℤ × ℚ) × Option Zone) := do
  let i := findIndex s ['T', ' ', 'Z', 'B', '+', '-']
  let d ← if s.take i = [] then .ok none else C.parseDate (s.take i)
  let (t, z) ← parseOther fresh (s.drop i)
  .ok (d, t, z)

/-- `datetime.__new__` (datetime.py:1595-1663) with a short date and a second that may be a fraction. The
fields stored by `_create_time` are integers here because hour and minute are. -/
def Cal.newDTFrac (C : Cal) (y m d h mi : ℤ) (s : ℚ) (tz : Option Tz) : Py DT := do
  let (h', mi', s', us') ← createTime h mi s 0
  let _ ← C.newDate (.short y m d)
  checkTimeArgs h mi s 0
  .ok ⟨.short y m d, ⌊h'⌋, ⌊mi'⌋, ⌊s'⌋, us', tz, 0⟩

/-- `datetime.fromisoformat` (datetime.py:1915-1932). Without a date the constructor is called without its
required argument. -/
def Cal.dtFromIso (C : Cal) (fresh : ℕ) (str : Str) : Py DT := do
  let (d, t, z) ← C.parseAll fresh str
  match d with
  | none => .error .type
  | some (y, m, dd) =>
    let (h, mi, s) := t.getD (0, 0, 0)
    C.newDTFrac y m dd h mi s (z.map Zone.tz)

/-- `time.fromisoformat` (datetime.py:1364-1381): hour, minute and second of the constructed object, the second
possibly a fraction; the microsecond is 0 and there is no zone. -/
def timeFromIso (str : Str) : Py (ℤ × ℤ × ℚ) :=
  match parseTime str with
  | .error _ => .error .value
  | .ok t =>
    let (h, mi, s) := t.getD (0, 0, 0)
    match checkTimeArgs h mi s 0 with
    | .error _ => .error .value
    | .ok _ => .ok (h, mi, s)

end Verif
