import Verif.Model.Format
import Verif.Model.TimeZone

/-!
# Model of `strptime`

Line numbers refer to `/repo/badidatetime/_strptime.py`. A format is turned into a regular expression and matched at
the start of the text. All regular expressions of the directives are lists of alternatives of fixed length, so the
matching is modelled as the list of all ways to match, in the order in which the backtracking matcher tries them; the
first one is the match. The directives of the formats of the locale and of the names of time zones (`cxXZ`) are not
modelled. The markers of the 12 hour clock are `AM` and `PM`. `\d` and `\s` are modelled for ASCII.
-/

namespace Verif

/-- A sequence of character classes. -/
abbrev Pat := List (Char → Bool)

/-- `str.lower` of the letters in ASCII, Latin 1 and, of the extended Latin letters, those in the names. -/
def lowerC (c : Char) : Char :=
  let n := c.toNat
  if (65 ≤ n ∧ n ≤ 90) ∨ (192 ≤ n ∧ n ≤ 222 ∧ n ≠ 215) then Char.ofNat (n + 32)
  else if ((256 ≤ n ∧ n ≤ 310) ∨ (7680 ≤ n ∧ n ≤ 7828)) ∧ n % 2 = 0 then Char.ofNat (n + 1)
  else c

def lowerS (s : Str) : Str := s.map lowerC

/-- One character of a pattern under `IGNORECASE`. -/
def sameLetter (c : Char) : Char → Bool := fun x => lowerC x == lowerC c

/-- The class `[a-b]`. -/
def range (a b : Char) : Char → Bool := fun x => a.toNat ≤ x.toNat && x.toNat ≤ b.toNat

/-- The white space of `\s`. -/
def isSpaceC (c : Char) : Bool := c == ' ' || (9 ≤ c.toNat && c.toNat ≤ 13) || (28 ≤ c.toNat && c.toNat ≤ 31)

/-- `[0-9]{1,n}`, the longest first. -/
def digitsUpTo : ℕ → List Pat
  | 0 => []
  | n + 1 => List.replicate (n + 1) isDig :: digitsUpTo n

/-- The alternatives of `__seqToRE` (lines 241-260): the names from the longest to the shortest, in their order where
they are of the same length. No name has more than twelve letters. -/
def namePats (names : List String) : List Pat :=
  (List.range 13).reverse.flatMap (fun n =>
    ((names.map (fun s => lowerS s.toList)).filter (·.length == n)).map (·.map sameLetter))

/-- `(\.\d{1,6})?`, the longest first. -/
def zoneFraction : List Pat := (digitsUpTo 6).map ((· == '.') :: ·) ++ [[]]

/-- `(:?[0-5]\d(\.\d{1,6})?)?`. -/
def zoneSeconds : List Pat :=
  zoneFraction.map ([(· == ':'), range '0' '5', isDig] ++ ·) ++ zoneFraction.map ([range '0' '5', isDig] ++ ·) ++ [[]]

/-- `[+-]\d\d:?[0-5]\d(:?[0-5]\d(\.\d{1,6})?)?|(?-i:Z)` (line 234). -/
def zonePats : List Pat :=
  let sign : Char → Bool := fun c => c == '+' || c == '-'
  zoneSeconds.map ([sign, isDig, isDig, (· == ':'), range '0' '5', isDig] ++ ·) ++
    zoneSeconds.map ([sign, isDig, isDig, range '0' '5', isDig] ++ ·) ++ [[(· == 'Z')]]

/-- The regular expressions of the directives (lines 208-236), as lists of alternatives. -/
def altsOf : Char → Option (List Pat)
  | 'd' => some [[(· == '1'), range '0' '9'], [(· == '0'), range '1' '9'], [range '1' '9'], [(· == ' '), range '1' '9']]
  | 'f' => some (digitsUpTo 6)
  | 'H' => some [[(· == '2'), range '0' '3'], [range '0' '1', isDig], [isDig]]
  | 'I' => some [[(· == '1'), range '0' '2'], [(· == '0'), range '1' '9'], [range '1' '9']]
  | 'G' => some [(· == '-') :: List.replicate 4 isDig, List.replicate 4 isDig]
  | 'j' => some [[(· == '3'), (· == '6'), range '0' '6'], [(· == '3'), range '0' '5', isDig], [range '1' '2', isDig, isDig],
      [(· == '0'), range '1' '9', isDig], [(· == '0'), (· == '0'), range '1' '9'], [range '1' '9', isDig],
      [(· == '0'), range '1' '9'], [range '1' '9']]
  | 'm' => some [[(· == '1'), range '0' '9'], [(· == '0'), range '0' '9'], [range '0' '9']]
  | 'M' => some [[range '0' '5', isDig], [isDig]]
  | 'S' => some [[(· == '6'), range '0' '1'], [range '0' '5', isDig], [isDig]]
  | 'U' => some [[(· == '5'), range '0' '2'], [range '0' '4', isDig], [isDig]]
  | 'W' => some [[(· == '5'), range '0' '2'], [range '0' '4', isDig], [isDig]]
  | 'w' => some [[range '0' '6']]
  | 'u' => some [[range '1' '7']]
  | 'V' => some [[(· == '5'), range '0' '3'], [(· == '0'), range '1' '9'], [range '1' '4', isDig], [isDig]]
  | 'y' => some [[isDig, isDig]]
  | 'Y' => some ((digitsUpTo 4).map ((· == '-') :: ·) ++ digitsUpTo 4)
  | 'z' => some zonePats
  | 'A' => some (namePats dayNames)
  | 'a' => some (namePats dayAbbrs)
  | 'B' => some (namePats monthNames)
  | 'b' => some (namePats monthAbbrs)
  | 'p' => some (namePats ["AM", "PM"])
  | _ => none

/-- A piece of the regular expression. -/
inductive Piece where
  | lit (c : Char)
  | space
  | dir (c : Char)
  deriving DecidableEq, Repr

/-- `TimeRE.pattern` (lines 262-287). A run of white space becomes `\s+`; `%%` is the literal percent sign; an unknown
directive raises KeyError and a percent sign at the end IndexError, both turned into ValueError (lines 410-427). A
directive that is not modelled makes the result `none`. -/
def compileFmt : Bool → Str → Option (Py (List Piece))
  | _, [] => some (.ok [])
  | _, ['%'] => some (.error .value)
  | _, '%' :: c :: r =>
    if c = '%' then (compileFmt false r).map (·.map (.lit '%' :: ·))
    else if inSet "cxXZ" c then none
    else if (altsOf c).isNone then some (.error .value)
    else (compileFmt false r).map (·.map (.dir c :: ·))
  | inSpace, c :: r =>
    if isSpaceC c then
      if inSpace then compileFmt true r else (compileFmt true r).map (·.map (.space :: ·))
    else (compileFmt false r).map (·.map (.lit c :: ·))

/-- The pattern matches at the start of the text: what remains after it. -/
def afterPat : Pat → Str → Option Str
  | [], s => some s
  | _ :: _, [] => none
  | p :: ps, c :: s => if p c then afterPat ps s else none

/-- Drops `n`, `n - 1`, ..., 1 characters. -/
def dropsDown : ℕ → Str → List Str
  | 0, _ => []
  | n + 1, s => s.drop (n + 1) :: dropsDown n s

/-- The matches at the start of the text, in the order of the matcher: the groups and what remains. -/
def matchAll : List Piece → Str → List (List (Char × Str) × Str)
  | [], s => [([], s)]
  | .lit _ :: _, [] => []
  | .lit c :: ps, x :: s => if sameLetter c x then matchAll ps s else []
  | .space :: ps, s => (dropsDown (s.takeWhile isSpaceC).length s).flatMap (matchAll ps)
  | .dir c :: ps, s => ((altsOf c).getD []).flatMap (fun p =>
      match afterPat p s with
      | none => []
      | some r => (matchAll ps r).map (fun g => ((c, s.take p.length) :: g.1, g.2)))

/-- `StrpTime._find_regex` (lines 388-438). The same directive twice is an error of the `re` module, which is not
modelled; such formats are left out. The dictionary `_regex_cache` is never read with success: it is filled under the
key `format`, which is the built-in function. -/
def findRegex (s : Str) (ps : List Piece) : Py (List (Char × Str)) :=
  match (matchAll ps s).head? with
  | none => .error .value
  | some (g, r) => if r = [] then .ok g else .error .value

/-- The values of `_parse_found_dict` (lines 441-444). `ampm` is the text of `%p` in lower case, or empty (line 479).
`gmtoff` is the offset with its fraction in microseconds; the name of the zone is not modelled. -/
structure Found where
  isoYear : Option ℤ := none
  year : Option ℤ := none
  month : ℤ := 1
  day : ℤ := 1
  hour : ℤ := 0
  minute : ℤ := 0
  second : ℤ := 0
  fraction : ℤ := 0
  isoWeek : Option ℤ := none
  weekOfYear : Option ℤ := none
  weekday : Option ℤ := none
  julian : Option ℤ := none
  gmtoff : Option ℤ := none
  ampm : Str := []
  deriving DecidableEq, Repr

/-- `names.index(s.lower())` on the names in lower case. -/
def nameIndex (names : List String) (s : Str) : Py ℤ :=
  match (names.map (fun s => lowerS s.toList)).findIdx? (· == lowerS s) with
  | some i => .ok i
  | none => .error .value

/-- The hour of the 12 hour clock (lines 477-493). -/
def hourOf12 (ampm : Str) (h : ℤ) : ℤ :=
  if ampm = [] ∨ ampm = "am".toList then (if h = 12 then 0 else h)
  else if ampm = "pm".toList then (if h ≠ 12 then h + 12 else h)
  else h

/-- The colons are taken out of the text of `%z` (lines 525-534). -/
def zoneDigits (z : Str) : Py Str :=
  if z[3]? = some ':' then
    let z := z.take 3 ++ z.drop 4
    if z.length > 5 then
      if z[5]? ≠ some ':' then .error .value else .ok (z.take 5 ++ z.drop 6)
    else .ok z
  else .ok z

/-- The offset of `%z` (lines 519-551), in microseconds. -/
def parseOffset (z : Str) : Py ℤ :=
  if z = ['Z'] then .ok 0
  else do
    let z ← zoneDigits z
    let h ← intOf ((z.drop 1).take 2)
    let m ← intOf ((z.drop 3).take 2)
    let s ← (if (z.drop 5).take 2 = [] then .ok 0 else intOf ((z.drop 5).take 2))
    let rest := z.drop 8
    let f ← intOf (rest ++ List.replicate (6 - rest.length) '0')
    let off := (h * 60 * 60 + m * 60 + s) * 1000000 + f
    .ok (if z.head? = some '-' then -off else off)

/-- One group of `_parse_found_dict` (lines 450-551). -/
def setGroup (f : Found) (g : Char × Str) : Py Found :=
  match g.1 with
  | 'y' => (intOf g.2).map (fun n => { f with year := some n })
  | 'Y' => (intOf g.2).map (fun n => { f with year := some n })
  | 'G' => (intOf g.2).map (fun n => { f with isoYear := some n })
  | 'm' => (intOf g.2).map (fun n => { f with month := n })
  | 'B' => (nameIndex monthNames g.2).map (fun n => { f with month := n })
  | 'b' => (nameIndex monthAbbrs g.2).map (fun n => { f with month := n })
  | 'd' => (intOf g.2).map (fun n => { f with day := n })
  | 'H' => (intOf g.2).map (fun n => { f with hour := n })
  | 'I' => (intOf g.2).map (fun n => { f with hour := hourOf12 f.ampm n })
  | 'M' => (intOf g.2).map (fun n => { f with minute := n })
  | 'S' => (intOf g.2).map (fun n => { f with second := n })
  | 'f' => (intOf (g.2 ++ List.replicate (6 - g.2.length) '0')).map (fun n => { f with fraction := n })
  | 'A' => (nameIndex dayNames g.2).map (fun n => { f with weekday := some n })
  | 'a' => (nameIndex dayAbbrs g.2).map (fun n => { f with weekday := some n })
  | 'w' => (intOf g.2).map (fun n => { f with weekday := some n })
  | 'u' => (intOf g.2).map (fun n => { f with weekday := some n })
  | 'j' => (intOf g.2).map (fun n => { f with julian := some n })
  | 'U' => (intOf g.2).map (fun n => { f with weekOfYear := some n })
  | 'W' => (intOf g.2).map (fun n => { f with weekOfYear := some n })
  | 'V' => (intOf g.2).map (fun n => { f with isoWeek := some n })
  | 'z' => (parseOffset g.2).map (fun n => { f with gmtoff := some n })
  | _ => .ok f

/-- `found_dict.get('p', '').lower()` (line 479). -/
def ampmOf (gs : List (Char × Str)) : Str := lowerS ((gs.lookup 'p').getD [])

/-- `_parse_found_dict` (lines 440-572). -/
def parseFound (gs : List (Char × Str)) : Py Found := gs.foldlM setGroup { ampm := ampmOf gs }

/-- `_check_iso_week` (lines 574-594). -/
def checkIsoWeek (f : Found) : Py Unit :=
  match f.isoYear with
  | some _ => if f.julian.isSome ∨ f.isoWeek = none ∨ f.weekday = none then .error .value else .ok ()
  | none => if f.isoWeek.isSome then .error .value else .ok ()

/-- `_calc_julian_from_U_or_W` (lines 309-333). -/
def Cal.julianFromWeek (C : Cal) (year week day : ℤ) : Py ℤ := do
  let o ← C.newDate (.short year 1 1)
  let first ← C.weekday o
  if week = 0 then
    if day < first then .ok (7 - first + day + 1) else .ok (1 + day - first)
  else .ok (1 + ((7 - first) % 7 + 7 * (week - 1)) + day)

/-- The year that is assumed (lines 597-602). -/
def Found.guessYear (f : Found) : ℤ :=
  match f.year with
  | some y => y
  | none => if f.month = 0 ∧ f.day = 5 then 1 else 2

/-- The week of the year with a weekday (lines 606-625): the year, month, day and day of the year. -/
def Cal.fromWeeks (C : Cal) (f : Found) : Py (ℤ × ℤ × ℤ × Option ℤ) :=
  match f.julian, f.weekday, f.weekOfYear, f.isoYear, f.isoWeek with
  | none, some wd, some w, _, _ => do
    let j ← C.julianFromWeek f.guessYear w wd
    if j ≤ 0 then do
      let leap ← C.isLeapYear (f.guessYear - 1)
      .ok (f.guessYear - 1, f.month, f.day, some (j + (365 + if leap then 1 else 0)))
    else .ok (f.guessYear, f.month, f.day, some j)
  | none, some wd, none, some iy, some iw => do
    let o ← C.fromIsoCalendar iy iw (wd + 1) true
    .ok (o.ymd.1, o.ymd.2.1, o.ymd.2.2, none)
  | j, _, _, _, _ => .ok (f.guessYear, f.month, f.day, j)

/-- The day of the year (lines 627-643): the year, month and day. -/
def Cal.fromJulian (C : Cal) (y m d : ℤ) (julian : Option ℤ) : Py (ℤ × ℤ × ℤ) :=
  match julian with
  | none => do
    let o ← C.newDate (.short y m d)
    let _ ← C.toOrdinal o
    let p ← C.newDate (.short y 1 1)
    let _ ← C.toOrdinal p
    .ok (y, m, d)
  | some j => do
    let p ← C.newDate (.short y 1 1)
    let n ← C.toOrdinal p
    let o ← C.fromOrdinal ((j - 1) + n) true
    .ok o.ymd

/-- The weekday when none was given (lines 645-647). -/
def Cal.missingWeekday (C : Cal) (f : Found) (y m d : ℤ) : Py Unit :=
  if f.weekday = none then do
    let o ← C.newDate (.short y m d)
    let _ ← C.weekday o
    .ok ()
  else .ok ()

/-- The zone of `_strptime_datetime` (lines 668-677): a new object. -/
def Found.zone (fresh : ℕ) (f : Found) : Py (Option Tz) :=
  match f.gmtoff with
  | none => .ok none
  | some off => (newZone fresh off none).map (some ·.tz)

/-- `StrpTime.start` (lines 371-382) and `_strptime_datetime` (lines 658-679) after the matching. -/
def Cal.strptimeFound (C : Cal) (gs : List (Char × Str)) (fresh : ℕ := 2) : Py DT := do
  let f ← parseFound gs
  checkIsoWeek f
  let r ← C.fromWeeks f
  let q ← C.fromJulian r.1 r.2.1 r.2.2.1 r.2.2.2
  C.missingWeekday f q.1 q.2.1 q.2.2
  let z ← f.zone fresh
  C.newDT ⟨.short q.1 q.2.1 q.2.2, f.hour, f.minute, f.second, f.fraction, z, 0⟩

/-- `datetime.strptime(s, fmt)` (datetime.py: `strptime`, through `_strptime_datetime`). `fresh` is the identity of the
zone that a text with an offset makes. -/
def Cal.strptime (C : Cal) (s fmt : Str) (fresh : ℕ := 2) : Option (Py DT) :=
  match compileFmt false fmt with
  | none => none
  | some (.error e) => some (.error e)
  | some (.ok ps) => some (do
      let gs ← findRegex s ps
      C.strptimeFound gs fresh)

end Verif
