import Verif.Model.StrpTime

/-!
# Model of the directive `%Z` of `strptime`

Line numbers refer to `/repo/badidatetime/_strptime.py`. The names that `%Z` reads are those of the time zone of the host, in lower case,
and `utc` and `gmt` (`LocaleTime.timezone`, lines 177-195).
-/

namespace Verif

/-- `time.tzname` and `time.daylight` of the host. -/
structure HostZone where
  std : Str
  dst : Str
  daylight : Bool
  deriving DecidableEq, Repr

/-- `LocaleTime.timezone` (lines 186-195): the names of the two sets, each in some order. The order of a `frozenset` is not fixed by
the language, so `names` is any list that has them. -/
def HostZone.Names (H : HostZone) (names : List Str) : Prop :=
  ∃ a b, names = a ++ b ∧ (∀ s, s ∈ a ↔ s = "utc".toList ∨ s = "gmt".toList ∨ s = lowerS H.std) ∧
    ∀ s, s ∈ b ↔ (H.daylight = true ∧ s = lowerS H.dst)

/-- The alternatives of `%Z` (lines 240-260): the names from the longest to the shortest. -/
def zoneNamePats (names : List Str) : List Pat :=
  (names.mergeSort (fun a b => decide (b.length ≤ a.length))).map (·.map sameLetter)

/-- The alternatives of a directive, with `Z`. -/
def altsNamed (names : List Str) (c : Char) : Option (List Pat) :=
  if c = 'Z' then some (zoneNamePats names) else altsOf c

/-- `TimeRE.pattern` (lines 262-287) as in `compileFmt`, with `Z`. -/
def compileNamed : Bool → Str → Option (Py (List Piece))
  | _, [] => some (.ok [])
  | _, ['%'] => some (.error .value)
  | _, '%' :: c :: r =>
    if c = '%' then (compileNamed false r).map (·.map (.lit '%' :: ·))
    else if inSet "cxX" c then none
    else if c ≠ 'Z' ∧ (altsOf c).isNone then some (.error .value)
    else (compileNamed false r).map (·.map (.dir c :: ·))
  | inSpace, c :: r =>
    if isSpaceC c then
      if inSpace then compileNamed true r else (compileNamed true r).map (·.map (.space :: ·))
    else (compileNamed false r).map (·.map (.lit c :: ·))

/-- The matches at the start of the text, as in `matchAll`, with `Z`. -/
def matchNamed (names : List Str) : List Piece → Str → List (List (Char × Str) × Str)
  | [], s => [([], s)]
  | .lit _ :: _, [] => []
  | .lit c :: ps, x :: s => if sameLetter c x then matchNamed names ps s else []
  | .space :: ps, s => (dropsDown (s.takeWhile isSpaceC).length s).flatMap (matchNamed names ps)
  | .dir c :: ps, s => ((altsNamed names c).getD []).flatMap (fun p =>
      match afterPat p s with
      | none => []
      | some r => (matchNamed names ps r).map (fun g => ((c, s.take p.length) :: g.1, g.2)))

/-- `StrpTime._find_regex` (lines 388-438), with `Z`. -/
def findNamed (names : List Str) (s : Str) (ps : List Piece) : Py (List (Char × Str)) :=
  match (matchNamed names ps s).head? with
  | none => .error .value
  | some (g, r) => if r = [] then .ok g else .error .value

/-- The zone of `_strptime_datetime` (lines 668-677): without an offset none is made; a name that is not empty becomes that of the
zone. -/
def Found.namedZone (fresh : ℕ) (f : Found) (name : Option Str) : Py (Option Zone) :=
  match f.gmtoff with
  | none => .ok none
  | some off => (newZone fresh off (if name = some [] then none else name)).map some

/-- `StrpTime.start` (lines 371-382) and `_strptime_datetime` (lines 658-679) after the matching: the datetime and its zone. The
name sets `tz` too (lines 552-567), which `_strptime_datetime` does not use. -/
def Cal.namedFound (C : Cal) (gs : List (Char × Str)) (fresh : ℕ) : Py (DT × Option Zone) := do
  let f ← parseFound gs
  checkIsoWeek f
  let r ← C.fromWeeks f
  let q ← C.fromJulian r.1 r.2.1 r.2.2.1 r.2.2.2
  C.missingWeekday f q.1 q.2.1 q.2.2
  let z ← f.namedZone fresh (gs.lookup 'Z')
  let x ← C.newDT ⟨.short q.1 q.2.1 q.2.2, f.hour, f.minute, f.second, f.fraction, z.map Zone.tz, 0⟩
  .ok (x, z)

/-- `datetime.strptime(s, fmt)` with `%Z`; `none` for a format with `%c`, `%x` or `%X`. -/
def Cal.strptimeNamed (C : Cal) (names : List Str) (s fmt : Str) (fresh : ℕ := 2) : Option (Py (DT × Option Zone)) :=
  match compileNamed false fmt with
  | none => none
  | some (.error e) => some (.error e)
  | some (.ok ps) => some (do
      let gs ← findNamed names s ps
      C.namedFound gs fresh)

end Verif
