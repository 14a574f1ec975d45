import Verif.Model.StrpTime
import Verif.Model.Directives

/-!
# Model of `LocaleTime` and of the directives of `strptime` for the formats of the locale

Line numbers refer to `/repo/badidatetime/_strptime.py`. The names of the local time zones (lines 177-195) are a parameter:
they are held in two frozen sets, so their order is not determined and every order is allowed.
-/

namespace Verif

/-- The loop of `str.replace`; the number counts the characters that are left of the text that was replaced last. -/
def replaceGo (old new : Str) : ℕ → Str → Str
  | _, [] => []
  | k + 1, _ :: s => replaceGo old new k s
  | 0, c :: s => if old.isPrefixOf (c :: s) then new ++ replaceGo old new (old.length - 1) s else c :: replaceGo old new 0 s

/-- `s.replace(old, new)` for a text `old` that is not empty; an empty one is skipped (lines 164-166). -/
def replaceText (s old new : Str) : Str := if old = [] then s else replaceGo old new 0 s

/-- The attributes of `LocaleTime` that depend on the locale (lines 43-195). -/
structure LocaleTime where
  am : Str
  pm : Str
  dateTime : Str
  date : Str
  time : Str
  deriving DecidableEq, Repr

/-- `__calc_am_pm` (lines 115-131). -/
def Cal.calcAmPm (C : Cal) (L : Locale) : Py (Str × Str) := do
  let a ← C.buildStructTime (.short 199 1 1) 1 44 55 0 none
  let am ← C.strftimeStruct L ['%', 'p'] a
  let b ← C.buildStructTime (.short 199 1 1) 22 44 55 0 none
  let pm ← C.strftimeStruct L ['%', 'p'] b
  .ok (lowerS am, lowerS pm)

/-- `replacement_pairs` (lines 148-157). -/
def replacementPairs (pm : Str) (zones : List Str) : List (Str × Str) :=
  [("%".toList, "%%".toList), (lowerS (nameAt dayNames 2), "%A".toList), (lowerS (nameAt monthNames 3), "%B".toList),
   (lowerS (nameAt dayAbbrs 2), "%a".toList), (lowerS (nameAt monthAbbrs 3), "%b".toList), (pm, "%p".toList),
   ("0199".toList, "%Y".toList), ("99".toList, "%y".toList), ("22".toList, "%H".toList), ("04".toList, "%M".toList),
   ("4".toList, "%-M".toList), ("30".toList, "%S".toList), ("55".toList, "%j".toList), ("17".toList, "%d".toList),
   ("03".toList, "%m".toList), ("3".toList, "%-m".toList), ("2".toList, "%w".toList), ("10".toList, "%I".toList)] ++
  zones.map (fun z => (z, "%Z".toList))

/-- All replacements, in order, and the last one of line 171. -/
def guessFormat (pm : Str) (zones : List Str) (s : Str) : Str :=
  replaceText ((replacementPairs pm zones).foldl (fun s p => replaceText s p.1 p.2) s) "11".toList "%U".toList

/-- One round of the loop of `__calc_date_time` (lines 133-171). -/
def Cal.localeFormat (C : Cal) (L : Locale) (pm : Str) (zones : List Str) (c : Char) : Py Str := do
  let t ← C.buildStructTime (.short 199 3 17) 22 4 30 0 none
  let s ← C.strftimeStruct L ['%', c] t
  let _ ← C.buildStructTime (.short 199 1 1) 1 1 1 0 none
  .ok (guessFormat pm zones (lowerS s))

/-- `LocaleTime.__init__` (lines 64-95). The checks that the locale has not changed meanwhile are left out. -/
def Cal.localeTime (C : Cal) (L : Locale) (zones : List Str) : Py LocaleTime := do
  let p ← C.calcAmPm L
  let c ← C.localeFormat L p.2 zones 'c'
  let x ← C.localeFormat L p.2 zones 'x'
  let t ← C.localeFormat L p.2 zones 'X'
  .ok ⟨p.1, p.2, c, x, t⟩

/-- The pieces of one pattern before those of another. -/
def joinPieces (a b : Option (Py (List Piece))) : Option (Py (List Piece)) :=
  match a with
  | none => none
  | some (.error e) => some (.error e)
  | some (.ok ps) => b.map (·.map (ps ++ ·))

/-- `TimeRE.pattern` (lines 262-287) with the entries `c`, `x` and `X` of `TimeRE` (lines 237-239). -/
def compileLocale (T : LocaleTime) : Bool → Str → Option (Py (List Piece))
  | _, [] => some (.ok [])
  | _, ['%'] => some (.error .value)
  | _, '%' :: c :: r =>
    if c = '%' then (compileLocale T false r).map (·.map (.lit '%' :: ·))
    else if c = 'c' then joinPieces (compileFmt false T.dateTime) (compileLocale T false r)
    else if c = 'x' then joinPieces (compileFmt false T.date) (compileLocale T false r)
    else if c = 'X' then joinPieces (compileFmt false T.time) (compileLocale T false r)
    else if c = 'Z' then none
    else if (altsOf c).isNone then some (.error .value)
    else (compileLocale T false r).map (·.map (.dir c :: ·))
  | inSpace, c :: r =>
    if isSpaceC c then
      if inSpace then compileLocale T true r else (compileLocale T true r).map (·.map (.space :: ·))
    else (compileLocale T false r).map (·.map (.lit c :: ·))

/-- `datetime.strptime(s, fmt)` with the formats of the locale. -/
def Cal.strptimeLocale (C : Cal) (T : LocaleTime) (s fmt : Str) (fresh : ℕ := 2) : Option (Py DT) :=
  match compileLocale T false fmt with
  | none => none
  | some (.error e) => some (.error e)
  | some (.ok ps) => some (do
      let gs ← findRegex s ps
      C.strptimeFound gs fresh)

end Verif
