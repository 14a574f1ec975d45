import Verif.Model.IsoText

/-!
# Model of `strftime`

Line numbers refer to `/repo/badidatetime/_timedateutils.py` unless another file is named. The scanning of the format
is modelled for every format and an arbitrary table of directives; the numeric directives are modelled in `Cal.directive`.
The directives of the locale, the 12 hour clock and the zone are in `Model/Directives`.
-/

namespace Verif

/-- The characters of a string literal of the code. -/
def inSet (s : String) (c : Char) : Bool := s.toList.contains c

/-- `_VALID_FORMAT_CHRS` (line 23). -/
def validFormatChrs : String := "aAbBcCdDefGhHIjkKlmMnprSTuUVWxXyYzZ%"

/-- The tests of `_check_format` on one directive (lines 912-920): `r` is what follows the percent sign. -/
def checkDirective (r : Str) : Py Unit :=
  match r with
  | [] => .error .index
  | ch0 :: r' =>
    if inSet "-:" ch0 then
      match r' with
      | [] => .error .index
      | ch1 :: _ =>
        if inSet validFormatChrs ch1 = false ∨ (ch0 = '-' ∧ inSet "dHjlmMSy" ch1 = false) ∨
            (ch0 = ':' ∧ inSet "KVz" ch1 = false) then .error .value
        else .ok ()
    else if inSet validFormatChrs ch0 = false then .error .value
    else .ok ()

/-- The loop of `_check_format` (lines 907-922). `prev` is `format[idx-1]`, which for the first character is the last
one of the format. -/
def checkLoop : Char → Str → Py Unit
  | _, [] => .ok ()
  | prev, ch :: rest =>
    if ch = '%' ∧ prev ≠ '%' then
      match checkDirective rest with
      | .error e => .error e
      | .ok () => checkLoop ch rest
    else checkLoop ch rest

/-- `format[-1]`, when there is one. -/
def lastChar (f : Str) : Char := f.getLastD ' '

/-- `_check_format` (lines 898-924). -/
def checkFormat (f : Str) : Py Unit :=
  match checkLoop (lastChar f) f with
  | .error e => .error e
  | .ok () => if f = [] then .error .value else .ok ()

/-- The text a directive gives: the table `__METHOD_LOOKUP` (lines 850-857) applied to the character and the modifier.
A missing key raises KeyError. -/
abbrev Directives := Char → Option Char → Py Str

/-- The directive at a percent sign (lines 884-888): `r` is what follows it, not empty. -/
def expand (dir : Directives) (r : Str) : Py Str :=
  match r with
  | [] => .ok []
  | ch0 :: r' =>
    if inSet "-:" ch0 then
      match r' with
      | [] => .error .index
      | ch1 :: _ => dir ch1 (some ch0)
    else dir ch0 none

/-- The loop of `strftime` (lines 880-894). -/
def formatLoop (dir : Directives) : Char → Str → Py Str
  | _, [] => .ok []
  | prev, ch :: rest =>
    if ch = '%' ∧ rest ≠ [] then
      match expand dir rest with
      | .error e => .error e
      | .ok s =>
        match formatLoop dir ch rest with
        | .error e => .error e
        | .ok t => .ok (s ++ t)
    else
      match formatLoop dir ch rest with
      | .error e => .error e
      | .ok t => if inSet "%-:" prev then .ok t else .ok (ch :: t)

/-- `strftime` (lines 861-896) after the tests of the tuple. -/
def strftimeWith (dir : Directives) (f : Str) : Py Str :=
  match checkFormat f with
  | .error e => .error e
  | .ok () => formatLoop dir (lastChar f) f

/-- A `struct_time` (_structures.py:12-85). For the short form `k` and `v` are not used and `year` is the year, for
the long form it is the year of the vahid. -/
structure Tup where
  short : Bool
  k : ℤ
  v : ℤ
  year : ℤ
  mon : ℤ
  mday : ℤ
  hour : ℤ
  min : ℤ
  sec : ℤ
  wday : ℤ
  yday : ℤ
  deriving DecidableEq, Repr

/-- `_get_year` (lines 946-957). -/
def Tup.fullYear (t : Tup) : ℤ := if t.short then t.year else longYear t.k t.v t.year

/-- `_checktm` (lines 185-264) on a `struct_time`. -/
def Cal.checktm (C : Cal) (t : Tup) : Py Unit := do
  pyAssert (t.short = true → minYear ≤ t.year ∧ t.year ≤ maxYear)
  pyAssert (t.short = false → kullishayMin ≤ t.k ∧ t.k ≤ kullishayMax)
  pyAssert (t.short = false → 1 ≤ t.v ∧ t.v < 20)
  pyAssert (t.short = false → 1 ≤ t.year ∧ t.year < 20)
  pyAssert (0 ≤ t.mon ∧ t.mon < 20)
  let cycle ← C.cycleOf t.fullYear t.mon
  pyAssert (1 ≤ t.mday ∧ t.mday < cycle)
  pyAssert (0 ≤ t.hour ∧ t.hour ≤ 24)
  pyAssert (0 ≤ t.min ∧ t.min < 60)
  pyAssert (0 ≤ t.sec ∧ t.sec ≤ 61)
  pyAssert (0 ≤ t.wday ∧ t.wday ≤ 6)
  pyAssert (1 ≤ t.yday ∧ t.yday ≤ 366)

/-- `f"{n}{abs(year):04}"` with the sign in `n` (lines 443-445 and 780-782). -/
def signedYear (y : ℤ) : Str := (if y < 0 then ['-'] else []) ++ padNat 4 y.natAbs

/-- `DAYNAMES` (lines 28-29). -/
def dayNames : List String := ["Jalál", "Jamál", "Kamál", "Fiḍāl", "`Idāl", "Istijlāl", "Istiqlāl"]

/-- `DAYNAMES_ABV` (line 33). -/
def dayAbbrs : List String := ["Jal", "Jam", "Kam", "Fiḍ", "Idā", "Isj", "Isq"]

/-- `MONTHNAMES` (lines 37-42) in the order of the keys 0 to 19. -/
def monthNames : List String := ["Ayyám-i-Há", "Bahá", "Jalál", "Jamál", "'Aẓamat", "Núr", "Raḥmat", "Kalimát", "Kamál",
  "Asmá'", "'Izzat", "Mashíyyat", "'Ilm", "Qudrat", "Qawl", "Masá’il", "Sharaf", "Sulṭán", "Mulk", "'Alá'"]

/-- `MONTHNAMES_ABV` (lines 46-50) in the order of the keys 0 to 19. -/
def monthAbbrs : List String := ["Ayy", "Bah", "Jal", "Jam", "Aẓa", "Núr", "Raḥ", "Kal", "Kam", "Asm", "Izz", "Mas", "Ilm",
  "Qud", "Qaw", "Mas", "Sha", "Sul", "Mul", "Alá"]

/-- `names[i]` for a field that `_checktm` has found to be in range. -/
def nameAt (names : List String) (i : ℤ) : Str := (names.getD i.toNat "").toList

/-- The numeric directives: `C` (345-359), `d` and `e` (361-378), `G` (431-445), `H` and `k` (447-464), `j` (507-519),
`K` (521-548), `m` (550-562), `M` (564-576), `n` (578-589), `S` (635-647), `T` (613-633), `u` and `w` (649-661), `U` and `W`
(663-684), `V` (686-712), `y` (752-767), `Y` (769-782), `%` (837-848), and those of names: `a` and `A` (266-290), `b`, `B` and
`h` (292-316). `z` and `Z` give nothing for a naive object, which is the case modelled here; for the other objects and the
directives that are missing here (`none`) see `Model/Directives`. -/
def Cal.directive (C : Cal) (t : Tup) (ch : Char) (mod : Option Char) : Option (Py Str) :=
  let two (n : ℤ) : Str := if mod = some '-' then padInt 1 n else padInt 2 n
  match ch with
  | 'a' => some (.ok (nameAt dayAbbrs t.wday))
  | 'A' => some (.ok (nameAt dayNames t.wday))
  | 'b' => some (.ok (nameAt monthAbbrs t.mon))
  | 'h' => some (.ok (nameAt monthAbbrs t.mon))
  | 'B' => some (.ok (nameAt monthNames t.mon))
  | 'C' => some (.ok ((if t.fullYear < 0 then ['-'] else []) ++ padNat 2 ⌊fl ((t.fullYear : ℚ) / 100)⌋.natAbs))
  | 'd' => some (.ok (two t.mday))
  | 'e' => some (.ok (if t.mday < 10 then ' ' :: padInt 1 t.mday else padInt 1 t.mday))
  | 'G' => some (.ok (signedYear t.fullYear))
  | 'H' => some (.ok (two t.hour))
  | 'k' => some (.ok (two t.hour))
  | 'j' => some (.ok (if mod = some '-' then padInt 1 t.yday else padInt 3 t.yday))
  | 'K' => some (.ok (if mod = some ':' then
      let k := if t.short then (if t.year = 0 then 0 else ⌈fl ((t.year : ℚ) / 361)⌉) else t.k
      (if k < 0 then ['-'] else []) ++ padInt 1 k
      else []))
  | 'm' => some (.ok (two t.mon))
  | 'M' => some (.ok (two t.min))
  | 'n' => some (.ok ['\n'])
  | 'S' => some (.ok (two t.sec))
  | 'T' => some (.ok (padInt 2 t.hour ++ ':' :: padInt 2 t.min ++ ':' :: padInt 2 t.sec))
  | 'u' => some (.ok (padInt 1 (t.wday + 1)))
  | 'w' => some (.ok (padInt 1 t.wday))
  | 'U' => some (do
      let w ← C.yearWeekDay t.fullYear t.mon t.mday true
      .ok (padInt 2 w.2.1))
  | 'W' => some (do
      let w ← C.yearWeekDay t.fullYear t.mon t.mday true
      .ok (padInt 2 w.2.1))
  | 'V' => some (if mod = some ':' then
      (if t.short then do
        let d ← C.longFromShort ⟨t.year, t.mon, t.mday, []⟩ false
        .ok (padInt 2 d.v)
      else .ok (padInt 2 t.v))
      else do
        let w ← C.yearWeekDay t.fullYear t.mon t.mday
        .ok (padInt 2 w.2.1))
  | 'y' => some (.ok (two (t.fullYear - pyInt (fl ((t.fullYear : ℚ) / 100)) * 100)))
  | 'Y' => some (.ok (signedYear t.fullYear))
  | 'z' => some (.ok [])
  | 'Z' => some (.ok [])
  | '%' => some (.ok ['%'])
  | _ => none

/-- The table of the directives; what is not modelled is left to `other`. -/
def Cal.directives (C : Cal) (other : Directives) (t : Tup) : Directives := fun ch mod =>
  match C.directive t ch mod with
  | some r => r
  | none => other ch mod

/-- `strftime` (lines 861-896). -/
def Cal.strftime (C : Cal) (other : Directives) (f : Str) (t : Tup) : Py Str :=
  match checkFormat f with
  | .error e => .error e
  | .ok () => do
    C.checktm t
    formatLoop (C.directives other t) (lastChar f) f

/-- The replacement of `%f` in `_wrap_strftime` (lines 1477-1506). -/
def wrapFormat (micro : Str) : Str → Str
  | [] => []
  | '%' :: 'f' :: rest => micro ++ wrapFormat micro rest
  | '%' :: c :: rest => '%' :: c :: wrapFormat micro rest
  | c :: rest => c :: wrapFormat micro rest

/-- `_build_struct_time` (lines 1089-1111) of a naive object in the short form. -/
def Cal.buildStruct (C : Cal) (y m d h mi s : ℤ) : Py Tup := do
  let wday ← C.dayOfWeek y m d
  let before ← C.daysBeforeMonth y m
  .ok ⟨true, 0, 0, y, m, d, h, mi, s, wday, before + d⟩

/-- `datetime.strftime` (datetime.py:459-471, 1933-1941) of a naive `datetime` in the short form. -/
def Cal.dtStrftime (C : Cal) (other : Directives) (y m d h mi s us : ℤ) (f : Str) : Py Str := do
  let t ← C.buildStruct y m d h mi s
  C.strftime other (wrapFormat (padInt 6 us) f) t

end Verif
