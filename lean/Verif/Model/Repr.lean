import Verif.Model.IsoText

/-!
# `repr` of dates, times, datetimes and zones (datetime.py:205-229, 401-423, 1308-1334, 2205-2238, 2705-2734, 2911-2923)

The objects are of the classes of the library themselves, whose `__module__` is `badidatetime.datetime`, so that
`_get_class_module` (lines 205-217) gives `badidatetime`.
-/

namespace Verif

/-- `str` of an integer. -/
def strInt (n : ℤ) : Str := padInt 0 n

/-- `', '.join(l)`. -/
def joinComma : List Str → Str
  | [] => []
  | [s] => s
  | s :: l => s ++ ',' :: ' ' :: joinComma l

/-- The text of a call. -/
def callText (f : Str) (args : List Str) : Str := f ++ '(' :: joinComma args ++ [')']

/-- `date.__repr__` (lines 401-423). -/
def dateRepr : DateObj → Str
  | .short y m d => callText "badidatetime.date".toList (List.map strInt [y, m, d])
  | .long k v y m d => callText "badidatetime.date".toList (List.map strInt [k, v, y, m, d])

/-- The arguments that `__repr__` adds for a zone and for the fold, in place of the last parenthesis. -/
def tailArgs (zone : Option Str) (fold : ℤ) : List Str :=
  (match zone with
    | none => []
    | some z => ["tzinfo=".toList ++ z]) ++ (if fold ≠ 0 then ["fold=1".toList] else [])

/-- `time.__repr__` (lines 1308-1334); `zone` is the text `f"{self.tzinfo}"`, that is, `zoneStr` of the zone. -/
def timeRepr (t : TimeObj) (zone : Option Str) : Str :=
  callText "badidatetime.time".toList
    (List.map strInt ([t.h, t.mi] ++ (if t.us ≠ 0 then [t.s, t.us] else if t.s ≠ 0 then [t.s] else [])) ++ tailArgs zone t.fold)

/-- The loop that removes zeros from the end of `L` (lines 2212-2216). -/
def dropZeros : ℕ → List ℤ → List ℤ
  | 0, l => l
  | n + 1, l => dropZeros n (if l.getLast? = some 0 then l.dropLast else l)

/-- `datetime.__repr__` (lines 2205-2238); `zone` is the text `f"{self.tzinfo!r}"`. -/
def dtRepr (x : DT) (zone : Option Str) : Str :=
  let date := match x.d with
    | .short y m d => List.map strInt [y, m, d] ++ ["None".toList, "None".toList]
    | .long k v y m d => List.map strInt [k, v, y, m, d]
  callText "badidatetime.datetime".toList
    (date ++ List.map strInt (dropZeros 2 [x.h, x.mi, x.s, x.us]) ++ tailArgs zone x.fold)

/-- `repr` of a `timedelta` of so many microseconds (CPython's `datetime.timedelta.__repr__`), with the module name changed by
`_module_name` (datetime.py:220-229). -/
def deltaRepr (us : ℤ) : Str :=
  let arg (name : String) (n : ℤ) : List Str := if n ≠ 0 then [name.toList ++ '=' :: strInt n] else []
  let args := arg "days" (us / 86400000000) ++ arg "seconds" (us % 86400000000 / 1000000) ++ arg "microseconds" (us % 1000000)
  callText "badidatetime.timedelta".toList (if args = [] then ["0".toList] else args)

/-- The last `w` hexadecimal digits of a number. -/
def hexW : ℕ → ℕ → Str
  | 0, _ => []
  | w + 1, n => "0123456789abcdef".toList.getD (n / 16 ^ w % 16) '0' :: hexW w n

/-- One character of `repr` of a `str` in the quotes `q`, as CPython's `unicode_repr` prints it. `P` is `str.isprintable`, which
decides for the characters outside of ASCII. -/
def charRepr (P : Char → Bool) (q c : Char) : Str :=
  if c = q ∨ c = '\\' then ['\\', c]
  else if c = '\t' then "\\t".toList
  else if c = '\n' then "\\n".toList
  else if c = '\r' then "\\r".toList
  else if c.toNat < 32 ∨ c.toNat = 127 then '\\' :: 'x' :: hexW 2 c.toNat
  else if c.toNat < 127 ∨ P c then [c]
  else if c.toNat < 256 then '\\' :: 'x' :: hexW 2 c.toNat
  else if c.toNat < 65536 then '\\' :: 'u' :: hexW 4 c.toNat
  else '\\' :: 'U' :: hexW 8 c.toNat

/-- `repr` of a `str`: double quotes if it has single quotes only. Lone surrogates, which a `str` can have, are not modelled. -/
def strRepr (P : Char → Bool) (s : Str) : Str :=
  let q := if '\'' ∈ s ∧ '"' ∉ s then '"' else '\''
  q :: s.flatMap (charRepr P q) ++ [q]

/-- The last two cases of `timezone.__repr__` (lines 2726-2734), for either class. -/
def zoneCall (P : Char → Bool) (cls : Str) (off : ℤ) (name : Option Str) : Str :=
  callText ("badidatetime.".toList ++ cls) (deltaRepr off :: match name with
    | none => []
    | some s => [strRepr P s])

/-- `timezone.__repr__` (lines 2705-2734): the two zones of the library are recognised by identity. -/
def zoneRepr (P : Char → Bool) (z : Zone) : Str :=
  if z.id = 0 then "badidatetime.timezone.utc".toList
  else if z.id = 1 then "badidatetime.BADI".toList
  else zoneCall P "timezone".toList z.off z.name

/-- `repr` of a `TZWithCoords` that is neither of the two zones of the library: the method is inherited (lines 2705-2734). -/
def coordRepr (P : Char → Bool) (z : CoordZone) : Str := zoneCall P "TZWithCoords".toList z.off z.name

/-- `str` of a zone: `timezone.__str__` (lines 2736-2743) gives the name, and the two zones of the library are of the class
`TZWithCoords`, whose `__str__` (lines 2911-2923) gives the coordinates (lines 2952-2953; `GMT_COORD` and `BADI_COORD`,
lines 25-26 and badi_calendar.py:28). -/
def zoneStr (z : Zone) : Str :=
  if z.id = 0 then "51.477928, -0.001545, 0, UTC".toList
  else if z.id = 1 then "35.69435, 51.288701, 3.5, Asia/Tehran".toList
  else tzName z

end Verif
