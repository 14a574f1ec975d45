import Verif.Model.StructTime
import Verif.Model.Conversion

/-!
# Model of the directives of `strftime` for the locale, the 12 hour clock and the zone

Line numbers refer to `/repo/badidatetime/_timedateutils.py` unless another file is named. Together with `Cal.directive`
this covers every directive.
-/

namespace Verif

/-- `_locale_data` (lines 95-116): the texts for the halves of the day, and the separator and the three characters of the
formats of dates and times that `_order_format` leaves. -/
structure Locale where
  am : Str
  pm : Str
  dSep : Char
  d1 : Char
  d2 : Char
  d3 : Char
  tSep : Char
  t1 : Char
  t2 : Char
  t3 : Char
  deriving DecidableEq, Repr

/-- `_order_format` (lines 118-137): the third character and the second, fifth and eighth, of the format or of the default
when the format does not have eight characters. -/
def orderFormat (fmt dflt : Str) : Char × Char × Char × Char :=
  let f := if fmt.length = 8 then fmt else dflt
  (f.getD 2 ' ', f.getD 1 ' ', f.getD 4 ' ', f.getD 7 ' ')

/-- The locale with the formats of `nl_langinfo` and `time.strftime('%X')` (lines 98-116, 139-148). `delim` is the third
character of the latter, and the 12 hour clock is used when the locale has a text for the half of the day. -/
def localeOf (am pm dateFmt : Str) (delim : Char) (twelve : Bool) : Locale :=
  let d := orderFormat dateFmt "%m/%d/%y".toList
  let t := orderFormat ['%', if twelve then 'I' else 'H', delim, '%', 'M', delim, '%', 'S'] "%H:%M:%S".toList
  ⟨am, pm, d.1, d.2.1, d.2.2.1, d.2.2.2, t.1, t.2.1, t.2.2.1, t.2.2.2⟩

/-- `_find_midday` (lines 926-944) with `midday` (badi_calendar.py:563-587). -/
def Cal.findMidday (C : Cal) (t : Tup) : Py ℚ :=
  if t.short then C.midday ⟨t.year, t.mon, t.mday, [t.hour, t.min, t.sec]⟩
  else do
    let b ← C.shortFromLong ⟨t.k, t.v, t.year, t.mon, t.mday, [t.hour, t.min, t.sec]⟩ true
    C.midday b

/-- The comparison in `I` and `p` (lines 489-494, 602-607): the clock is at midday or after it. -/
def Cal.afterMidday (C : Cal) (t : Tup) : Py Bool := do
  let mid ← C.findMidday t
  let f ← decimalDayFromHms t.hour t.min t.sec 0
  .ok (decide (mid ≤ f))

/-- The hour of `I` (lines 493-496). -/
def Cal.hour12 (C : Cal) (t : Tup) : Py ℤ := do
  let pm ← C.afterMidday t
  .ok (if pm then t.hour - 12 else t.hour)

/-- `f"{n: 2}"`: the place of the sign is a space for numbers that are not negative. -/
def spaceInt (n : ℤ) : Str := if n < 0 then padInt 1 n else ' ' :: padInt 1 n

/-- `I` (lines 466-505) for `%I`, and for `%l` and `%-l`. -/
def Cal.dirI (C : Cal) (t : Tup) (org : Char) (mod : Option Char) : Py Str := do
  let h ← C.hour12 t
  .ok (if org = 'l' ∧ mod = some '-' then padInt 1 h else if org = 'l' then spaceInt h else padInt 2 h)

/-- `p` (lines 591-611). -/
def Cal.dirP (C : Cal) (L : Locale) (t : Tup) : Py Str := do
  let pm ← C.afterMidday t
  .ok (if pm then L.pm else L.am)

/-- `r` (lines 613-633) for `%r`. -/
def Cal.dirR (C : Cal) (L : Locale) (t : Tup) : Py Str := do
  let h ← C.dirI t 'I' none
  let p ← C.dirP L t
  .ok (h ++ ':' :: padInt 2 t.min ++ ':' :: padInt 2 t.sec ++ ' ' :: p)

/-- `c` (lines 318-343). -/
def dirC (t : Tup) : Str :=
  nameAt dayAbbrs t.wday ++ ' ' :: nameAt monthAbbrs t.mon ++ ' ' :: padInt 2 t.mday ++ ' ' :: padInt 2 t.hour ++ ':' ::
    padInt 2 t.min ++ ':' :: padInt 2 t.sec ++ ' ' ::
    (if t.short then padInt 4 t.year else padInt 1 t.k ++ ' ' :: padInt 2 t.v ++ ' ' :: padInt 2 t.year)

/-- The year of `D` (lines 400-402). -/
def yearD (year : ℤ) : ℤ :=
  let century := pyInt (fl ((year : ℚ) / 100)) * 100
  year - (if year < century then 0 else century)

/-- One method for `D`, `x` and `X`: `getattr(self, ch)(ttup, '', '')` (lines 410-413, 728, 747), for the characters that a
format of the locale can have; other characters are not modelled and raise here. The padding of the text to two
characters in `D` changes nothing, because the methods pad themselves. -/
def Cal.method (C : Cal) (t : Tup) (ch : Char) : Py Str :=
  if ch = 'I' then C.dirI t 'I' none
  else if ch ∈ ['m', 'd', 'y', 'Y', 'H', 'M', 'S'] then
    match C.directive t ch none with
    | some r => r
    | none => .error .attribute
  else .error .attribute

/-- One field of `D` (lines 406-413). -/
def Cal.fieldD (C : Cal) (t : Tup) (ch : Char) : Py Str :=
  if ch = 'y' ∨ ch = 'Y' then .ok (padInt 2 (yearD t.fullYear)) else C.method t ch

/-- Three fields with a separator. -/
def joinThree (sep : Char) (a b c : Py Str) : Py Str := do
  let x ← a
  let y ← b
  let z ← c
  .ok (x ++ sep :: y ++ sep :: z)

/-- `z` (lines 784-822). -/
def dirZ (gmtoff : Option ℚ) (mod : Option Char) : Str :=
  match gmtoff with
  | none => []
  | some g =>
    if g = 0 then []
    else
      let n := if g < 0 then '-' else '+'
      let h := |fl (g / 3600)|
      let hh := pyInt h
      let m0 := fl (fl (h - hh) * 100)
      let mm := ⌊m0⌋
      let s := fl (m0 - mm)
      let s100 := fl (s * 100)
      let ss := pyInt s100
      let ms := pyInt (fl (fl (s100 - ss) * 1000000))
      let delim : Str := if mod = some ':' then [':'] else []
      n :: padInt 2 hh ++ delim ++ padInt 2 mm ++ (if 0 < ss then delim ++ padInt 2 ss else []) ++
        (if 0 < ms then '.' :: padInt 6 ms else [])

/-- The directives that `Cal.directive` leaves: `c`, `D` (380-415), `f` (417-429, only for a format that is not wrapped; the
seconds are an integer), `I`, `l`, `p`, `r`, `x` (714-731), `X` (733-750); a missing key raises. -/
def Cal.otherDirectives (C : Cal) (L : Locale) (t : Tup) : Directives := fun ch mod =>
  match ch with
  | 'c' => .ok (dirC t)
  | 'D' => joinThree L.dSep (C.fieldD t L.d1) (C.fieldD t L.d2) (C.fieldD t L.d3)
  | 'f' => .ok (padInt 6 0)
  | 'I' => C.dirI t 'I' mod
  | 'l' => C.dirI t 'l' mod
  | 'p' => C.dirP L t
  | 'r' => C.dirR L t
  | 'x' => joinThree L.dSep (C.method t L.d1) (C.method t L.d2) (C.method t L.d3)
  | 'X' => joinThree L.tSep (C.method t L.t1) (C.method t L.t2) (C.method t L.t3)
  | _ => .error .key

/-- All directives for a `struct_time`: `z` and `Z` (824-835) depend on its zone. -/
def Cal.allDirectives (C : Cal) (L : Locale) (s : Struct) : Directives := fun ch mod =>
  if ch = 'z' then .ok (dirZ s.gmtoff mod)
  else if ch = 'Z' then .ok (s.zone.getD [])
  else C.directives (C.otherDirectives L s.tup) s.tup ch mod

/-- `strftime` (lines 861-896) of a `struct_time`. -/
def Cal.strftimeStruct (C : Cal) (L : Locale) (f : Str) (s : Struct) : Py Str :=
  match checkFormat f with
  | .error e => .error e
  | .ok () => do
    C.checktm s.tup
    formatLoop (C.allDirectives L s) (lastChar f) f

/-- `date.strftime` (datetime.py:459-471) of a date. -/
def Cal.dateStrftime (C : Cal) (L : Locale) (d : DateObj) (f : Str) : Py Str := do
  let s ← C.dateTimetuple d
  C.strftimeStruct L (wrapFormat (padInt 6 0) f) s

/-- `date.strftime` of a `datetime`, aware or not, in either form (datetime.py:459-471, 1933-1942). -/
def Cal.datetimeStrftime (C : Cal) (L : Locale) (x : DT) (z : Option TzInfo) (f : Str) : Py Str := do
  let s ← C.dtTimetuple x z
  C.strftimeStruct L (wrapFormat (padInt 6 x.us) f) s

/-- `time.strftime` (datetime.py:1380-1391): the date is the first of the era. The format is checked first; the tuple
becomes a `struct_time` after `_checktm` (lines 876-879). -/
def Cal.timeStrftime (C : Cal) (L : Locale) (x : TimeObj) (z : Option TzInfo) (f : Str) : Py Str :=
  let g := wrapFormat (padInt 6 x.us) f
  match checkFormat g with
  | .error e => .error e
  | .ok () => do
    C.checktm (tupOf (.short 1 1 1) x.h x.mi x.s 0 1)
    let s ← C.structTime (.short 1 1 1) x.h x.mi x.s 0 1 (-1) z
    formatLoop (C.allDirectives L s) (lastChar g) g

end Verif
