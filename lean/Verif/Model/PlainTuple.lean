import Verif.Model.Directives

/-!
# Model of the functions that take a plain tuple of integers as a time tuple

From `badidatetime/_structures.py` (ST) and `_timedateutils.py` (TU).
-/

namespace Verif

/-- `struct_time.__new__` (ST:92-118) of a tuple of integers, with `__is_short_form` (ST:121-142). -/
def Cal.structTimeOf (C : Cal) (t : List ℤ) (z : Option TzInfo) : Py Struct :=
  match t with
  | [y, m, d, h, mi, s, wday, yday, flag] => C.structTime (.short y m d) h mi s wday yday flag z
  | [k, v, y, m, d, h, mi, s, wday, yday, flag] => C.structTime (.long k v y m d) h mi s wday yday flag z
  | _ => .error .type

/-- `_checktm` (TU:185-264) of a tuple of integers that is not a named tuple (TU:228-236). -/
def Cal.checktmPlain (C : Cal) (t : List ℤ) : Py Unit :=
  match t with
  | [y, m, d, h, mi, s, wday, yday, flag] => do
    C.checktm (tupOf (.short y m d) h mi s wday yday)
    pyAssert (-1 ≤ flag ∧ flag ≤ 1)
  | [k, v, y, m, d, h, mi, s, wday, yday, flag] => do
    C.checktm (tupOf (.long k v y m d) h mi s wday yday)
    pyAssert (-1 ≤ flag ∧ flag ≤ 1)
  | _ => .error .type

/-- `strftime` (TU:861-896) of a tuple of integers that is not a named tuple. -/
def Cal.strftimePlain (C : Cal) (L : Locale) (f : Str) (t : List ℤ) (z : Option TzInfo) : Py Str :=
  match checkFormat f with
  | .error e => .error e
  | .ok () => do
    C.checktmPlain t
    let s ← C.structTimeOf t z
    formatLoop (C.allDirectives L s) (lastChar f) f

end Verif
