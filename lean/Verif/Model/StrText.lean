import Verif.Model.IsoText

/-!
# `str` of dates and datetimes (datetime.py:509-527, 2240-2263)

`str` of a time is `time.isoformat` (datetime.py:1361), `timeIso` of `Model/IsoText`.
-/

namespace Verif

/-- The long form (lines 520-523). -/
def longText (k v y m d : ℤ) : Str :=
  padInt (if k < 0 then 3 else 2) k ++ '-' :: padInt 2 v ++ '-' :: padInt 2 y ++ '-' :: padInt 2 m ++ '-' :: padInt 2 d

/-- `date._str_convertion` (lines 509-525), which is `date.__str__`. -/
def Cal.dateStr (C : Cal) : DateObj → Py Str
  | .short y m d => C.dateIso (.short y m d)
  | .long k v y m d => .ok (longText k v y m d)

/-- `datetime._dt_str_conversion` (lines 2240-2261), which is `datetime.__str__` with the separator `T`. -/
def dtStr (x : DT) : Py Str :=
  match x.d with
  | .short _ _ _ => dtIso x 'T'
  | .long k v y m d => do
    let off ← utcOffset x.tz
    .ok (longText k v y m d ++ 'T' :: padInt 2 x.h ++ ':' :: padInt 2 x.mi ++ ':' :: padInt 2 x.s ++
      (if x.us ≠ 0 then '.' :: padInt 0 x.us else []) ++ formatOffset off)

end Verif
