import Verif.Model.TimeZone

/-!
# Model of copies of a fixed offset zone and of offsets from Tehran

Line numbers refer to `/repo/badidatetime/datetime.py`. `pickle` and `copy` call `tzinfo.__reduce__` of the standard library, which
gives the class, the result of `__getinitargs__` and the state of the object, then the class is called with these arguments
and the state is put into the object that it returns. Until Python 3.10 the state of a `timezone`, which has only slots, is empty;
from Python 3.11 on it holds the slots. The package supports both (pyproject.toml:47), so this is a parameter. Objects of
`TZWithCoords` have a `__reduce__` of their own (lines 2924-2949, see `coordZonePickle`).
-/

namespace Verif

/-- `timezone.__getinitargs__` (lines 2823-2824): an empty name is false in Python. -/
def zoneInitArgs (z : Zone) : ℤ × Option Str :=
  (z.off, match z.name with
    | some (c :: s) => some (c :: s)
    | _ => none)

/-- `timezone.__new__` (lines 2653-2680) when the object `timezone.utc` is now `utc`. -/
def newZoneIn (utc : Zone) (fresh : ℕ) (off : ℤ) (name : Option Str) : Py Zone :=
  if name = none ∧ off = 0 then .ok utc
  else newZone fresh off name

/-- Putting the slots `_offset` and `_name` (line 2648) of `z` into the object `n`, from Python 3.11 on. -/
def putSlots (slots : Bool) (z n : Zone) : Zone :=
  if slots then { n with off := z.off, name := z.name } else n

/-- Copying or unpickling the zone `z`: the copy, and the object `timezone.utc` afterwards. -/
def zoneCopy (slots : Bool) (utc : Zone) (fresh : ℕ) (z : Zone) : Py (Zone × Zone) := do
  let n ← newZoneIn utc fresh (zoneInitArgs z).1 (zoneInitArgs z).2
  let r := putSlots slots z n
  .ok (r, if r.id = utc.id then r else utc)

/-- Copying zones one after the other, with the identities `fresh`, `fresh + 1`, …: the copies, and `timezone.utc` afterwards. -/
def zoneCopies (slots : Bool) (utc : Zone) (fresh : ℕ) : List Zone → Py (List Zone × Zone)
  | [] => .ok ([], utc)
  | z :: zs => do
    let r ← zoneCopy slots utc fresh z
    let q ← zoneCopies slots r.2 (fresh + 1) zs
    .ok (r.1 :: q.1, q.2)

/-- `timezone.badioffset` (lines 2760-2765) with a datetime or `None`: `BADI_COORD[2]` is 3.5 (line 25). -/
def zoneBadiOffset (z : Zone) (_dt : Option DT) : ℤ := z.off - 12600000000

/-- `time.badioffset` (lines 1427-1441). -/
def TimeObj.badiOffset (t : TimeObj) : Py (Option ℤ) :=
  match t.tz with
  | none => .ok none
  | some z => do
    let o ← utcOffset (some z)
    .ok (o.map (· - 12600000000))

end Verif
