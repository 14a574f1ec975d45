import Verif.Model.Clock

/-!
# Equality of the zones that `fromtimestamp` takes

Line numbers refer to `/repo/badidatetime/datetime.py`.
-/

namespace Verif

/-- `timezone.__eq__` (lines 2699-2703), inherited by `TZWithCoords`: only the offsets are compared. `None` is equal to
itself only. -/
def StampZone.eq (a b : StampZone) : Bool :=
  match a.tz, b.tz with
  | some p, some q => p.off == q.off
  | .none, .none => true
  | _, _ => false

end Verif
