import Verif.Model.Sun

/-!
# The option `degrees` of `_radius_vector`

Line numbers refer to `/repo/badidatetime/base_calendar.py`.
-/

namespace Verif.Sun

open Real Verif.Solar

noncomputable section

/-- `_radius_vector` (lines 833-856) with its option. -/
def radiusVector (tm : ℝ) (deg : Bool) : ℝ := if deg then round12 (coterminal (degrees (radiusRaw tm))) else radius tm

end

end Verif.Sun
