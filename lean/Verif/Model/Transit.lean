import Verif.Model.Solar

/-!
# The transit of the sun (`badidatetime/base_calendar.py`)

Line numbers refer to `/repo/badidatetime/base_calendar.py`. Exact arithmetic as in `Verif/Model/Solar.lean`. The library
does not call these functions itself.
-/

namespace Verif.Solar

noncomputable section

/-- `func0` (line 262). -/
def wrapOnce (m : ℝ) : ℝ := if m ≤ 0 then m + 1 else if 1 ≤ m then m - 1 else m

/-- `_transit_correction` (lines 272-294). -/
def transitCorrection (tc ast dt lon m : ℝ) : ℝ :=
  -localHourAngle (ast + 360.98564736629 * m) lon (interpolation (rightAscension (tc - 1 / 36525)) (rightAscension tc)
    (rightAscension (tc + 1 / 36525)) (m + dt / 86400) true) / 360

/-- `_sun_transit` (lines 248-270). -/
def sunTransit (jd : ℚ) (lon : ℝ) : ℝ :=
  let tc := julianCenturies jd
  let alpha := rightAscension ((deltaT jd : ℝ) / 36525 + tc)
  let ast := apparentSiderealTime tc
  let m := wrapOnce ((alpha - lon - ast) / 360)
  m + transitCorrection tc ast (deltaT jd : ℝ) lon m

end

end Verif.Solar
