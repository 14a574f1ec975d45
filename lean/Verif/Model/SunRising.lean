import Verif.Model.Base

/-!
# Model of `_sun_rising`
-/

namespace Verif

/-- The oracle for sunrise: `frac jd0 lat lon` stands for the value returned by
`_rising_setting(jd0, lat, lon, offset=_SUN_OFFSET, sr_ss='RISE')` (base_calendar.py:356-400). -/
structure RiseAstro where
  frac : ℚ → ℚ → ℚ → ℚ

/-- `_sun_rising` (base_calendar.py:294-323). -/
def sunRising (R : RiseAstro) (jd lat lon : ℚ) : ℚ :=
  let lonFrac := fl (lon / 360)
  let jdLocal := fl (jd + lonFrac)
  let jd0 := fl ((⌊fl (jdLocal + 1 / 2)⌋ : ℚ) - 1 / 2)
  let jd0 := fl (jd0 - lonFrac)
  let m := R.frac jd0 lat lon
  pyRound (fl (jd0 + m)) 12

end Verif
