import Mathlib.Analysis.SpecialFunctions.Trigonometric.Inverse
import Mathlib.Analysis.SpecialFunctions.Complex.Arg
import Verif.Model.Gregorian
import Verif.Model.Numeric

/-!
# The position of the sun, its rising and its setting (`badidatetime/base_calendar.py`)

Line numbers refer to `/repo/badidatetime/base_calendar.py`.

This is the exact reading of the code: every float operation and every function of the C library (`sin`, `cos`, `asin`,
`acos`, `atan2`, `fmod`) is replaced by the exact operation on real numbers. The rounding errors are therefore not modelled
here; the theorems that use this file for the library with floats say how large an error they allow. The date inside of
`_delta_t` is the one of `Verif/Model/Gregorian.lean`, with its roundings.

The cache of the nutation (lines 453-492) is left out: each result is the direct value (theorem `C37_history`), except that
the very first call gives 0 at time zero.
-/

namespace Verif.Solar

open Real

noncomputable section

/-- `math.radians`. -/
def radians (x : ℝ) : ℝ := x * (π / 180)

/-- `math.degrees`. -/
def degrees (x : ℝ) : ℝ := x * (180 / π)

/-- `_sin_deg` (lines 1320-1336). -/
def sinDeg (x : ℝ) : ℝ := sin (radians x)

/-- `_cos_deg` (lines 1338-1354). -/
def cosDeg (x : ℝ) : ℝ := cos (radians x)

/-- C `atan2(y, x)`. -/
def atan2 (y x : ℝ) : ℝ := Complex.arg ⟨x, y⟩

/-- C `fmod(x, 360)`: the remainder with the sign of `x`. -/
def fmod360 (x : ℝ) : ℝ := x - 360 * (if 0 ≤ x / 360 then (⌊x / 360⌋ : ℝ) else (⌈x / 360⌉ : ℝ))

/-- `_coterminal_angle` (lines 1561-1571). -/
def coterminal (x : ℝ) : ℝ := if fmod360 x < 0 then fmod360 x + 360 else fmod360 x

/-- `_poly` (lines 1386-1413). -/
def poly (x : ℝ) : List ℝ → ℝ
  | [] => 0
  | a :: rest => a + x * poly x rest

/-- Python `x % 1`. -/
def mod1 (x : ℝ) : ℝ := x - ⌊x⌋

/-- `_delta_t` with `seconds=True` for the year as a number (lines 90-145). -/
def deltaTSeconds (year : ℚ) : ℚ :=
  if year < -500 then -20 + 32 * ((year - 1820) / 100) ^ 2
  else if year < 500 then
    Verif.poly (year / 100) [10583.6, -1014.41, 33.78311, -5.952053, -0.1798452, 0.022174192, 0.0090316521]
  else if year < 1600 then
    Verif.poly ((year - 1000) / 100) [1574.2, -556.01, 71.23472, 0.319781, -0.8503463, -0.005050998, 0.0083572073]
  else if year < 1700 then Verif.poly (year - 1600) [120, -0.9808, -0.01532, 1 / 7129]
  else if year < 1800 then Verif.poly (year - 1700) [8.83, 0.1603, -0.0059285, 0.00013336, -1 / 1174000]
  else if year < 1860 then
    Verif.poly (year - 1800)
      [13.72, -0.332447, 0.0068612, 0.0041116, -0.00037436, 0.0000121272, -0.0000001699, 0.000000000875]
  else if year < 1900 then Verif.poly (year - 1860) [7.62, 0.5737, -0.251754, 0.01680668, -0.0004473624, 1 / 233174]
  else if year < 1920 then Verif.poly (year - 1900) [-2.79, 1.494119, -0.0598939, 0.0061966, -0.000197]
  else if year < 1941 then Verif.poly (year - 1920) [21.20, 0.84493, -0.0761, 0.0020936]
  else if year < 1961 then Verif.poly (year - 1950) [29.07, 0.407, -1 / 233, 1 / 2547]
  else if year < 1986 then Verif.poly (year - 1975) [45.45, 1.067, -1 / 260, -1 / 718]
  else if year < 2005 then
    Verif.poly (year - 2000) [63.86, 0.3345, -0.060374, 0.0017275, 0.000651814, 0.00002373599]
  else if year < 2050 then Verif.poly (year - 2000) [62.92, 0.32217, 0.005589]
  else if year < 2150 then -20 + 32 * ((year - 1820) / 100) ^ 2 - 0.5628 * (2150 - year)
  else -20 + 32 * ((year - 1820) / 100) ^ 2

/-- The year as a number, with the middle of the month (lines 86-88). -/
def decimalYear (jd : ℚ) : ℚ :=
  (gregorianFromJdMeeus jd).y + ((gregorianFromJdMeeus jd).m - 1 / 2) / 12

/-- `_delta_t` with `seconds=False`, in days (lines 73-148). -/
def deltaT (jd : ℚ) : ℚ := deltaTSeconds (decimalYear jd) / 86400

/-- `_julian_centuries` (julian_period.py:33-41). -/
def julianCenturies (jd : ℝ) : ℝ := (jd - 2451545) / 36525

/-- `_mean_sidereal_time_greenwich` (lines 150-166). -/
def meanSiderealTime (tc : ℝ) : ℝ :=
  coterminal (280.46061837 + 360.98564736629 * (tc * 36525) + 0.000387933 * tc ^ 2 - tc ^ 3 / 38710000)

/-- `_moon_mean_anomaly` (lines 543-557). -/
def moonMeanAnomaly (tc : ℝ) : ℝ := coterminal (poly tc [134.96298, 477198.867398, 0.0086972, 1 / 56250])

/-- `_sun_earth_mean_anomaly` (lines 559-573). -/
def sunMeanAnomaly (tc : ℝ) : ℝ := coterminal (poly tc [357.52772, 35999.05034, -0.0001603, -1 / 300000])

/-- `_moon_latitude` (lines 575-590). -/
def moonLatitude (tc : ℝ) : ℝ := coterminal (poly tc [93.27191, 483202.017538, -0.0036825, 1 / 327270])

/-- `_mean_moon_elongation` (lines 592-605). -/
def moonElongation (tc : ℝ) : ℝ := coterminal (poly tc [297.85036, 445267.11148, -0.0019142, 1 / 189474])

/-- `_moon_ascending_node_longitude` (lines 607-622). -/
def moonNode (tc : ℝ) : ℝ := coterminal (poly tc [125.04452, -1934.136261, 0.0020708, 1 / 450000])

/-- A row of `_NUT` without the period, which is not used (_astronomical_terms.py:103-213). -/
structure NutRow where
  lm : ℤ
  ls : ℤ
  f : ℤ
  d : ℤ
  om : ℤ
  psi : ℚ
  psiT : ℚ
  eps : ℚ
  epsT : ℚ

/-- `_NUT` (_astronomical_terms.py:108-213). -/
def nutTable : List NutRow :=
  [⟨0, 0, 0, 0, 1, -171996, -174.2, 92025, 8.9⟩, ⟨0, 0, 2, -2, 2, -13187, -1.6, 5736, -3.1⟩, ⟨0, 0, 2, 0, 2, -2274, -0.2, 977, -0.5⟩,
   ⟨0, 0, 0, 0, 2, 2062, 0.2, -895, 0.5⟩, ⟨0, -1, 0, 0, 0, -1426, 3.4, 54, -0.1⟩, ⟨1, 0, 0, 0, 0, 712, 0.1, -7, 0⟩,
   ⟨0, 1, 2, -2, 2, -517, 1.2, 224, -0.6⟩, ⟨0, 0, 2, 0, 1, -386, -0.4, 200, 0⟩, ⟨1, 0, 2, 0, 2, -301, 0, 129, -0.1⟩,
   ⟨0, -1, 2, -2, 2, 217, -0.5, -95, 0.3⟩, ⟨-1, 0, 0, 2, 0, 158, 0, -1, 0⟩, ⟨0, 0, 2, -2, 1, 129, 0.1, -70, 0⟩,
   ⟨-1, 0, 2, 0, 2, 123, 0, -53, 0⟩, ⟨1, 0, 0, 0, 1, 63, 0.1, -33, 0⟩, ⟨0, 0, 0, 2, 0, 63, 0, -2, 0⟩,
   ⟨-1, 0, 2, 2, 2, -59, 0, 26, 0⟩, ⟨-1, 0, 0, 0, 1, -58, -0.1, 32, 0⟩, ⟨1, 0, 2, 0, 1, -51, 0, 27, 0⟩,
   ⟨-2, 0, 0, 2, 0, -48, 0, 1, 0⟩, ⟨-2, 0, 2, 0, 1, 46, 0, -24, 0⟩, ⟨0, 0, 2, 2, 2, -38, 0, 16, 0⟩,
   ⟨2, 0, 2, 0, 2, -31, 0, 13, 0⟩, ⟨2, 0, 0, 0, 0, 29, 0, -1, 0⟩, ⟨1, 0, 2, -2, 2, 29, 0, -12, 0⟩,
   ⟨0, 0, 2, 0, 0, 26, 0, -1, 0⟩, ⟨0, 0, 2, -2, 0, -22, 0, 0, 0⟩, ⟨-1, 0, 2, 0, 1, 21, 0, -10, 0⟩,
   ⟨0, 2, 0, 0, 0, 17, -0.1, 0, 0⟩, ⟨0, 2, 2, -2, 2, -16, 0.1, 7, 0⟩, ⟨-1, 0, 0, 2, 1, 16, 0, -8, 0⟩,
   ⟨0, 1, 0, 0, 1, -15, 0, 9, 0⟩, ⟨1, 0, 0, -2, 1, -13, 0, 7, 0⟩, ⟨0, -1, 0, 0, 1, -12, 0, 6, 0⟩,
   ⟨2, 0, -2, 0, 0, 11, 0, 0, 0⟩, ⟨-1, 0, 2, 2, 1, -10, 0, 5, 0⟩, ⟨1, 0, 2, 2, 2, -8, 0, 3, 0⟩,
   ⟨0, -1, 2, 0, 2, -7, 0, 3, 0⟩, ⟨0, 0, 2, 2, 1, -7, 0, 3, 0⟩, ⟨1, 1, 0, -2, 0, -7, 0, 0, 0⟩,
   ⟨0, 1, 2, 0, 2, 7, 0, -3, 0⟩, ⟨-2, 0, 0, 2, 1, -6, 0, 3, 0⟩, ⟨0, 0, 0, 2, 1, -6, 0, 3, 0⟩,
   ⟨2, 0, 2, -2, 2, 6, 0, -3, 0⟩, ⟨1, 0, 0, 2, 0, 6, 0, 0, 0⟩, ⟨1, 0, 2, -2, 1, 6, 0, -3, 0⟩,
   ⟨0, 0, 0, -2, 1, -5, 0, 3, 0⟩, ⟨0, -1, 2, -2, 1, -5, 0, 3, 0⟩, ⟨2, 0, 2, 0, 1, -5, 0, 3, 0⟩,
   ⟨1, -1, 0, 0, 0, 5, 0, 0, 0⟩, ⟨1, 0, 0, -1, 0, -4, 0, 0, 0⟩, ⟨0, 0, 0, 1, 0, -4, 0, 0, 0⟩,
   ⟨0, 1, 0, -2, 0, -4, 0, 0, 0⟩, ⟨1, 0, -2, 0, 0, 4, 0, 0, 0⟩, ⟨2, 0, 0, -2, 1, 4, 0, -2, 0⟩,
   ⟨0, 1, 2, -2, 1, 4, 0, -2, 0⟩, ⟨1, 1, 0, 0, 0, -3, 0, 0, 0⟩, ⟨1, -1, 0, -1, 0, -3, 0, 0, 0⟩,
   ⟨-1, -1, 2, 2, 2, -3, 0, 1, 0⟩, ⟨0, -1, 2, 2, 2, -3, 0, 1, 0⟩, ⟨1, -1, 2, 0, 2, -3, 0, 1, 0⟩,
   ⟨3, 0, 2, 0, 2, -3, 0, 1, 0⟩, ⟨-2, 0, 2, 0, 2, -3, 0, 1, 0⟩, ⟨1, 0, 2, 0, 0, 3, 0, 0, 0⟩,
   ⟨-1, 0, 2, 4, 2, -2, 0, 1, 0⟩, ⟨1, 0, 0, 0, 2, -2, 0, 1, 0⟩, ⟨-1, 0, 2, -2, 1, -2, 0, 1, 0⟩,
   ⟨0, -2, 2, -2, 1, -2, 0, 1, 0⟩, ⟨-2, 0, 0, 0, 1, -2, 0, 1, 0⟩, ⟨2, 0, 0, 0, 1, 2, 0, -1, 0⟩,
   ⟨3, 0, 0, 0, 0, 2, 0, 0, 0⟩, ⟨1, 1, 2, 0, 2, 2, 0, -1, 0⟩, ⟨0, 0, 2, 1, 2, 2, 0, -1, 0⟩,
   ⟨1, 0, 0, 2, 1, -1, 0, 0, 0⟩, ⟨1, 0, 2, 2, 1, -1, 0, 1, 0⟩, ⟨1, 1, 0, -2, 1, -1, 0, 0, 0⟩,
   ⟨0, 1, 0, 2, 0, -1, 0, 0, 0⟩, ⟨0, 1, 2, -2, 0, -1, 0, 0, 0⟩, ⟨0, 1, -2, 2, 0, -1, 0, 0, 0⟩,
   ⟨1, 0, -2, 2, 0, -1, 0, 0, 0⟩, ⟨1, 0, -2, -2, 0, -1, 0, 0, 0⟩, ⟨1, 0, 2, -2, 0, -1, 0, 0, 0⟩,
   ⟨1, 0, 0, -4, 0, -1, 0, 0, 0⟩, ⟨2, 0, 0, -4, 0, -1, 0, 0, 0⟩, ⟨0, 0, 2, 4, 2, -1, 0, 0, 0⟩,
   ⟨0, 0, 2, -1, 2, -1, 0, 0, 0⟩, ⟨-2, 0, 2, 4, 2, -1, 0, 1, 0⟩, ⟨2, 0, 2, 2, 2, -1, 0, 0, 0⟩,
   ⟨0, -1, 2, 0, 1, -1, 0, 0, 0⟩, ⟨0, 0, -2, 0, 1, -1, 0, 0, 0⟩, ⟨0, 0, 4, -2, 2, 1, 0, 0, 0⟩,
   ⟨0, 1, 0, 0, 2, 1, 0, 0, 0⟩, ⟨1, 1, 2, -2, 2, 1, 0, -1, 0⟩, ⟨3, 0, 2, -2, 2, 1, 0, 0, 0⟩,
   ⟨-2, 0, 2, 2, 2, 1, 0, -1, 0⟩, ⟨-1, 0, 0, 0, 2, 1, 0, -1, 0⟩, ⟨0, 0, -2, 2, 1, 1, 0, 0, 0⟩,
   ⟨0, 1, 2, 0, 1, 1, 0, 0, 0⟩, ⟨-1, 0, 4, 0, 2, 1, 0, 0, 0⟩, ⟨2, 1, 0, -2, 0, 1, 0, 0, 0⟩,
   ⟨2, 0, 0, 2, 0, 1, 0, 0, 0⟩, ⟨2, 0, 2, -2, 1, 1, 0, -1, 0⟩, ⟨2, 0, -2, 0, 1, 1, 0, 0, 0⟩,
   ⟨1, -1, 0, -2, 0, 1, 0, 0, 0⟩, ⟨-1, 0, 0, 1, 1, 1, 0, 0, 0⟩, ⟨-1, -1, 0, 2, 1, 1, 0, 0, 0⟩,
   ⟨0, 1, 0, 1, 0, 1, 0, 0, 0⟩]

/-- The angle `w` of a row (line 527). -/
def NutRow.angle (r : NutRow) (tc : ℝ) : ℝ :=
  r.lm * moonMeanAnomaly tc + r.ls * sunMeanAnomaly tc + r.f * moonLatitude tc + r.d * moonElongation tc +
    r.om * moonNode tc

/-- `_nutation_longitude` with `degrees=False` (lines 453-472 and 494-541). -/
def nutationLongitude (tc : ℝ) : ℝ :=
  (nutTable.map (fun r => (r.psi + r.psiT * tc) * sinDeg (r.angle tc))).sum / 36000000

/-- `_nutation_obliquity` with `degrees=False` (lines 474-541). -/
def nutationObliquity (tc : ℝ) : ℝ :=
  (nutTable.map (fun r => (r.eps + r.epsT * tc) * cosDeg (r.angle tc))).sum / 36000000

/-- `mean_ob` (lines 639-645). -/
def meanObliquity (tc : ℝ) : ℝ :=
  poly (tc / 100) [23.43929111111111, -1.3002583333333335, -0.00043055555555555555, 0.5553472222222222,
    -0.014272222222222223, -0.06935277777777778, -0.010847222222222222, 0.001977777777777778, 0.007741666666666667,
    0.0016083333333333334, 0.0006805555555555556]

/-- `_true_obliquity_of_ecliptic` (lines 624-646). -/
def trueObliquity (tc : ℝ) : ℝ := meanObliquity tc + nutationObliquity tc

/-- `_apparent_sidereal_time_greenwich` (lines 168-185). -/
def apparentSiderealTime (tc : ℝ) : ℝ :=
  coterminal (meanSiderealTime tc + nutationLongitude tc * cosDeg (trueObliquity tc))

/-- `_sun_mean_longitude` (lines 648-663). -/
def sunMeanLongitude (tc : ℝ) : ℝ := coterminal (poly tc [280.46646, 36000.76983, 0.0003032])

/-- `_sun_equation_of_center` (lines 679-699). -/
def equationOfCenter (tc : ℝ) : ℝ :=
  (1.914602 - 0.004817 * tc - 0.000014 * tc ^ 2) * sinDeg (sunMeanAnomaly tc) +
    (0.019993 - 0.000101 * tc) * sinDeg (2 * sunMeanAnomaly tc) + 0.000290 * sinDeg (3 * sunMeanAnomaly tc)

/-- `_sun_true_longitude` (lines 701-717). -/
def sunTrueLongitude (tc : ℝ) : ℝ := sunMeanLongitude tc + equationOfCenter tc

/-- `_sun_apparent_longitude` (lines 719-738). -/
def sunApparentLongitude (tc : ℝ) : ℝ := sunTrueLongitude tc - 0.00569 - 0.00478 * sinDeg (moonNode tc)

/-- The obliquity corrected for the apparent position (lines 755-756 and 778-779). -/
def apparentObliquity (tc : ℝ) : ℝ := trueObliquity tc + 0.00256 * cosDeg (moonNode tc)

/-- `_sun_apparent_right_ascension` (lines 740-761). -/
def rightAscension (tc : ℝ) : ℝ :=
  coterminal (degrees (atan2 (cosDeg (apparentObliquity tc) * sinDeg (sunApparentLongitude tc))
    (cosDeg (sunApparentLongitude tc))))

/-- `_sun_apparent_declination` (lines 763-781). -/
def declination (tc : ℝ) : ℝ :=
  degrees (arcsin (sinDeg (apparentObliquity tc) * sinDeg (sunApparentLongitude tc)))

/-- `cos_h0` (lines 238-240). -/
def cosH0 (tc lat offset : ℝ) : ℝ :=
  (sinDeg (-offset) - sinDeg lat * sinDeg (declination tc)) / (cosDeg lat * cosDeg (declination tc))

/-- `_approx_local_hour_angle` (lines 205-246). -/
def approxHourAngle (tc lat offset : ℝ) : ℝ :=
  degrees (arccos (if cosH0 tc lat offset < -1 ∨ 1 < cosH0 tc lat offset
    then cosH0 tc lat offset - ⌊cosH0 tc lat offset⌋ else cosH0 tc lat offset))

/-- `_interpolation_from_three` (lines 1573-1595). -/
def interpolation (y1 y2 y3 n : ℝ) (normalize : Bool) : ℝ :=
  let a := y2 - y1
  let b := y3 - y2
  let a := if normalize then a + (if a < 0 then 360 else 0) else a
  let b := if normalize then b + (if b < 0 then 360 else 0) else b
  y2 + (n / 2) * (a + b + n * (b - a))

/-- `_local_hour_angle` (lines 433-451). -/
def localHourAngle (srt lon alpha : ℝ) : ℝ :=
  if 180 < coterminal (srt + lon - alpha) then coterminal (srt + lon - alpha) - 360 else coterminal (srt + lon - alpha)

/-- `_altitude` (lines 187-203). -/
def altitude (delta lat h : ℝ) : ℝ :=
  degrees (arcsin (sinDeg lat * sinDeg delta + cosDeg lat * cosDeg delta * cosDeg h))

/-- The right ascension interpolated for the time `n` (lines 421-423 and 427). -/
def interpolatedAscension (tc n : ℝ) : ℝ :=
  interpolation (rightAscension (tc - 1 / 36525)) (rightAscension tc) (rightAscension (tc + 1 / 36525)) n true

/-- The declination interpolated for the time `n` (lines 424-426 and 428). -/
def interpolatedDeclination (tc n : ℝ) : ℝ :=
  interpolation (declination (tc - 1 / 36525)) (declination tc) (declination (tc + 1 / 36525)) n false

/-- The hour angle at the time `m` (lines 419, 420 and 429). -/
def hourAngleAt (tc ast dt lon m : ℝ) : ℝ :=
  localHourAngle (ast + 360.98564736629 * m) lon (interpolatedAscension tc (m + dt / 86400))

/-- `_rise_set_correction` (lines 402-431). -/
def riseSetCorrection (tc ast dt lat lon m offset : ℝ) : ℝ :=
  let delta := interpolatedDeclination tc (m + dt / 86400)
  let h := hourAngleAt tc ast dt lon m
  (altitude delta lat h + offset) / (360 * cosDeg delta * cosDeg lat * sinDeg h)

/-- The loop of `_rising_setting` (lines 393-398), with the number of rounds left. -/
def refineTime (tc ast dt lat lon offset : ℝ) : ℕ → ℝ → ℝ
  | 0, m => m
  | k + 1, m =>
    let dm := riseSetCorrection tc ast dt lat lon m offset
    if |dm| < 0.0001 then m + dm else refineTime tc ast dt lat lon offset k (m + dm)

/-- `m0`, the transit of the sun (line 390). -/
def transit (jd : ℚ) (lon : ℝ) : ℝ :=
  let tc := julianCenturies jd
  mod1 ((rightAscension ((deltaT jd : ℝ) / 36525 + tc) - lon - apparentSiderealTime tc) / 360)

/-- `_SUN_OFFSET` (line 54). -/
def sunOffset : ℝ := 0.8333

/-- `_rising_setting` (lines 356-400) for a legal `sr_ss`; `set` tells `'SET'` from `'RISE'`. -/
def risingSetting (jd : ℚ) (lat lon offset : ℝ) (set : Bool) : ℝ :=
  let tc := julianCenturies jd
  let h0 := approxHourAngle tc lat offset
  let m := if set then transit jd lon + h0 / 360 else transit jd lon - h0 / 360
  mod1 (refineTime tc (apparentSiderealTime tc) (deltaT jd : ℝ) lat lon offset 3 m)

end

end Verif.Solar
