import Verif.Model.Solar

/-!
# The apparent position of the sun with the long tables (`badidatetime/base_calendar.py`)

Line numbers refer to `/repo/badidatetime/base_calendar.py`. As in `Verif/Model/Solar.lean` every float operation is the
exact operation on real numbers; `round(x, 12)` is kept.
-/

namespace Verif.Sun

open Real Verif.Solar

/-- `_L0_A`, `_L0_B` and `_L0_C`, one row for each index (_astronomical_terms.py:14-35). -/
def tableL0 : List (ℚ × ℚ × ℚ) :=
  [(175347046, 0, 0), (3341656, 4.6692568, 6283.07585), (34894, 4.6261, 12566.1517), (3497, 2.7441, 5753.3849),
   (3418, 2.8289, 3.5231), (3136, 3.6277, 77713.7715), (2676, 4.4181, 7860.4194), (2343, 6.1352, 3930.2097),
   (1324, 0.7425, 11506.7698), (1273, 2.0371, 529.691), (1199, 1.1096, 1577.3435), (990, 5.233, 5884.927),
   (902, 2.045, 26.298), (857, 3.508, 398.149), (780, 1.179, 5223.694), (753, 2.533, 5507.553),
   (505, 4.583, 18849.228), (492, 4.205, 775.523), (357, 2.92, 0.067), (317, 5.849, 11790.629),
   (284, 1.899, 796.298), (271, 0.315, 10977.079), (243, 0.345, 5486.778), (206, 4.806, 2544.314),
   (205, 1.869, 5573.143), (202, 2.458, 6069.777), (156, 0.833, 213.299), (132, 3.411, 2942.463),
   (126, 1.083, 20.775), (115, 0.645, 0.98), (103, 0.636, 4694.003), (102, 0.976, 15720.839), (102, 4.267, 7.114),
   (99, 6.21, 2146.17), (98, 0.68, 155.42), (86, 5.98, 161000.69), (85, 1.3, 6275.96), (85, 3.67, 71430.7),
   (80, 1.81, 17260.15), (79, 3.04, 12036.46), (75, 1.76, 5088.63), (74, 3.5, 3154.69), (74, 4.68, 801.82),
   (70, 0.83, 9437.76), (62, 3.98, 8827.39), (61, 1.82, 7084.9), (57, 2.78, 6286.6), (56, 4.39, 14143.5),
   (56, 3.47, 6279.55), (52, 0.19, 12139.55), (52, 1.33, 1748.02), (51, 0.28, 5856.48), (49, 0.49, 1194.45),
   (41, 5.37, 8429.24), (41, 2.4, 19651.05), (39, 6.17, 10447.39), (37, 6.04, 10213.29), (37, 2.57, 1059.38),
   (36, 1.71, 2352.87), (36, 1.78, 6812.77), (33, 0.59, 17789.85), (30, 0.44, 83996.85), (30, 2.74, 1349.87),
   (25, 3.16, 4690.48)]

/-- `_L1_A`, `_L1_B` and `_L1_C`, one row for each index (_astronomical_terms.py:36-47). -/
def tableL1 : List (ℚ × ℚ × ℚ) :=
  [(628331966747, 0, 0), (206059, 2.678235, 6283.07585), (4303, 2.6351, 12566.1517), (425, 1.59, 3.523),
   (119, 5.796, 26.298), (109, 2.966, 1577.344), (93, 2.59, 18849.23), (72, 1.14, 529.69), (68, 1.87, 398.15),
   (67, 4.41, 5507.55), (59, 2.89, 5223.69), (56, 2.17, 155.42), (45, 0.4, 796.3), (36, 0.47, 775.52),
   (29, 2.65, 7.11), (21, 5.34, 0.98), (19, 1.85, 5486.78), (19, 4.97, 213.3), (17, 2.99, 6275.96),
   (16, 0.03, 2544.31), (16, 1.43, 2146.17), (15, 1.21, 10977.08), (12, 2.83, 1748.02), (12, 3.26, 5088.63),
   (12, 5.27, 1194.45), (12, 2.08, 4694.0), (11, 0.77, 553.57), (10, 1.3, 6286.6), (10, 4.24, 1349.87),
   (9, 2.7, 242.73), (9, 5.64, 951.72), (8, 5.3, 2352.87), (6, 2.65, 9437.76), (6, 4.67, 4690.48)]

/-- `_L2_A`, `_L2_B` and `_L2_C`, one row for each index (_astronomical_terms.py:48-54). -/
def tableL2 : List (ℚ × ℚ × ℚ) :=
  [(52919, 0, 0), (8720, 1.0721, 6283.0758), (309, 0.867, 12566.152), (27, 0.05, 3.52), (16, 5.19, 26.3),
   (16, 3.68, 155.42), (10, 0.76, 18849.23), (9, 2.06, 77713.77), (7, 0.83, 775.52), (5, 4.66, 1577.34),
   (4, 1.03, 7.11), (4, 3.44, 5573.14), (3, 5.14, 796.3), (3, 6.05, 5507.55), (3, 1.19, 242.73), (3, 6.12, 529.69),
   (3, 0.31, 398.15), (3, 2.28, 553.57), (2, 4.38, 5223.69), (2, 3.75, 0.98)]

/-- `_L3_A`, `_L3_B` and `_L3_C`, one row for each index (_astronomical_terms.py:55-57). -/
def tableL3 : List (ℚ × ℚ × ℚ) :=
  [(289, 5.844, 6283.076), (35, 0, 0), (17, 5.49, 12566.15), (3, 5.2, 155.42), (1, 4.72, 3.52), (1, 5.3, 18849.23),
   (1, 5.97, 242.73)]

/-- `_L4_A`, `_L4_B` and `_L4_C`, one row for each index (_astronomical_terms.py:58-60). -/
def tableL4 : List (ℚ × ℚ × ℚ) :=
  [(114, 3.142, 0), (8, 4.13, 6283.08), (1, 3.84, 12566.15)]

/-- `_L5_A`, `_L5_B` and `_L5_C`, one row for each index (_astronomical_terms.py:61-63). -/
def tableL5 : List (ℚ × ℚ × ℚ) :=
  [(1, 3.14, 0)]

/-- `_B0_A`, `_B0_B` and `_B0_C`, one row for each index (_astronomical_terms.py:66-68). -/
def tableB0 : List (ℚ × ℚ × ℚ) :=
  [(280, 3.199, 84334.662), (102, 5.422, 5507.553), (80, 3.88, 5223.69), (44, 3.70, 2352.87), (32, 4.0, 1577.34)]

/-- `_B1_A`, `_B1_B` and `_B1_C`, one row for each index (_astronomical_terms.py:69-71). -/
def tableB1 : List (ℚ × ℚ × ℚ) :=
  [(9, 3.90, 5507.55), (6, 1.73, 5223.69)]

/-- `_R0_A`, `_R0_B` and `_R0_C`, one row for each index (_astronomical_terms.py:74-88). -/
def tableR0 : List (ℚ × ℚ × ℚ) :=
  [(100013989, 0, 0), (1670700, 3.0984635, 6283.07585), (13956, 3.05525, 12566.1517), (3084, 5.1985, 77713.7715),
   (1628, 1.1739, 5753.3849), (1576, 2.8469, 7860.4194), (925, 5.453, 11506.77), (542, 4.564, 3930.21),
   (472, 3.661, 5884.927), (346, 0.964, 5507.553), (329, 5.9, 5223.694), (307, 0.299, 5573.143),
   (243, 4.273, 11790.629), (212, 5.847, 1577.344), (186, 5.022, 10977.079), (175, 3.012, 18849.228),
   (110, 5.055, 5486.778), (98, 0.89, 6069.78), (86, 5.69, 15720.84), (86, 1.27, 161000.69), (65, 0.27, 17260.15),
   (63, 0.92, 529.69), (57, 2.01, 83996.85), (56, 5.24, 71430.7), (49, 3.25, 2544.31), (47, 2.58, 775.52),
   (45, 5.54, 9437.76), (43, 6.01, 6275.96), (39, 5.36, 4694.0), (38, 2.39, 8827.39), (37, 0.83, 19651.05),
   (37, 4.90, 12139.55), (36, 1.67, 12036.46), (35, 1.84, 2942.46), (33, 0.24, 7084.90), (32, 0.18, 5088.63),
   (32, 1.78, 398.15), (28, 1.21, 6286.6), (28, 1.9, 6279.55), (26, 4.59, 10447.39)]

/-- `_R1_A`, `_R1_B` and `_R1_C`, one row for each index (_astronomical_terms.py:89-92). -/
def tableR1 : List (ℚ × ℚ × ℚ) :=
  [(103019, 1.10749, 6283.07585), (1721, 1.0644, 12566.1517), (702, 3.142, 0), (32, 1.02, 18849.23),
   (31, 2.84, 5507.55), (25, 1.32, 5223.69), (18, 1.42, 1577.34), (10, 5.91, 10977.08), (9, 1.42, 6275.96),
   (9, 0.27, 5486.78)]

/-- `_R2_A`, `_R2_B` and `_R2_C`, one row for each index (_astronomical_terms.py:93-95). -/
def tableR2 : List (ℚ × ℚ × ℚ) :=
  [(4359, 5.7846, 6283.0758), (124, 5.579, 12566.152), (12, 3.14, 0), (9, 3.63, 77713.77), (6, 1.87, 5573.14),
   (3, 5.47, 18849.23)]

/-- `_R3_A`, `_R3_B` and `_R3_C`, one row for each index (_astronomical_terms.py:96-98). -/
def tableR3 : List (ℚ × ℚ × ℚ) :=
  [(145, 4.273, 6283.076), (5, 3.92, 12566.15)]

/-- `_R4_A`, `_R4_B` and `_R4_C`, one row for each index (_astronomical_terms.py:99-101). -/
def tableR4 : List (ℚ × ℚ × ℚ) :=
  [(4, 2.56, 6283.08)]

/-- `_ABER_A` (_astronomical_terms.py:220-235). -/
def aberA : List (ℚ × ℚ × ℚ) :=
  [(118.568, 87.5287, 359993.7286), (2.476, 85.0561, 719987.4571), (1.376, 27.8202, 4452671.1152),
   (0.119, 73.1375, 450368.8564), (0.114, 337.2264, 329644.6718), (0.086, 222.54, 659289.3436),
   (0.078, 162.8136, 9224659.7915), (0.054, 82.5823, 1079981.1857), (0.052, 171.5189, 225184.4282),
   (0.034, 30.3214, 4092677.3866), (0.033, 119.8105, 337181.4711), (0.023, 247.5418, 299295.6151),
   (0.023, 325.1526, 315559.556), (0.021, 155.1241, 675553.2846)]

/-- `_ABER_B` (_astronomical_terms.py:237-241). -/
def aberB : List (ℚ × ℚ × ℚ) :=
  [(7.311, 333.4515, 359993.7286), (0.305, 330.9814, 719987.4571), (0.01, 328.517, 1079981.1857)]

/-- `_ABER_C` (_astronomical_terms.py:243-248). -/
def aberC : List (ℚ × ℚ × ℚ) :=
  [(0.309, 241.4518, 359993.7286), (0.21, 205.0482, 719987.4571), (0.004, 297.861, 4452671.1152),
   (0.01, 154.7066, 359993.7286)]

noncomputable section

/-- `round(x, self._ROUNDING_PLACES)` (line 57). A tie goes up here and to even in the library. -/
def round12 (x : ℝ) : ℝ := (round (x * 10 ^ 12) : ℝ) / 10 ^ 12

/-- `_sigma` over three lists with the function `a * cos(b + c * tm)` (lines 1356-1384, 799, 826 and 848). The three
lists of each table have the same length. -/
def series (T : List (ℚ × ℚ × ℚ)) (tm : ℝ) : ℝ := (T.map fun r => (r.1 : ℝ) * cos (r.2.1 + r.2.2 * tm)).sum

/-- The exact longitude in radians inside of `_heliocentric_ecliptical_longitude` (lines 799-806). -/
def helioLongitudeRaw (tm : ℝ) : ℝ :=
  Solar.poly tm [series tableL0 tm, series tableL1 tm, series tableL2 tm, series tableL3 tm, series tableL4 tm,
    series tableL5 tm] / 10 ^ 8

/-- `_heliocentric_ecliptical_longitude` with `degrees=False` (lines 783-808). -/
def helioLongitude (tm : ℝ) : ℝ := round12 (helioLongitudeRaw tm)

/-- The exact latitude in radians inside of `_heliocentric_ecliptical_latitude` (lines 826-829). -/
def helioLatitudeRaw (tm : ℝ) : ℝ := Solar.poly tm [series tableB0 tm, series tableB1 tm] / 10 ^ 8

/-- `_heliocentric_ecliptical_latitude` with `degrees=False` (lines 810-831). -/
def helioLatitude (tm : ℝ) : ℝ := round12 (helioLatitudeRaw tm)

/-- The exact distance inside of `_radius_vector` (lines 848-854). -/
def radiusRaw (tm : ℝ) : ℝ :=
  Solar.poly tm [series tableR0 tm, series tableR1 tm, series tableR2 tm, series tableR3 tm, series tableR4 tm] / 10 ^ 8

/-- `_radius_vector` with `degrees=False` (lines 833-856). -/
def radius (tm : ℝ) : ℝ := round12 (radiusRaw tm)

/-- One of the loops of `_aberration` without the power of the time (lines 940-947). -/
def aberSum (T : List (ℚ × ℚ × ℚ)) (tm : ℝ) : ℝ := (T.map fun r => radians r.1 * sinDeg (r.2.1 + r.2.2 * tm)).sum

/-- `_aberration` (lines 919-951); `_decimal_from_dms(0, 0, s)` is `s / 3600` (lines 1037-1076). -/
def aberration (tm : ℝ) (fixed : Bool) : ℝ :=
  round12 (-0.005775518 * radius tm *
    ((if fixed then 3548.193 else 3548.33) + aberSum aberA tm + tm * aberSum aberB tm + tm ^ 2 * aberSum aberC tm) / 3600)

/-- `_julian_millennia` (julian_period.py:43-51). -/
def julianMillennia (jde : ℝ) : ℝ := (jde - 2451545) / 365250

/-- The sum of the longitude, the corrections, the nutation and the aberration (lines 874-881). -/
def longitudeSum (tm : ℝ) : ℝ :=
  helioLongitude tm + π - radians 2.5091666666666666e-05 + nutationLongitude (tm * 10) + aberration tm true

/-- `_apparent_solar_longitude` (lines 858-886). -/
def apparentLongitude (jde : ℝ) (deg : Bool) : ℝ :=
  round12 (if deg then coterminal (degrees (longitudeSum (julianMillennia jde))) else longitudeSum (julianMillennia jde))

/-- `b1` (line 909). -/
def latitudeAngle (jde : ℝ) : ℝ :=
  Solar.poly (julianMillennia jde * 10) [apparentLongitude jde false, -1.397, -0.00031]

/-- The latitude in radians (lines 905-912). -/
def latitudeSum (jde : ℝ) : ℝ :=
  helioLatitude (julianMillennia jde) * (-1) +
    radians 0.000010877777777777778 * (cos (latitudeAngle jde) - sin (latitudeAngle jde))

/-- `_apparent_solar_latitude` (lines 888-917). -/
def apparentLatitude (jde : ℝ) (deg : Bool) : ℝ :=
  round12 (if deg then coterminal (degrees (latitudeSum jde)) else latitudeSum jde)

end

end Verif.Sun
