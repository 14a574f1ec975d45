import Verif.Model.Solar

/-!
# The moments of the equinoxes and solstices (`badidatetime/base_calendar.py`)

Line numbers refer to `/repo/badidatetime/base_calendar.py`. As in `Verif/Model/Solar.lean` this is the exact reading of the
code: the operations on floats are replaced by the exact ones.
-/

namespace Verif.Solar

/-- `_SPRING`, `_SUMMER`, `_AUTUMN` and `_WINTER` (lines 50-53). -/
def spring : ℤ := 0
def summer : ℤ := 90
def autumn : ℤ := 180
def winter : ℤ := 270

/-- `_approx_julian_day_for_equinoxes_or_solstices` (lines 952-1000). -/
def approxSeason (year lam : ℤ) : ℚ :=
  if year ≤ 1000 then
    let y : ℚ := year / 1000
    if lam = spring then Verif.poly y [1721139.29189, 365242.1374, 0.06134, 0.00111, -0.00071]
    else if lam = summer then Verif.poly y [1721233.25401, 365241.72562, -0.05323, 0.00907, 0.00025]
    else if lam = autumn then Verif.poly y [1721325.70455, 365242.49558, -0.11677, -0.00297, 0.00074]
    else Verif.poly y [1721414.39987, 365242.88257, -0.00769, -0.00933, -0.00006]
  else
    let y : ℚ := (year - 2000) / 1000
    if lam = spring then Verif.poly y [2451623.80984, 365242.37404, 0.05169, -0.00411, -0.00057]
    else if lam = summer then Verif.poly y [2451716.56767, 365241.62603, 0.00325, 0.00888, -0.0003]
    else if lam = autumn then Verif.poly y [2451810.21715, 365242.01767, -0.11575, 0.00337, 0.00078]
    else Verif.poly y [2451900.05952, 365242.74049, -0.06223, -0.00823, 0.00032]

/-- `_EQ_SO_A`, `_EQ_SO_B` and `_EQ_SO_C` side by side, the way `_sigma` reads them
(_astronomical_terms.py:250-259 and lines 1356-1384). -/
def seasonTerms : List (ℚ × ℚ × ℚ) :=
  [(485, 324.96, 1934.136), (203, 337.23, 32964.467), (199, 342.08, 20.186), (182, 27.85, 445267.112),
   (156, 73.14, 45036.886), (136, 171.52, 22518.443), (77, 222.54, 65928.934), (74, 296.72, 3034.906),
   (70, 243.58, 9037.513), (58, 119.81, 33718.147), (52, 297.17, 150.678), (50, 21.02, 2281.226),
   (45, 247.54, 29929.562), (44, 325.15, 31555.956), (29, 60.93, 4443.417), (18, 155.12, 67555.328),
   (17, 288.79, 4562.452), (16, 198.04, 62894.029), (14, 199.76, 31436.921), (12, 95.39, 14577.848),
   (12, 287.11, 31931.756), (12, 320.81, 34777.259), (9, 227.73, 1222.114), (8, 15.45, 16859.074)]

noncomputable section

/-- `w` (line 1026). -/
def seasonW (tc : ℝ) : ℝ := 35999.373 * tc - 2.47

/-- `dl` (line 1027), as the code has it. -/
def seasonDl (tc : ℝ) : ℝ := 1 + 0.0334 * cosDeg (seasonW tc + 0.0007) * cosDeg (2 * seasonW tc)

/-- `s` (lines 1028-1029). -/
def seasonS (tc : ℝ) : ℝ := (seasonTerms.map (fun r => (r.1 : ℝ) * cosDeg (r.2.1 + r.2.2 * tc))).sum

/-- `jde` of `_find_moment_of_equinoxes_or_solstices` for a year (lines 1024-1030). -/
def seasonJde (year lam : ℤ) : ℝ :=
  let jde0 : ℝ := (approxSeason year lam : ℚ)
  let tc := julianCenturies jde0
  jde0 + 0.00001 * seasonS tc / seasonDl tc

/-- `_find_moment_of_equinoxes_or_solstices` (lines 1002-1035). The code computes ΔT from the float that it holds for `jde`;
here that number is the argument `jde`. The rounding to 12 places is left out. -/
def findSeason (jd : ℚ) (lam : ℤ) (zone : ℝ) (jde : ℚ) : ℝ :=
  seasonJde (gregorianYearFromJd jd) lam - (deltaT jde : ℝ) / 86400 + zone / 24

end

end Verif.Solar
