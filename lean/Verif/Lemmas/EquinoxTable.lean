import Verif.Lemmas.EquinoxTable1
import Verif.Lemmas.EquinoxTable2

/-!
# Every year after the reform
-/

namespace Verif.Solar

/-- The time from the midnight of the day `D` to the spring equinox of the year `g`. -/
def equinoxPart (g D : ℤ) : ℚ := seasonNear g spring - 2451545 - dayPart D

theorem checkYear_all {y : ℤ} (h0 : -260 ≤ y) (h1 : y ≤ 1161) : checkYear y (getDayCoeff y) = true := by
  rcases lt_or_ge y (-171) with c | c
  · exact coeffPart years_0 (by push_cast; omega) (by push_cast; omega) h1
  replace h0 := c
  clear c
  rcases lt_or_ge y (-82) with c | c
  · exact coeffPart years_1 (by push_cast; omega) (by push_cast; omega) h1
  replace h0 := c
  clear c
  rcases lt_or_ge y 7 with c | c
  · exact coeffPart years_2 (by push_cast; omega) (by push_cast; omega) h1
  replace h0 := c
  clear c
  rcases lt_or_ge y 96 with c | c
  · exact coeffPart years_3 (by push_cast; omega) (by push_cast; omega) h1
  replace h0 := c
  clear c
  rcases lt_or_ge y 185 with c | c
  · exact coeffPart years_4 (by push_cast; omega) (by push_cast; omega) h1
  replace h0 := c
  clear c
  rcases lt_or_ge y 274 with c | c
  · exact coeffPart years_5 (by push_cast; omega) (by push_cast; omega) h1
  replace h0 := c
  clear c
  rcases lt_or_ge y 363 with c | c
  · exact coeffPart years_6 (by push_cast; omega) (by push_cast; omega) h1
  replace h0 := c
  clear c
  rcases lt_or_ge y 452 with c | c
  · exact coeffPart years_7 (by push_cast; omega) (by push_cast; omega) h1
  replace h0 := c
  clear c
  rcases lt_or_ge y 541 with c | c
  · exact coeffPart years_8 (by push_cast; omega) (by push_cast; omega) h1
  replace h0 := c
  clear c
  rcases lt_or_ge y 630 with c | c
  · exact coeffPart years_9 (by push_cast; omega) (by push_cast; omega) h1
  replace h0 := c
  clear c
  rcases lt_or_ge y 719 with c | c
  · exact coeffPart years_10 (by push_cast; omega) (by push_cast; omega) h1
  replace h0 := c
  clear c
  rcases lt_or_ge y 808 with c | c
  · exact coeffPart years_11 (by push_cast; omega) (by push_cast; omega) h1
  replace h0 := c
  clear c
  rcases lt_or_ge y 897 with c | c
  · exact coeffPart years_12 (by push_cast; omega) (by push_cast; omega) h1
  replace h0 := c
  clear c
  rcases lt_or_ge y 986 with c | c
  · exact coeffPart years_13 (by push_cast; omega) (by push_cast; omega) h1
  replace h0 := c
  clear c
  rcases lt_or_ge y 1075 with c | c
  · exact coeffPart years_14 (by push_cast; omega) (by push_cast; omega) h1
  replace h0 := c
  clear c
  exact coeffPart years_15 (by push_cast; omega) (by push_cast; omega) h1

end Verif.Solar
