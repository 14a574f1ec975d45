import Verif.Lemmas.SeasonTable
import Verif.Lemmas.SeasonLength
import Verif.Props.Gregorian
import Verif.Props.Solar

/-!
# C78 and C79: the equinoxes and solstices

`_find_moment_of_equinoxes_or_solstices` (base_calendar.py:1002-1035) in exact real arithmetic.
-/

namespace Verif

/-- `e` is the moment that the library gives for the season `lam` (0, 90, 180 or 270) of the Gregorian year `g`, asked from any
Julian day of that year, at Greenwich. The number `jde` stands for the float that it holds for the dynamical time of the season,
from which it computes ΔT; a day of error in it would not matter. -/
def IsSeason (g lam : ℤ) (e : ℝ) : Prop :=
  ∃ (jd : ℚ) (jde : ℚ), gregorianYearFromJd jd = g ∧ |(jde : ℝ) - Solar.seasonJde g lam| ≤ 1 ∧ e = Solar.findSeason jd lam 0 jde

theorem IsSeason.near {g lam : ℤ} {e : ℝ} (h : IsSeason g lam e) (h0 : 1 ≤ g) (h1 : g ≤ 3005) :
    |e - Solar.seasonJde g lam| ≤ 0.0000037 := by
  obtain ⟨jd, jde, hy, hj, he⟩ := h
  have n := abs_le.mp (Solar.seasonJde_near g lam)
  obtain ⟨r0, r1⟩ := Solar.approx_range (lam := lam) h0 h1
  have r0' : (1721100 : ℝ) ≤ (Solar.approxSeason g lam : ℚ) := by exact_mod_cast r0
  have r1' : ((Solar.approxSeason g lam : ℚ) : ℝ) ≤ 2819900 := by exact_mod_cast r1
  rw [abs_le] at hj
  have q0 : (1720998 : ℝ) ≤ jde := by linarith [hj.1, n.1]
  have q1 : (jde : ℝ) ≤ 2820002 := by linarith [hj.2, n.2]
  have d := Solar.deltaT_abs (jd := jde) (by exact_mod_cast q0) (by exact_mod_cast q1)
  rw [he]
  unfold Solar.findSeason
  rw [hy]
  rw [abs_le] at d ⊢
  constructor <;> linarith [d.1, d.2]

theorem IsSeason.approx {g lam : ℤ} {e : ℝ} (h : IsSeason g lam e) (h0 : 1 ≤ g) (h1 : g ≤ 3005) :
    |e - (Solar.approxSeason g lam : ℚ)| ≤ 0.02071 := by
  have a := abs_le.mp (h.near h0 h1)
  have n := abs_le.mp (Solar.seasonJde_near g lam)
  rw [abs_le]
  constructor <;> linarith [a.1, a.2, n.1, n.2]

/-- Every season of every year exists. -/
theorem isSeason_exists {g lam : ℤ} {jd : ℚ} (h : gregorianYearFromJd jd = g) : ∃ e : ℝ, IsSeason g lam e := by
  obtain ⟨q, hq⟩ := exists_rat_near (Solar.seasonJde g lam) (show (0 : ℝ) < 1 by norm_num)
  exact ⟨_, jd, q, h, by rw [abs_sub_comm]; exact hq.le, rfl⟩

/-- C78: the seasons of the years 1 to 3004 follow each other. Spring and summer last between 91.8 and 94.2 days, autumn and
winter between 88.5 and 90.8. -/
theorem C78_seasons {g : ℤ} (h0 : 1 ≤ g) (h1 : g ≤ 3004) {e1 e2 e3 e4 e5 : ℝ} (s1 : IsSeason g Solar.spring e1)
    (s2 : IsSeason g Solar.summer e2) (s3 : IsSeason g Solar.autumn e3) (s4 : IsSeason g Solar.winter e4)
    (s5 : IsSeason (g + 1) Solar.spring e5) :
    (91.8 ≤ e2 - e1 ∧ e2 - e1 ≤ 94.2) ∧ (91.8 ≤ e3 - e2 ∧ e3 - e2 ≤ 94.2) ∧ (88.5 ≤ e4 - e3 ∧ e4 - e3 ≤ 90.8) ∧
    (88.5 ≤ e5 - e4 ∧ e5 - e4 ≤ 90.8) := by
  have a1 := abs_le.mp (s1.approx h0 (by omega))
  have a2 := abs_le.mp (s2.approx h0 (by omega))
  have a3 := abs_le.mp (s3.approx h0 (by omega))
  have a4 := abs_le.mp (s4.approx h0 (by omega))
  have a5 := abs_le.mp (s5.approx (by omega) (by omega))
  obtain ⟨⟨b1, b2⟩, ⟨b3, b4⟩, ⟨b5, b6⟩⟩ := Solar.approx_lengths (g := g) h0 (by omega)
  obtain ⟨b7, b8⟩ := Solar.approx_next (g := g) h0 h1
  have c1 := Solar.castGe b1 (B := 91.94) (by norm_num)
  have c2 := Solar.castLe b2 (B := 93.98) (by norm_num)
  have c3 := Solar.castGe b3 (B := 92.33) (by norm_num)
  have c4 := Solar.castLe b4 (B := 94.06) (by norm_num)
  have c5 := Solar.castGe b5 (B := 88.66) (by norm_num)
  have c6 := Solar.castLe b6 (B := 90.67) (by norm_num)
  have c7 := Solar.castGe b7 (B := 88.6) (by norm_num)
  have c8 := Solar.castLe b8 (B := 90.3) (by norm_num)
  push_cast at c1 c2 c3 c4 c5 c6 c7 c8
  refine ⟨⟨?_, ?_⟩, ⟨?_, ?_⟩, ⟨?_, ?_⟩, ⟨?_, ?_⟩⟩ <;>
    linarith [a1.1, a1.2, a2.1, a2.2, a3.1, a3.2, a4.1, a4.2, a5.1, a5.2]

/-- C78: the same season of the next year comes 365.2422 days later, give or take 63 minutes. -/
theorem C78_year {g lam : ℤ} (h0 : 1 ≤ g) (h1 : g ≤ 3004) {e e' : ℝ} (s : IsSeason g lam e) (s' : IsSeason (g + 1) lam e') :
    |e' - e - 365.2422| ≤ 63 / 1440 := by
  have a := abs_le.mp (s.approx h0 (by omega))
  have a' := abs_le.mp (s'.approx (by omega) (by omega))
  have b := Solar.approx_year (lam := lam) h0 h1
  have c := abs_le.mp (Solar.castAbs b (B := 0.001) (by norm_num))
  push_cast at c
  rw [abs_le]
  constructor <;> norm_num at * <;> linarith [a.1, a.2, a'.1, a'.2, c.1, c.2]

/-- The seasons of 2024 and the spring of 2025. -/
example : (∃ e, IsSeason 2024 Solar.spring e) ∧ (∃ e, IsSeason 2024 Solar.summer e) ∧ (∃ e, IsSeason 2024 Solar.autumn e) ∧
    (∃ e, IsSeason 2024 Solar.winter e) ∧ (∃ e, IsSeason (2024 + 1) Solar.spring e) :=
  have h : gregorianYearFromJd 2460400 = 2024 := by decide +kernel
  ⟨isSeason_exists h, isSeason_exists h, isSeason_exists h, isSeason_exists h,
    isSeason_exists (jd := 2460700) (by decide +kernel)⟩

/-- C79: at the moment that the library gives for a season of the years 1 to 3004, the apparent longitude of the sun that the
library computes is 0, 90, 180 or 270 degrees, to within 0.0102 degrees; the sun needs a quarter of an hour for that. -/
theorem C79_longitude {g lam : ℤ} (h0 : 1 ≤ g) (h1 : g ≤ 3004)
    (hl : lam = Solar.spring ∨ lam = Solar.summer ∨ lam = Solar.autumn ∨ lam = Solar.winter) {e : ℝ} (s : IsSeason g lam e) :
    ∃ k : ℤ, |Solar.sunApparentLongitude (Solar.julianCenturies e) - lam - 360 * k| ≤ 0.0102 := by
  have all := Solar.checkSeasons_all h0 h1
  unfold Solar.checkSeasons at all
  simp only [Bool.and_eq_true] at all
  have ck : Solar.checkSeason g lam = true := by
    rcases hl with rfl | rfl | rfl | rfl
    · exact all.1.1.1
    · exact all.1.1.2
    · exact all.1.2
    · exact all.2
  have n := abs_le.mp (s.near h0 (by omega))
  obtain ⟨c, -, -⟩ := Solar.checkSeason_sound ck (T := Solar.julianCenturies e) (by
    unfold Solar.julianCenturies
    rw [abs_le]
    constructor <;> linarith [n.1, n.2])
  obtain ⟨k, hk⟩ := Solar.longitude_eq (Solar.julianCenturies e)
  change _ = Solar.fullLongitude _ - _ at hk
  refine ⟨g - 1999 - k, ?_⟩
  rw [hk]
  push_cast
  rw [abs_le] at c ⊢
  constructor <;> linarith [c.1, c.2]

/-- The autumn of the year 622. -/
example : ∃ e, IsSeason 622 Solar.autumn e := isSeason_exists (jd := 1948440) (by decide +kernel)

end Verif
