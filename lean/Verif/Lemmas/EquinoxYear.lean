import Verif.Lemmas.EquinoxDay
import Verif.Lemmas.Badi
import Verif.Props.Solar

/-!
# One year: the equinox and the sunsets around it
-/

namespace Verif.Solar

open Real

/-- The Julian day number of the day at whose sunset the year `y` starts, for years after the reform. -/
def firstDay (y : ℤ) : ℤ := ysInt y + 1721425

/-- The conditions under which the equation of the sunset of the day `D` has been derived. -/
def dayOk (D k : ℤ) : Bool :=
  decide (|lonDay (D - 1) k| ≤ 2.89) && decide (|lonDay D k| ≤ 2.89) && decide (|lonDay (D + 1) k| ≤ 2.89) &&
    decide (|side D k (lonDay (D - 1) k) (lonDay D k) (lonDay (D + 1) k) 0.755| ≤ 60)

/-- The sunset of the day `D` is not after `n` days from the midnight. -/
def beforeOk (D k : ℤ) (n : ℚ) : Bool :=
  decide (-1.5 ≤ n) && decide (n ≤ 2.5) && decide (0.042 ≤ side D k (lonDay (D - 1) k) (lonDay D k) (lonDay (D + 1) k) n)

/-- The sunset of the day `D` is not before `n` days from the midnight. -/
def afterOk (D k : ℤ) (n : ℚ) : Bool :=
  decide (-1.5 ≤ n) && decide (n ≤ 2.5) && decide (side D k (lonDay (D - 1) k) (lonDay D k) (lonDay (D + 1) k) n ≤ -0.042)

theorem tehran_trig : LatTrig (tehranLat : ℝ) := by
  have a := sinAt_near (x := (tehranLat : ℝ)) (y := tehranLat) (by rw [sub_self, abs_zero]; norm_num)
  have b := cosAt_self tehranLat
  have c : |sinAt tehranLat - 0.583461| ≤ 0.0000018 := by decide +kernel
  have d : |cosAt tehranLat - 0.812141| ≤ 0.0000018 := by decide +kernel
  have c' : |((sinAt tehranLat : ℚ) : ℝ) - 0.583461| ≤ 0.0000018 := by
    have := castAbs (B := 0.0000018) c (by norm_num)
    push_cast at this
    exact this
  have d' : |((cosAt tehranLat : ℚ) : ℝ) - 0.812141| ≤ 0.0000018 := by
    have := castAbs (B := 0.0000018) d (by norm_num)
    push_cast at this
    exact this
  rw [abs_le] at a b c' d'
  unfold LatTrig
  constructor <;> rw [abs_le] <;> constructor <;> linarith [a.1, a.2, b.1, b.2, c'.1, c'.2, d'.1, d'.2]

theorem tehran_lon : |((tehranLon : ℚ) : ℝ) - 51.288701| ≤ 0.000001 := by
  have c : |tehranLon - 51.288701| ≤ 0.000001 := by decide +kernel
  have := castAbs (B := 0.000001) c (by norm_num)
  push_cast at this
  exact this

theorem tehran_midnight {D : ℤ} (h0 : eraFirst ≤ D) (h1 : D ≤ eraLast) :
    |((localMidnight tehranLon D : ℚ) : ℝ) - (dayPart D + 2451545)| ≤ 0.0000011 := by
  obtain ⟨-, -, -, h⟩ := localMidnight_near (lon := tehranLon) (by decide +kernel) h0 h1
  have l := tehran_lon
  have hd : ((dayPart D : ℚ) : ℝ) = D - 1 / 2 - 51.288701 / 360 - 2451545 := by unfold dayPart; push_cast; ring
  rw [hd]
  rw [abs_le] at *
  constructor <;> linarith [h.1, h.2, l.1, l.2]

/-- The moment of the sunset of the day `D` at Tehran, by the exact reading of the algorithm. -/
noncomputable def tehranSunset (D : ℤ) : ℝ :=
  (localMidnight tehranLon D : ℝ) + risingSetting (localMidnight tehranLon D) tehranLat tehranLon sunOffset true

theorem tehranSunset_before {D k : ℤ} (h0 : eraFirst ≤ D) (h1 : D ≤ eraLast) (hd : dayOk D k = true) {n : ℚ}
    (hn : beforeOk D k n = true) : tehranSunset D ≤ dayPart D + 2451545 + n + 0.0000289 := by
  simp only [dayOk, beforeOk, Bool.and_eq_true, decide_eq_true_eq] at hd hn
  obtain ⟨⟨⟨d1, d2⟩, d3⟩, d4⟩ := hd
  obtain ⟨⟨n1, n2⟩, n3⟩ := hn
  have := sunset_before (localMidnight_near (lon := tehranLon) (by decide +kernel) h0 h1)
    (by have : |tehranLat| ≤ 36 := by decide +kernel
        exact_mod_cast this) tehran_trig tehran_lon d1 d2 d3 d4 n1 n2 n3
  have m := abs_le.mp (tehran_midnight h0 h1)
  unfold tehranSunset
  linarith [m.1, m.2]

theorem tehranSunset_after {D k : ℤ} (h0 : eraFirst ≤ D) (h1 : D ≤ eraLast) (hd : dayOk D k = true) {n : ℚ}
    (hn : afterOk D k n = true) : dayPart D + 2451545 + n - 0.0000289 ≤ tehranSunset D := by
  simp only [dayOk, afterOk, Bool.and_eq_true, decide_eq_true_eq] at hd hn
  obtain ⟨⟨⟨d1, d2⟩, d3⟩, d4⟩ := hd
  obtain ⟨⟨n1, n2⟩, n3⟩ := hn
  have := sunset_after (localMidnight_near (lon := tehranLon) (by decide +kernel) h0 h1)
    (by have : |tehranLat| ≤ 36 := by decide +kernel
        exact_mod_cast this) tehran_trig tehran_lon d1 d2 d3 d4 n1 n2 n3
  have m := abs_le.mp (tehran_midnight h0 h1)
  unfold tehranSunset
  linarith [m.1, m.2]

end Verif.Solar
