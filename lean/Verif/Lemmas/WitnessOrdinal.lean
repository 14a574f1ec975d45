import Mathlib.Order.Interval.Finset.Basic
import Mathlib.Data.Int.Interval
import Verif.Lemmas.Ordinal

/-!
# A witness for the assumptions on the sunsets of the first days of the years
-/

namespace Verif

/-- Sunset at 18:14:24 local mean time, but at 18:00 when the last day of year -1843 begins, and at 17:45:36 on
the eves of the first days of the years -1796, -1792 and -1788. -/
def newYearSun : Astro := ⟨fun j _ _ =>
  if 1721499 < j ∧ j < 1721500 then 75 / 100
  else if (1738302 < j ∧ j < 1738303) ∨ (1739763 < j ∧ j < 1739764) ∨ (1741224 < j ∧ j < 1741225) then 74 / 100
  else 76 / 100⟩

theorem newYearSun_tehran : TehranEvening newYearSun := by
  intro D _ _
  unfold sunsetTime newYearSun
  simp only
  split_ifs <;> norm_num

theorem localMidnight_tehran {D : ℤ} (h0 : 1721000 ≤ D) (h1 : D ≤ 2820000) :
    (D : ℚ) - 1 < localMidnight tehranLon D ∧ localMidnight tehranLon D < D := by
  have q0 : (1721000 : ℚ) ≤ D := by exact_mod_cast h0
  have q1 : (D : ℚ) ≤ 2820000 := by exact_mod_cast h1
  have l0 := lonFracT_lo; have l1 := lonFracT_hi
  unfold lonFracT at l0 l1
  unfold localMidnight
  have hmid : fl ((D : ℚ) - 1 / 2) = D - 1 / 2 := by
    have : (D : ℚ) - 1 / 2 = ((2 * D - 1 : ℤ) : ℚ) / 2 := by push_cast; ring
    rw [this]; apply fl_half
    rw [abs_le]; constructor <;> norm_num <;> omega
  rw [hmid]
  have e1 := abs_le.mp (fl_err_le (x := (D : ℚ) - 1 / 2 - fl (tehranLon / 360)) (B := 4194304)
    (abs_le.mpr ⟨by linarith, by linarith⟩))
  constructor <;> linarith

theorem newYearSun_time {D : ℤ} (h0 : 1721000 ≤ D) (h1 : D ≤ 2820000) :
    sunsetTime newYearSun tehranLat tehranLon D = if D = 1721500 then 75 / 100
      else if D = 1738303 ∨ D = 1739764 ∨ D = 1741225 then 74 / 100 else 76 / 100 := by
  obtain ⟨a, b⟩ := localMidnight_tehran h0 h1
  have key : ∀ E : ℤ, ((E : ℚ) - 1 < localMidnight tehranLon D ∧ localMidnight tehranLon D < E) ↔ D = E := by
    intro E
    constructor
    · rintro ⟨u, v⟩
      have x : (D : ℚ) < ((E + 1 : ℤ) : ℚ) := by push_cast; linarith
      have y : (E : ℚ) < ((D + 1 : ℤ) : ℚ) := by push_cast; linarith
      have x := Int.cast_lt.mp x
      have y := Int.cast_lt.mp y
      omega
    · rintro rfl
      exact ⟨a, b⟩
  have k0 := key 1721500
  have k1 := key 1738303
  have k2 := key 1739764
  have k3 := key 1741225
  norm_num at k0 k1 k2 k3
  unfold sunsetTime newYearSun
  simp only [k0, k1, k2, k3]

theorem ssOf_newYearSun {D : ℤ} (h0 : 1721000 ≤ D) (h1 : D ≤ 2820000) :
    |ssOf newYearSun tehranLat tehranLon D - (D - 1 / 2 - lonFracT +
      sunsetTime newYearSun tehranLat tehranLon D)| ≤ 1 / 500000000 := by
  have h := newYearSun_tehran D h0 h1
  exact (ssOf_spec lonT_abs h0 h1 ⟨by linarith [h.1], by linarith [h.2]⟩).2

theorem newYearSun_order : NewYearOrder (Cal.init newYearSun) := by
  intro y j0 j h0 h
  rw [base_jd newYearSun_tehran] at h0
  injection h0 with h0
  have hy : -1843 ≤ y ∧ y ≤ 1162 := by
    unfold Cal.jdFromBadiDateDefault Cal.jdFromBadiDate at h
    cases hc : (Cal.init newYearSun).checkShort ⟨y, 1, 1, []⟩ with
    | error e => rw [hc, pyErr_bind] at h; cases h
    | ok u => have := checkShort_inv hc; exact ⟨this.1, this.2.1⟩
  rw [nr_jd (C := Cal.init newYearSun) newYearSun_tehran hy.1 hy.2] at h
  injection h with h
  change nrJd newYearSun y = j at h
  rw [← h0, ← h, fract_ssE newYearSun_tehran (by omega) (by omega)]
  obtain ⟨nf, n0, n1⟩ := nrJd_bounds newYearSun_tehran hy.1 hy.2
  have hfl : ⌊nrJd newYearSun y⌋ = ysInt y + 1721423 := by rw [Int.floor_eq_iff]; constructor <;> linarith
  have hfr : Int.fract (nrJd newYearSun y) = nrJd newYearSun y - ((ysInt y + 1721423 : ℤ) : ℚ) := by
    unfold Int.fract; rw [hfl]
  rw [hfr]
  have hM : histDay y (nrN y) = nrN y + iLookup (nrN y) iMeeusTable + getDayCoeff y := rfl
  have hY : ysInt y + 1721423 = nrN y + getDayCoeff y := by unfold ysInt nrN; ring
  have hb := nrN_bounds hy.1 hy.2
  have bm := iMeeus_bounds (nrN y)
  have bc := getDayCoeff_cases y
  have e1 := abs_le.mp (ssOf_newYearSun (D := histDay y (nrN y)) (by omega) (by omega))
  have e0 := abs_le.mp (ssOf_newYearSun (D := 1721500) (by omega) (by omega))
  rw [newYearSun_time (by omega) (by omega), if_pos rfl] at e0
  rw [newYearSun_time (by omega) (by omega)] at e1
  have hbase : ssE newYearSun 1721500 = ssOf newYearSun tehranLat tehranLon 1721500 := by
    unfold ssE
    rw [show iLookup 1721500 iMeeusTable = 0 by decide +kernel]
    simp
  rw [hbase]
  have hn : nrJd newYearSun y = ssOf newYearSun tehranLat tehranLon (histDay y (nrN y))
    - iLookup (nrN y) iMeeusTable := rfl
  have hMq : ((histDay y (nrN y) : ℤ) : ℚ) = ((ysInt y + 1721423 : ℤ) : ℚ) + (iLookup (nrN y) iMeeusTable : ℚ) := by
    rw [hM, hY]; push_cast; ring
  have hday : (histDay y (nrN y) = 1738303 ∨ histDay y (nrN y) = 1739764 ∨ histDay y (nrN y) = 1741225 ↔
      y = -1796 ∨ y = -1792 ∨ y = -1788) ∧ histDay y (nrN y) ≠ 1721500 := by
    by_cases c : y ≤ -1787
    · have key : ∀ t ∈ Finset.Icc (-1843 : ℤ) (-1787), (histDay t (nrN t) = 1738303 ∨ histDay t (nrN t) = 1739764 ∨
          histDay t (nrN t) = 1741225 ↔ t = -1796 ∨ t = -1792 ∨ t = -1788) ∧ histDay t (nrN t) ≠ 1721500 := by
        decide +kernel
      exact key y (by simp; omega)
    · have m := ysInt_mono (a := -1787) (b := y) (by omega) (by omega) (by omega)
      have : ysInt (-1787) = 20167 := by decide +kernel
      omega
  rw [if_neg hday.2] at e1
  simp only [hday.1] at e1
  by_cases c : y = -1796 ∨ y = -1792 ∨ y = -1788
  · rw [if_pos c] at e1
    refine ⟨fun _ => c, fun _ => ?_⟩
    push_cast at *
    linarith
  · rw [if_neg c] at e1
    refine ⟨fun hh => ?_, fun hh => absurd hh c⟩
    exfalso
    push_cast at *
    linarith

end Verif
