import Verif.Lemmas.BadiGreg
import Verif.Props.Timestamp

/-!
# Property C59: `utc_sunset`
-/

namespace Verif

/-- The instant and the clock for a zone that keeps the evening of Tehran within the day. -/
theorem utcSunset_clock {A : Astro} (hE : TehranEvening A) {y m d n : ℤ} (hd : DayNumber (Cal.init A) y m d n)
    (hl : ¬ LostDate y m d) {zone : ℚ} (z0 : -12 ≤ zone) (z1 : zone ≤ 7) :
    ∃ (j : ℚ) (h mi : ℤ) (s : ℚ), (Cal.init A).jdFromBadiDate ⟨y, m, d, []⟩ tehranLat tehranLon = .ok j ∧
      (n : ℚ) + 1721423.02 ≤ j ∧ j ≤ n + 1721423.195 ∧
      (Cal.init A).utcSunset y m d tehranLat tehranLon zone = .ok (h, mi, s) ∧
      0 ≤ h ∧ h ≤ 23 ∧ 0 ≤ mi ∧ mi < 60 ∧ 0 ≤ s ∧ s < 60 ∧
      |(3600 * h + 60 * mi + s) - (86400 * (j - (n + 1721422.5)) + 3600 * zone)| ≤ 1 / 400 := by
  have hb : n + 1721423 ∉ badDays := notin_badDays hE hd (by unfold LostDate at hl; tauto) (by unfold LostDate at hl; tauto)
    (by unfold LostDate at hl; tauto)
  obtain ⟨y0, y1, n0, n1⟩ := dayNumber_year hE hd
  have q0 := ysInt_mono (le_refl (-1843)) y0 (by omega)
  have q1 := ysInt_mono (a := y + 1) (b := 1162) (by omega) (by omega) (by omega)
  rw [ysInt_m1843] at q0
  rw [ysInt_1162] at q1
  obtain ⟨sf, s0, s1⟩ := ssE_bounds hE (P := n + 1721423) (by omega) (by omega)
  have nq0 : (-287 : ℚ) ≤ n := by exact_mod_cast (by omega : -287 ≤ n)
  have nq1 : (n : ℚ) ≤ 1097300 := by exact_mod_cast (by omega : n ≤ 1097300)
  have hj := date_jd' hE hd hb
  unfold Cal.jdFromBadiDateDefault at hj
  push_cast at s0 s1
  have e1 := abs_le.mp (fl_err_le (x := zone / 24) (B := 1) (by rw [abs_le]; constructor <;> linarith))
  have e2 := abs_le.mp (fl_err_le (x := ssE A (n + 1721423) + fl (zone / 24)) (B := 4194304)
      (by rw [abs_of_nonneg (by linarith)]; linarith))
  have e3 := abs_le.mp (fl_err_le (x := fl (ssE A (n + 1721423) + fl (zone / 24)) + 1 / 2) (B := 4194304)
      (by rw [abs_of_nonneg (by linarith)]; linarith))
  have hfl : ⌊fl (fl (ssE A (n + 1721423) + fl (zone / 24)) + 1 / 2)⌋ = n + 1721423 := by
    rw [Int.floor_eq_iff]
    push_cast
    norm_num at e1 e2 e3 ⊢
    constructor <;> linarith
  have hfr : Int.fract (fl (fl (ssE A (n + 1721423) + fl (zone / 24)) + 1 / 2)) =
      fl (fl (ssE A (n + 1721423) + fl (zone / 24)) + 1 / 2) - (n + 1721423) := by
    unfold Int.fract
    rw [hfl]
    push_cast
    ring
  have hs := hms_spec (dec := fl (fl (ssE A (n + 1721423) + fl (zone / 24)) + 1 / 2)) (by linarith)
  simp only at hs
  rw [hfr] at hs
  obtain ⟨b1, b2, b3, b4, b5, b6, b7, b8, -⟩ := hs
  have b7 := abs_le.mp b7
  have b8 := b8 (by norm_num at e1 e2 e3 ⊢; linarith)
  refine ⟨_, _, _, _, hj, by norm_num; linarith, by norm_num; linarith, ?_, b1, by omega, b3, b4, b5, b6, ?_⟩
  · unfold Cal.utcSunset Cal.zoneJd
    rw [hj, pyOk_bind, pyOk_bind]
  · rw [abs_le]
    norm_num at e1 e2 e3 ⊢
    constructor <;> linarith

/-- C59, with zone zero: `utc_sunset` is the UTC time of day of the start of the date in Tehran, up to 2.5 milliseconds.
`n + 1721422.5` is the Julian Period day of midnight UTC before. Missing from the full property: other locations; for
other zones it is false (below). -/
theorem C59_zone_zero_partial (A : Astro) (hE : TehranEvening A) (y m d n : ℤ) (hd : DayNumber (Cal.init A) y m d n)
    (hl : ¬ LostDate y m d) :
    ∃ (j : ℚ) (h mi : ℤ) (s : ℚ), (Cal.init A).jdFromBadiDate ⟨y, m, d, []⟩ tehranLat tehranLon = .ok j ∧
      (Cal.init A).utcSunset y m d tehranLat tehranLon 0 = .ok (h, mi, s) ∧
      12 ≤ h ∧ h ≤ 16 ∧ 0 ≤ mi ∧ mi < 60 ∧ 0 ≤ s ∧ s < 60 ∧
      |(3600 * h + 60 * mi + s) - 86400 * (j - (n + 1721422.5))| ≤ 1 / 400 := by
  obtain ⟨j, h, mi, s, ej, j0, j1, e, h0, h1, mi0, mi1, s0, s1, hv⟩ := utcSunset_clock hE hd hl (zone := 0) (by norm_num)
    (by norm_num)
  have hv' := abs_le.mp hv
  have c1 : (0 : ℚ) ≤ mi := by exact_mod_cast mi0
  have c2 : (mi : ℚ) ≤ 59 := by exact_mod_cast (by omega : mi ≤ 59)
  norm_num at hv' j0 j1
  refine ⟨j, h, mi, s, ej, e, ?_, ?_, mi0, mi1, s0, s1, by norm_num at hv ⊢; exact hv⟩
  · have : (11 : ℚ) < h := by linarith
    have : 11 < h := by exact_mod_cast this
    omega
  · have : (h : ℚ) < 17 := by linarith
    have : h < 17 := by exact_mod_cast this
    omega

/-- A date that meets the hypotheses. -/
example : DayNumber (Cal.init newYearSun) 182 0 5 739675 ∧ ¬ LostDate 182 0 5 :=
  ⟨witness_days.1, by unfold LostDate; decide⟩

/-- C59 at the default location: what `utc_sunset` returns is not UTC but the standard time of Tehran, three and a half
hours later than UTC, on every date. -/
theorem C59_not_utc_negation (A : Astro) (hE : TehranEvening A) (y m d n : ℤ) (hd : DayNumber (Cal.init A) y m d n)
    (hl : ¬ LostDate y m d) :
    ∃ (j : ℚ) (h mi : ℤ) (s : ℚ), (Cal.init A).jdFromBadiDate ⟨y, m, d, []⟩ tehranLat tehranLon = .ok j ∧
      (Cal.init A).utcSunset y m d tehranLat tehranLon tehranZone = .ok (h, mi, s) ∧
      15 ≤ h ∧ h ≤ 20 ∧ 0 ≤ mi ∧ mi < 60 ∧ 0 ≤ s ∧ s < 60 ∧
      |(3600 * h + 60 * mi + s) - (86400 * (j - (n + 1721422.5)) + 12600)| ≤ 1 / 400 := by
  obtain ⟨j, h, mi, s, ej, j0, j1, e, h0, h1, mi0, mi1, s0, s1, hv⟩ := utcSunset_clock hE hd hl (zone := tehranZone)
    (by unfold tehranZone; norm_num) (by unfold tehranZone; norm_num)
  have hz : (3600 : ℚ) * tehranZone = 12600 := by unfold tehranZone; norm_num
  rw [hz] at hv
  have hv' := abs_le.mp hv
  have c1 : (0 : ℚ) ≤ mi := by exact_mod_cast mi0
  have c2 : (mi : ℚ) ≤ 59 := by exact_mod_cast (by omega : mi ≤ 59)
  norm_num at hv' j0 j1
  refine ⟨j, h, mi, s, ej, e, ?_, ?_, mi0, mi1, s0, s1, hv⟩
  · have : (14 : ℚ) < h := by linarith
    have : 14 < h := by exact_mod_cast this
    omega
  · have : (h : ℚ) < 21 := by linarith
    have : h < 21 := by exact_mod_cast this
    omega

/-- A date that meets the hypotheses. -/
example : DayNumber (Cal.init newYearSun) 182 0 5 739675 ∧ ¬ LostDate 182 0 5 :=
  ⟨witness_days.1, by unfold LostDate; decide⟩

end Verif
