import Verif.Lemmas.YearTable

/-!
# Helper lemmas: the calendar state built at import time
-/

namespace Verif

theorem pyOk_bind {α β : Type} (a : α) (f : α → Py β) : (Except.ok a >>= f : Py β) = f a := rfl
theorem pyErr_bind {α β : Type} (e : PyErr) (f : α → Py β) :
    (Except.error e >>= f : Py β) = .error e := rfl

theorem pyAssert_true {p : Prop} [Decidable p] (h : p) : pyAssert p = .ok () := by
  simp [pyAssert, h]

theorem pyAssert_false {p : Prop} [Decidable p] (h : ¬ p) : pyAssert p = .error .assertion := by
  simp [pyAssert, h]

theorem epochFloor : ⌊fl (badiEpoch + 1)⌋ = 2394644 := by decide +kernel

theorem decimalDay_zero : decimalDayFromHms 0 0 0 0 = .ok 0 := by
  simp [decimalDayFromHms, pyMod1, fl_zero]

/-- The day `M` of the sunset that starts a date, in historical numbering. -/
def histDay (y N : ℤ) : ℤ := N + iLookup N iMeeusTable + getDayCoeff y

theorem jd_int {C : Cal} (hE : TehranEvening C.astro) {y m d days : ℤ}
    (hchk : C.checkShort ⟨y, m, d, []⟩ = .ok ()) (hdays : C.daysBefore y m = .ok days)
    {N : ℤ} (hN : N = daysInYears (y - 1) + 2394644 + days + d)
    (h0 : eraFirst + 10 ≤ N) (h1 : N ≤ eraLast - 20)
    (hg : ¬ (2299149 ≤ N ∧ N ≤ 2299158)) (hv : histDay y N ∉ iInvalid) :
    C.jdFromBadiDateDefault ⟨y, m, d, []⟩ =
      .ok (ssOf C.astro tehranLat tehranLon (histDay y N)
        - iLookup (histDay y N) iExactTable) := by
  have e0 : eraFirst = 1721000 := rfl
  have e1 : eraLast = 2820000 := rfl
  have bm := iMeeus_bounds N
  have be := iExact_bounds (histDay y N)
  have bc := getDayCoeff_cases y
  have hM : histDay y N = N + iLookup N iMeeusTable + getDayCoeff y := rfl
  have hM0 : eraFirst ≤ histDay y N := by omega
  have hM1 : histDay y N ≤ eraLast := by omega
  obtain ⟨hf, hs0, hs1⟩ := ssOf_tehran hM0 hM1 hE
  have hMq0 : (1721000 : ℚ) ≤ histDay y N := by exact_mod_cast hM0
  have hMq1 : (histDay y N : ℚ) ≤ 2820000 := by exact_mod_cast hM1
  have ebe : (iLookup (histDay y N) iExactTable : ℚ) ≤ 12 := by exact_mod_cast be.2
  unfold Cal.jdFromBadiDateDefault Cal.jdFromBadiDate
  rw [hchk, pyOk_bind]
  simp only [getHms, List.getD_nil]
  rw [hdays, pyOk_bind, epochFloor]
  have hjd : fl (((daysInYears (y - 1) + 2394644 + days : ℤ) : ℚ) + (d : ℚ)) = (N : ℚ) := by
    have : ((daysInYears (y - 1) + 2394644 + days : ℤ) : ℚ) + (d : ℚ) = (N : ℚ) := by
      rw [hN]; push_cast; ring
    rw [this]; apply fl_int; rw [abs_le]; constructor <;> norm_num <;> omega
  rw [hjd, meeus_int (le_refl _) (by linarith), if_neg hg, pyOk_bind]
  have hj0 : fl ((N : ℚ) + (iLookup N iMeeusTable : ℚ))
      = ((N + iLookup N iMeeusTable : ℤ) : ℚ) := by
    rw [← Int.cast_add]; apply fl_int; rw [abs_le]; constructor <;> norm_num <;> omega
  have hj1 : fl (((N + iLookup N iMeeusTable : ℤ) : ℚ) + (getDayCoeff y : ℚ))
      = ((histDay y N : ℤ) : ℚ) := by
    rw [← Int.cast_add, hM]; apply fl_int; rw [abs_le]; constructor <;> norm_num <;> omega
  rw [hj0, hj1, sunSetting_eq]
  have l0 := lonFracT_lo; have l1 := lonFracT_hi
  have hc : civilDay ((histDay y N : ℤ) : ℚ) (fl (tehranLon / 360)) = histDay y N := by
    unfold lonFracT at l0 l1
    apply civilDay_eq _ _ lonT_abs <;> linarith
  rw [hc, exact_int (M := histDay y N) (by linarith) (by linarith), if_neg hv, pyOk_bind, decimalDay_zero, pyOk_bind,
    add_zero, fl_sub_small hf _ be.1 (by omega) (by linarith) (by linarith)]
  have hf2 : IsF64 (ssOf C.astro tehranLat tehranLon (histDay y N)
      - (iLookup (histDay y N) iExactTable : ℚ)) :=
    fl_sub_small hf _ be.1 (by omega) (by linarith) (by linarith)
  rw [hf2, pyRound12_id hf2]
  rw [abs_of_nonneg] <;> linarith

theorem checkTail_nrz (C : Cal) (y : ℤ) : C.checkTail y 1 1 [] = .ok () := by
  unfold Cal.checkTail
  simp [getHms, pyAssert, checkValidBadiTime, bind, Except.bind, Cal.cycleOf, checkFractions]

theorem checkShort_nrz {C : Cal} {y : ℤ} (h0 : -1843 ≤ y) (h1 : y ≤ 1162) :
    C.checkShort ⟨y, 1, ((1 : ℤ) : ℚ), []⟩ = .ok () := by
  unfold Cal.checkShort
  rw [pyAssert_true (by simp [minYear, maxYear]; omega), pyOk_bind]
  simpa using checkTail_nrz C y

/-- The exact (astronomical) JD of the sunset that starts year `y`. -/
def nrJd (A : Astro) (y : ℤ) : ℚ :=
  ssOf A tehranLat tehranLon (histDay y (nrN y)) - iLookup (nrN y) iMeeusTable

theorem nrN_bounds {y : ℤ} (h0 : -1843 ≤ y) (h1 : y ≤ 1162) :
    1721136 ≤ nrN y ∧ nrN y ≤ 2818700 := by
  unfold nrN
  have a := daysInYears_mono (show (-1844 : ℤ) ≤ y - 1 by omega)
  have b := daysInYears_mono (show y - 1 ≤ (1161 : ℤ) by omega)
  have ea : daysInYears (-1844) = -673507 := by decide
  have eb : daysInYears 1161 = 424046 := by decide
  omega

theorem nr_jd {C : Cal} (hE : TehranEvening C.astro) {y : ℤ} (h0 : -1843 ≤ y) (h1 : y ≤ 1162) :
    C.jdFromBadiDateDefault ⟨y, 1, 1, []⟩ = .ok (nrJd C.astro y) := by
  have hr := nrN_regular y
  have hl := iLookup_regular (getDayCoeff_cases y) hr
  have hb := nrN_bounds h0 h1
  have hg : ¬ (2299149 ≤ nrN y ∧ nrN y ≤ 2299158) := by
    have := hr.2; omega
  have := jd_int (C := C) hE (y := y) (m := 1) (d := 1) (days := 0) (checkShort_nrz h0 h1)
    (by simp [Cal.daysBefore]) (N := nrN y) (by unfold nrN; ring)
    (by unfold eraFirst; omega) (by unfold eraLast; omega) hg hl.1
  have e : iLookup (histDay y (nrN y)) iExactTable = iLookup (nrN y) iMeeusTable := hl.2
  rw [e] at this
  simpa [nrJd] using this

theorem nrJd_bounds {A : Astro} (hE : TehranEvening A) {y : ℤ} (h0 : -1843 ≤ y) (h1 : y ≤ 1162) :
    IsF64 (nrJd A y) ∧ ((ysInt y + 1721423 : ℤ) : ℚ) + 2 / 100 ≤ nrJd A y ∧
      nrJd A y ≤ ((ysInt y + 1721423 : ℤ) : ℚ) + 195 / 1000 := by
  have hb := nrN_bounds h0 h1
  have bm := iMeeus_bounds (nrN y)
  have bc := getDayCoeff_cases y
  have hM : histDay y (nrN y) = nrN y + iLookup (nrN y) iMeeusTable + getDayCoeff y := rfl
  have e0 : eraFirst = 1721000 := rfl
  have e1 : eraLast = 2820000 := rfl
  obtain ⟨hf, hs0, hs1⟩ := ssOf_tehran (A := A) (D := histDay y (nrN y)) (by omega) (by omega) hE
  have hMq0 : (1721000 : ℚ) ≤ histDay y (nrN y) := by
    have : 1721000 ≤ histDay y (nrN y) := by omega
    exact_mod_cast this
  have hMq1 : (histDay y (nrN y) : ℚ) ≤ 2820000 := by
    have : histDay y (nrN y) ≤ 2820000 := by omega
    exact_mod_cast this
  have hx := fl_sub_small hf _ bm.1 (by omega) (by linarith) (by linarith)
  have hys : ((ysInt y + 1721423 : ℤ) : ℚ)
      = (histDay y (nrN y) : ℚ) - (iLookup (nrN y) iMeeusTable : ℚ) := by
    rw [hM]; unfold ysInt nrN; push_cast; ring
  unfold nrJd
  rw [hys]
  exact ⟨hx, by linarith, by linarith⟩

theorem yearStartRd_eq {C : Cal} (hE : TehranEvening C.astro) {y : ℤ} (h0 : -1843 ≤ y)
    (h1 : y ≤ 1162) : C.yearStartRd y = .ok (ysInt y) := by
  unfold Cal.yearStartRd
  rw [nr_jd hE h0 h1, pyOk_bind]
  obtain ⟨hf, hs0, hs1⟩ := nrJd_bounds hE h0 h1
  have hb := nrN_bounds h0 h1
  have bc := getDayCoeff_cases y
  set j := nrJd C.astro y with hj
  have hY : ysInt y = nrN y + getDayCoeff y - 1721423 := by unfold ysInt nrN; ring
  set P := ysInt y + 1721423 with hP
  have hPq0 : (1721000 : ℚ) ≤ P := by
    have : 1721000 ≤ P := by omega
    exact_mod_cast this
  have hPq1 : (P : ℚ) ≤ 2820000 := by
    have : P ≤ 2820000 := by omega
    exact_mod_cast this
  have hfl : ⌊j⌋ = P := by rw [Int.floor_eq_iff]; constructor <;> linarith
  have hint : pyInt j = P := by unfold pyInt; rw [if_pos (by linarith), hfl]
  simp only [hint]
  have l0 := lonFracT_lo; have l1 := lonFracT_hi
  unfold lonFracT at l0 l1
  congr 1
  have a1 : fl ((P : ℚ) - prolepticGreg1stDay) = P - 1721423.5 := by
    have : (P : ℚ) - prolepticGreg1stDay = ((2 * P - 3442847 : ℤ) : ℚ) / 2 := by
      unfold prolepticGreg1stDay; push_cast; norm_num; ring
    rw [this, fl_half]
    · push_cast; norm_num; ring
    · rw [abs_le]; constructor <;> norm_num <;> omega
  have b1 := abs_le.mp (fl_err_le (x := j - (P : ℚ)) (B := 1)
    (abs_le.mpr ⟨by linarith, by linarith⟩))
  have b2 := abs_le.mp (fl_err_le (x := fl (j - (P : ℚ)) + fl (tehranLon / 360)) (B := 1)
    (abs_le.mpr ⟨by linarith, by linarith⟩))
  have b3 := abs_le.mp (fl_err_le
    (x := fl (fl (j - (P : ℚ)) + fl (tehranLon / 360)) + 1 / 2) (B := 2)
    (abs_le.mpr ⟨by linarith, by linarith⟩))
  have c1 : |fl 1e-12| ≤ 1 / 100000 := by decide +kernel
  have c1 := abs_le.mp c1
  have b4 := abs_le.mp (fl_err_le
    (x := fl (fl (fl (j - (P : ℚ)) + fl (tehranLon / 360)) + 1 / 2) + fl 1e-12) (B := 2)
    (abs_le.mpr ⟨by linarith, by linarith⟩))
  rw [a1]
  have b5 := abs_le.mp (fl_err_le
    (x := (P : ℚ) - 1721423.5 + fl (fl (fl (fl (j - (P : ℚ)) + fl (tehranLon / 360)) + 1 / 2)
      + fl 1e-12)) (B := 4000000)
    (abs_le.mpr ⟨by norm_num at *; linarith, by norm_num at *; linarith⟩))
  have hPc : (P : ℚ) = (ysInt y : ℚ) + 1721423 := by rw [hP]; push_cast; ring
  rw [Int.floor_eq_iff]
  constructor <;> norm_num at * <;> linarith

/-- The table built at import time. -/
theorem init_yearStart {A : Astro} (hE : TehranEvening A) (y : ℤ) :
    (Cal.init A).yearStart y = if -1843 ≤ y ∧ y ≤ 1162 then some (ysInt y) else none := by
  unfold Cal.init Cal.initLeapCache Cal.buildYearStart
  have e0 : minYear = -1842 := rfl
  have e1 : maxYear = 1161 := rfl
  by_cases h : -1843 ≤ y ∧ y ≤ 1162
  · simp only [if_pos (show minYear - 1 ≤ y ∧ y < maxYear + 2 by omega), if_pos h]
    rw [yearStartRd_eq (by exact hE) h.1 h.2]
  · simp only [if_neg (show ¬ (minYear - 1 ≤ y ∧ y < maxYear + 2) by omega), if_neg h]

theorem init_astro (A : Astro) : (Cal.init A).astro = A := rfl

theorem ysInt_1161 : ysInt 1161 = 1096902 := by decide +kernel
theorem ysInt_m1843 : ysInt (-1843) = -287 := by decide +kernel
theorem ysInt_1162 : ysInt 1162 = 1097268 := by decide +kernel

theorem init_rdEnd {A : Astro} (hE : TehranEvening A) : (Cal.init A).rdEnd = 1096902 := by
  have := init_yearStart hE 1161
  rw [if_pos (by omega)] at this
  have e : (Cal.init A).rdEnd = ((Cal.init A).yearStart maxYear).getD 0 := rfl
  rw [e]; simp only [maxYear]; rw [this, ysInt_1161]; rfl

theorem init_isLeap {A : Astro} (hE : TehranEvening A) {y : ℤ} (h0 : -1843 ≤ y) (h1 : y ≤ 1161) :
    (Cal.init A).isLeapYear y = .ok (ysInt (y + 1) - ysInt y == 366) := by
  unfold Cal.isLeapYear
  rw [init_yearStart hE, init_yearStart hE, if_pos (by omega), if_pos (by omega)]

theorem init_isLeap_out {A : Astro} (hE : TehranEvening A) {y : ℤ} (h : y < -1843 ∨ 1161 < y) :
    (Cal.init A).isLeapYear y = .error .key := by
  unfold Cal.isLeapYear
  rw [init_yearStart hE, init_yearStart hE]
  rcases h with h | h
  · rw [if_neg (c := -1843 ≤ y ∧ y ≤ 1162) (by omega)]
    split <;> simp_all
  · rw [if_neg (c := -1843 ≤ y + 1 ∧ y + 1 ≤ 1162) (by omega)]

end Verif
