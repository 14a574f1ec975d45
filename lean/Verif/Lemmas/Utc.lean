import Verif.Lemmas.Convert

/-!
# Helper lemmas: the sunset before an instant (Tehran)
-/

namespace Verif

/-- Near a local midnight the civil day is one of the two. -/
theorem civilDay_two {x lf : ℚ} {D : ℤ} (hx0 : 0 ≤ x) (hx : x ≤ 4000000) (hl : |lf| ≤ 1 / 2)
    (h1 : D + 1 / 100000000 ≤ x + lf + 1 / 2)
    (h2 : x + lf + 1 / 2 ≤ D + 2 - 1 / 100000000) :
    civilDay x lf = D ∨ civilDay x lf = D + 1 := by
  unfold civilDay
  have ha := abs_le.mp hl
  have e1 := abs_le.mp (fl_err_le (x := x + lf) (B := 4194304)
    (abs_le.mpr ⟨by linarith, by linarith⟩))
  have e2 := abs_le.mp (fl_err_le (x := fl (x + lf) + 1 / 2) (B := 4194304 * 2)
    (abs_le.mpr ⟨by linarith, by linarith⟩))
  have a : D ≤ ⌊fl (fl (x + lf) + 1 / 2)⌋ := by rw [Int.le_floor]; linarith
  have b : ⌊fl (fl (x + lf) + 1 / 2)⌋ < D + 2 := by rw [Int.floor_lt]; push_cast; linarith
  omega

/-- The historic JD of an instant. -/
theorem hist_of {x : ℚ} (h0 : 1721050 ≤ x) (h1 : x ≤ 2819800) {N : ℤ}
    (hN0 : (N : ℚ) - 1 / 2 ≤ x) (hN1 : x < N + 1 / 2)
    (hg : ¬ (2299149 ≤ N ∧ N ≤ 2299158)) :
    ∃ h, meeusFromExact x = .ok h ∧ fl (h + 0) = h ∧ fl (h + (-1)) = h - 1 ∧
      |h - (x + iLookup N iMeeusTable)| ≤ 1 / 1000000000 := by
  have hfl : ⌊x + 1 / 2⌋ = N := by rw [Int.floor_eq_iff]; constructor <;> linarith
  have bm := iMeeus_bounds N
  have b0 : (0 : ℚ) ≤ iLookup N iMeeusTable := by exact_mod_cast bm.1
  have b1 : (iLookup N iMeeusTable : ℚ) ≤ 12 := by exact_mod_cast bm.2
  have er := fl_err_le (x := x + iLookup N iMeeusTable) (B := 4194304)
    (abs_le.mpr ⟨by linarith, by linarith⟩)
  have era := abs_le.mp er
  refine ⟨fl (x + iLookup N iMeeusTable), ?_, ?_, ?_, er.trans (by norm_num)⟩
  · unfold meeusFromExact
    rw [lookup_floor _ _ meeusTable_eq, hfl, if_neg]
    rintro ⟨a, b⟩
    apply hg
    have a' : ((2299148 : ℤ) : ℚ) < N := by push_cast; norm_num at a; linarith
    have b' : (N : ℚ) < ((2299159 : ℤ) : ℚ) := by push_cast; norm_num at b; linarith
    have a' := Int.cast_lt.mp a'
    have b' := Int.cast_lt.mp b'
    omega
  · rw [add_zero, fl_idem]
  · have := fl_sub_small (isF64_fl (x + iLookup N iMeeusTable)) 1 (by norm_num) (by norm_num)
      (by linarith) (by linarith)
    push_cast at this
    rw [← sub_eq_add_neg]; exact this

theorem hist_err {x : ℚ} {N : ℤ} (hN0 : (N : ℚ) - 1 / 2 ≤ x) (hN1 : x < N + 1 / 2)
    (hg : 2299149 ≤ N ∧ N ≤ 2299158) : meeusFromExact x = .error .value := by
  unfold meeusFromExact
  rw [if_pos]
  have a : (2299149 : ℚ) ≤ N := by exact_mod_cast hg.1
  have b : (N : ℚ) ≤ 2299158 := by exact_mod_cast hg.2
  constructor <;> norm_num <;> linarith

/-- `pickSs` when the later sunset has been reached. -/
theorem pickSs_curr {x s0 s1 : ℚ} (hx : IsF64 x) (hs : IsF64 s1) (h : s1 ≤ x) (h2 : x < s1 + 1)
    (h0 : 1048576 ≤ s1) : pickSs x s0 s1 = s1 := by
  unfold pickSs
  simp only [if_pos h]
  rw [fl_sub_jd hx hs (by linarith) h0 (by rw [abs_le]; constructor <;> linarith)]
  rw [if_neg (by linarith), if_neg (by linarith)]

/-- `pickSs` when the later sunset has not been reached. -/
theorem pickSs_prev {x s0 s1 : ℚ} (hx : IsF64 x) (hs : IsF64 s0) (h : x < s1) (h2 : s0 ≤ x)
    (h3 : x < s0 + 100) (h0 : 1048576 ≤ s0) :
    pickSs x s0 s1 = if 1 ≤ x - s0 then fl (s0 + 1) else s0 := by
  unfold pickSs
  simp only [if_neg (not_le.mpr h)]
  rw [fl_sub_jd hx hs (by linarith) h0 (by rw [abs_le]; constructor <;> linarith)]
  rw [if_neg (by linarith)]

/-! ### The cases by the civil day of the instant

`P` is the civil day whose sunset starts the current day: `ssE A P ≤ x < ssE A (P + 1)`. -/

section
variable {A : Astro} {C : Cal} {x : ℚ} {P : ℤ}

/-- Between sunset and local midnight. -/
theorem utc_evening (hE : TehranEvening A) (hC : C.astro = A) (hx : IsF64 x)
    (hP0 : 1721100 ≤ P) (hP1 : P ≤ 2819700) (h0 : ssE A P ≤ x)
    (hq : x + lonFracT + 1 / 2 ≤ P + 1 - 1 / 50000000)
    (hg : ¬ (2299149 ≤ P ∧ P ≤ 2299158)) :
    C.utcToBadiTime x tehranLat tehranLon =
      if P - 1 ∈ changeDays then .error .value else .ok (ssE A P, fl (x - ssE A P)) := by
  subst hC
  have hP0q : (1721100 : ℚ) ≤ P := by exact_mod_cast hP0
  have hP1q : (P : ℚ) ≤ 2819700 := by exact_mod_cast hP1
  obtain ⟨sf, s0, s1⟩ := ssE_bounds hE (P := P) (by omega) (by omega)
  have l0 := lonFracT_lo; have l1 := lonFracT_hi
  obtain ⟨h, m1, m2, m3, m4⟩ := hist_of (x := x) (by linarith) (by linarith) (N := P)
    (by linarith) (by linarith) hg
  have m4 := abs_le.mp m4
  have bm := iMeeus_bounds P
  have b0 : (0 : ℚ) ≤ iLookup P iMeeusTable := by exact_mod_cast bm.1
  have b1 : (iLookup P iMeeusTable : ℚ) ≤ 12 := by exact_mod_cast bm.2
  have c1 : civilDay h (fl (tehranLon / 360)) = P + iLookup P iMeeusTable := by
    unfold lonFracT at l0 l1 hq
    apply civilDay_eq (by linarith) (by linarith) lonT_abs <;> push_cast <;> linarith
  have c0 : civilDay (h - 1) (fl (tehranLon / 360)) = P - 1 + iLookup P iMeeusTable := by
    unfold lonFracT at l0 l1 hq
    apply civilDay_eq (by linarith) (by linarith) lonT_abs <;> push_cast <;> linarith
  split_ifs with hk
  · apply utc_err1 m1
    rw [m3, c0, exact_ss hE (by omega) (by omega), if_pos]
    have := (invalid_pred hk).1
    rwa [show P - 1 + 1 = P by ring] at this
  · have hv : P - 1 + iLookup P iMeeusTable ∉ iInvalid := by
      apply valid_pred
      intro K hK e
      apply hk
      rw [e, show K + 1 - 1 = K by ring]; exact hK
    have e1 := exact_ssE hE (P := P) (by omega) (by omega) hg
    have e0 := exact_ss hE (D := P - 1 + iLookup P iMeeusTable) (by omega) (by omega)
    rw [if_neg hv] at e0
    rw [utc_core m1 (by rw [m3, c0]; exact e0) (by rw [m2, c1]; exact e1),
      pickSs_curr hx sf h0 (by linarith) (by linarith)]

/-- Between local midnight and midnight UT. -/
theorem utc_night (hE : TehranEvening A) (hC : C.astro = A) (hx : IsF64 x)
    (hP0 : 1721100 ≤ P) (hP1 : P ≤ 2819700)
    (hq : (P : ℚ) + 1 + 1 / 50000000 ≤ x + lonFracT + 1 / 2) (hq1 : x < P + 1 / 2)
    (hg : ¬ (2299149 ≤ P ∧ P ≤ 2299158)) :
    C.utcToBadiTime x tehranLat tehranLon =
      if P ∈ changeDays then .error .value else .ok (ssE A P, fl (x - ssE A P)) := by
  subst hC
  have hP0q : (1721100 : ℚ) ≤ P := by exact_mod_cast hP0
  have hP1q : (P : ℚ) ≤ 2819700 := by exact_mod_cast hP1
  obtain ⟨sf, s0, s1⟩ := ssE_bounds hE (P := P) (by omega) (by omega)
  obtain ⟨tf, t0, t1⟩ := ssE_bounds hE (P := P + 1) (by omega) (by omega)
  push_cast at t0 t1
  have l0 := lonFracT_lo; have l1 := lonFracT_hi
  obtain ⟨h, m1, m2, m3, m4⟩ := hist_of (x := x) (by linarith) (by linarith) (N := P)
    (by linarith) (by linarith) hg
  have m4 := abs_le.mp m4
  have bm := iMeeus_bounds P
  have b0 : (0 : ℚ) ≤ iLookup P iMeeusTable := by exact_mod_cast bm.1
  have b1 : (iLookup P iMeeusTable : ℚ) ≤ 12 := by exact_mod_cast bm.2
  have c1 : civilDay h (fl (tehranLon / 360)) = P + 1 + iLookup P iMeeusTable := by
    unfold lonFracT at l0 l1 hq
    apply civilDay_eq (by linarith) (by linarith) lonT_abs <;> push_cast <;> linarith
  have c0 : civilDay (h - 1) (fl (tehranLon / 360)) = P + iLookup P iMeeusTable := by
    unfold lonFracT at l0 l1 hq
    apply civilDay_eq (by linarith) (by linarith) lonT_abs <;> push_cast <;> linarith
  have e0 := exact_ssE hE (P := P) (by omega) (by omega) hg
  have e1 := exact_ss hE (D := P + 1 + iLookup P iMeeusTable) (by omega) (by omega)
  split_ifs with hk
  · rw [if_pos (invalid_pred hk).2] at e1
    exact utc_err2 m1 (by rw [m3, c0]; exact e0) (by rw [m2, c1]; exact e1)
  · by_cases hr : P = 2299148
    · subst hr
      have i1 : iLookup 2299148 iMeeusTable = 12 := by decide
      rw [i1] at e1
      rw [if_neg (by decide)] at e1
      have i2 : iLookup (2299148 + 1 + 12) iExactTable = 2 := by decide
      rw [i2] at e1
      obtain ⟨_, r0, r1⟩ := ssOf_tehran (A := C.astro) (D := 2299148 + 1 + 12)
        (by unfold eraFirst; omega) (by unfold eraLast; omega) hE
      rw [utc_core m1 (by rw [m3, c0]; exact e0) (by rw [m2, c1, i1]; exact e1),
        pickSs_prev hx sf (by push_cast at *; linarith) (by push_cast at *; linarith)
          (by push_cast at *; linarith) (by push_cast at *; linarith),
        if_neg (by push_cast at *; linarith)]
    · have hkk : ∀ K ∈ changeDays, P + 1 ≠ K + 1 := by
        intro K hK e
        apply hk
        rw [show P = K by omega]; exact hK
      have i0 := iMeeus_pred hkk (by omega)
      rw [show P + 1 - 1 = P by ring] at i0
      have e1 := exact_ssE hE (P := P + 1) (by omega) (by omega) (by omega)
      rw [utc_core m1 (by rw [m3, c0]; exact e0) (by rw [m2, c1, i0]; exact e1),
        pickSs_prev hx sf (by linarith) (by linarith) (by linarith) (by linarith),
        if_neg (by linarith)]

/-- Between midnight UT and the next sunset. -/
theorem utc_day (hE : TehranEvening A) (hC : C.astro = A) (hx : IsF64 x)
    (hP0 : 1721100 ≤ P) (hP1 : P ≤ 2819700) (hq : (P : ℚ) + 1 / 2 ≤ x) (h1 : x < ssE A (P + 1))
    (hg : ¬ (2299149 ≤ P + 1 ∧ P + 1 ≤ 2299158)) (hr : P ≠ 2299158) :
    C.utcToBadiTime x tehranLat tehranLon =
      if P ∈ changeDays then .error .value
      else if 1 ≤ x - ssE A P then .ok (fl (ssE A P + 1), fl (x - fl (ssE A P + 1)))
      else .ok (ssE A P, fl (x - ssE A P)) := by
  subst hC
  have hP0q : (1721100 : ℚ) ≤ P := by exact_mod_cast hP0
  have hP1q : (P : ℚ) ≤ 2819700 := by exact_mod_cast hP1
  obtain ⟨sf, s0, s1⟩ := ssE_bounds hE (P := P) (by omega) (by omega)
  obtain ⟨tf, t0, t1⟩ := ssE_bounds hE (P := P + 1) (by omega) (by omega)
  push_cast at t0 t1
  have l0 := lonFracT_lo; have l1 := lonFracT_hi
  obtain ⟨h, m1, m2, m3, m4⟩ := hist_of (x := x) (by linarith) (by linarith) (N := P + 1)
    (by push_cast; linarith) (by push_cast; linarith) hg
  have m4 := abs_le.mp m4
  have bm := iMeeus_bounds (P + 1)
  have b0 : (0 : ℚ) ≤ iLookup (P + 1) iMeeusTable := by exact_mod_cast bm.1
  have b1 : (iLookup (P + 1) iMeeusTable : ℚ) ≤ 12 := by exact_mod_cast bm.2
  have c1 : civilDay h (fl (tehranLon / 360)) = P + 1 + iLookup (P + 1) iMeeusTable := by
    unfold lonFracT at l0 l1
    apply civilDay_eq (by linarith) (by linarith) lonT_abs <;> push_cast <;> linarith
  have c0 : civilDay (h - 1) (fl (tehranLon / 360)) = P + iLookup (P + 1) iMeeusTable := by
    unfold lonFracT at l0 l1
    apply civilDay_eq (by linarith) (by linarith) lonT_abs <;> push_cast <;> linarith
  have e1 := exact_ssE hE (P := P + 1) (by omega) (by omega) hg
  have e0 := exact_ss hE (D := P + iLookup (P + 1) iMeeusTable) (by omega) (by omega)
  by_cases hk : P ∈ changeDays
  · rw [if_pos hk]
    rw [if_pos (invalid_pred hk).1] at e0
    exact utc_err1 m1 (by rw [m3, c0]; exact e0)
  · rw [if_neg hk]
    have hkk : ∀ K ∈ changeDays, P + 1 ≠ K + 1 := by
      intro K hK e
      apply hk
      rw [show P = K by omega]; exact hK
    have i0 := iMeeus_pred hkk (by omega)
    rw [show P + 1 - 1 = P by ring] at i0
    have e0 := exact_ssE hE (P := P) (by omega) (by omega) (by omega)
    rw [utc_core m1 (by rw [m3, c0, ← i0]; exact e0) (by rw [m2, c1]; exact e1),
      pickSs_prev hx sf h1 (by linarith) (by linarith) (by linarith)]
    split_ifs <;> rfl

/-- The day after the reform gap, before its first sunset: the code uses a sunset ten days too
early. -/
theorem utc_reform (hE : TehranEvening A) (hC : C.astro = A) (hx : IsF64 x)
    (hq : (2299158 : ℚ) + 1 / 2 ≤ x) (h1 : x < ssE A 2299159) :
    C.utcToBadiTime x tehranLat tehranLon =
      .ok (fl (ssE A 2299148 + 1), fl (x - fl (ssE A 2299148 + 1))) := by
  subst hC
  obtain ⟨sf, s0, s1⟩ := ssE_bounds hE (P := 2299148) (by omega) (by omega)
  obtain ⟨tf, t0, t1⟩ := ssE_bounds hE (P := 2299159) (by omega) (by omega)
  push_cast at s0 s1 t0 t1
  have l0 := lonFracT_lo; have l1 := lonFracT_hi
  obtain ⟨h, m1, m2, m3, m4⟩ := hist_of (x := x) (by linarith) (by linarith) (N := 2299159)
    (by push_cast; linarith) (by push_cast; linarith) (by omega)
  have i1 : iLookup 2299159 iMeeusTable = 2 := by decide
  rw [i1] at m4
  have m4 := abs_le.mp m4
  push_cast at m4
  have c1 : civilDay h (fl (tehranLon / 360)) = 2299159 + iLookup 2299159 iMeeusTable := by
    rw [i1]
    unfold lonFracT at l0 l1
    apply civilDay_eq (by linarith) (by linarith) lonT_abs <;> push_cast <;> linarith
  have c0 : civilDay (h - 1) (fl (tehranLon / 360)) = 2299148 + iLookup 2299148 iMeeusTable := by
    have : iLookup 2299148 iMeeusTable = 12 := by decide
    rw [this]
    unfold lonFracT at l0 l1
    apply civilDay_eq (by linarith) (by linarith) lonT_abs <;> push_cast <;> linarith
  have e1 := exact_ssE hE (P := 2299159) (by omega) (by omega) (by omega)
  have e0 := exact_ssE hE (P := 2299148) (by omega) (by omega) (by omega)
  rw [utc_core m1 (by rw [m3, c0]; exact e0) (by rw [m2, c1]; exact e1),
    pickSs_prev hx sf h1 (by linarith) (by linarith) (by linarith), if_pos (by linarith)]

/-- Within about a millisecond of local midnight. -/
theorem utc_midnight (hE : TehranEvening A) (hC : C.astro = A) (hx : IsF64 x)
    (hP0 : 1721100 ≤ P) (hP1 : P ≤ 2819700)
    (hq : |x + lonFracT + 1 / 2 - (P + 1)| ≤ 1 / 50000000)
    (hg : ¬ (2299149 ≤ P ∧ P ≤ 2299158)) :
    (C.utcToBadiTime x tehranLat tehranLon = .error .value ∧ (P - 1 ∈ changeDays ∨ P ∈ changeDays))
    ∨ C.utcToBadiTime x tehranLat tehranLon = .ok (ssE A P, fl (x - ssE A P))
    ∨ (C.utcToBadiTime x tehranLat tehranLon =
        .ok (fl (ssE A (P - 1) + 1), fl (x - fl (ssE A (P - 1) + 1)))
        ∧ P = 2097144) := by
  subst hC
  have hq := abs_le.mp hq
  have hP0q : (1721100 : ℚ) ≤ P := by exact_mod_cast hP0
  have hP1q : (P : ℚ) ≤ 2819700 := by exact_mod_cast hP1
  obtain ⟨sf, s0, s1⟩ := ssE_bounds hE (P := P) (by omega) (by omega)
  obtain ⟨tf, t0, t1⟩ := ssE_bounds hE (P := P + 1) (by omega) (by omega)
  obtain ⟨uf, u0, u1⟩ := ssE_bounds hE (P := P - 1) (by omega) (by omega)
  push_cast at t0 t1 u0 u1
  have l0 := lonFracT_lo; have l1 := lonFracT_hi
  obtain ⟨h, m1, m2, m3, m4⟩ := hist_of (x := x) (by linarith) (by linarith) (N := P)
    (by linarith) (by linarith) hg
  have m4 := abs_le.mp m4
  have bm := iMeeus_bounds P
  have b0 : (0 : ℚ) ≤ iLookup P iMeeusTable := by exact_mod_cast bm.1
  have b1 : (iLookup P iMeeusTable : ℚ) ≤ 12 := by exact_mod_cast bm.2
  have c1 : civilDay h (fl (tehranLon / 360)) = P + iLookup P iMeeusTable ∨
      civilDay h (fl (tehranLon / 360)) = P + iLookup P iMeeusTable + 1 := by
    unfold lonFracT at l0 l1 hq
    apply civilDay_two (by linarith) (by linarith) lonT_abs <;> push_cast <;> linarith
  have c0 : civilDay (h - 1) (fl (tehranLon / 360)) = P - 1 + iLookup P iMeeusTable ∨
      civilDay (h - 1) (fl (tehranLon / 360)) = P - 1 + iLookup P iMeeusTable + 1 := by
    unfold lonFracT at l0 l1 hq
    apply civilDay_two (by linarith) (by linarith) lonT_abs <;> push_cast <;> linarith
  have eP := exact_ssE hE (P := P) (by omega) (by omega) hg
  have ePm := exact_ss hE (D := P - 1 + iLookup P iMeeusTable) (by omega) (by omega)
  have ePp := exact_ss hE (D := P + 1 + iLookup P iMeeusTable) (by omega) (by omega)
  by_cases hkm : P - 1 ∈ changeDays
  · -- one of the sunsets is on an invalid day, unless the earlier one is not looked at
    have hv := (invalid_pred hkm).1
    rw [show P - 1 + 1 = P by ring] at hv
    rw [if_pos hv] at ePm
    rcases c0 with c0 | c0
    · exact Or.inl ⟨utc_err1 m1 (by rw [m3, c0]; exact ePm), Or.inl hkm⟩
    · have hkp : P ∉ changeDays := by
        intro hk
        have : ∀ K ∈ changeDays, K + 1 ∉ changeDays := by decide
        have := this _ hkm
        rw [show P - 1 + 1 = P by ring] at this
        exact this hk
      rw [show P - 1 + iLookup P iMeeusTable + 1 = P + iLookup P iMeeusTable by ring] at c0
      right; left
      rcases c1 with c1 | c1
      · rw [utc_core m1 (by rw [m3, c0]; exact eP) (by rw [m2, c1]; exact eP),
          pickSs_curr hx sf (by linarith) (by linarith) (by linarith)]
      · rw [show P + iLookup P iMeeusTable + 1 = P + 1 + iLookup P iMeeusTable by ring] at c1
        have i0 := iMeeus_pred (N := P + 1) (fun K hK e => hkp (by
          rw [show P = K by omega]; exact hK)) (by
          intro e
          have : ∀ K ∈ changeDays, K + 1 ≠ 2299148 := by decide
          have := this _ hkm
          omega)
        rw [show P + 1 - 1 = P by ring] at i0
        have e1 := exact_ssE hE (P := P + 1) (by omega) (by omega) (by
          have : ∀ K ∈ changeDays, K < 2299000 := by decide
          have := this _ hkm
          omega)
        rw [utc_core m1 (by rw [m3, c0]; exact eP) (by rw [m2, c1, i0]; exact e1),
          pickSs_prev hx sf (by linarith) (by linarith) (by linarith) (by linarith),
          if_neg (by linarith)]
  · have hvm : P - 1 + iLookup P iMeeusTable ∉ iInvalid := by
      apply valid_pred
      intro K hK e
      apply hkm
      rw [e, show K + 1 - 1 = K by ring]; exact hK
    rw [if_neg hvm] at ePm
    rcases c1 with c1 | c1
    · right; left
      rcases c0 with c0 | c0
      · rw [utc_core m1 (by rw [m3, c0]; exact ePm) (by rw [m2, c1]; exact eP),
          pickSs_curr hx sf (by linarith) (by linarith) (by linarith)]
      · rw [show P - 1 + iLookup P iMeeusTable + 1 = P + iLookup P iMeeusTable by ring] at c0
        rw [utc_core m1 (by rw [m3, c0]; exact eP) (by rw [m2, c1]; exact eP),
          pickSs_curr hx sf (by linarith) (by linarith) (by linarith)]
    · rw [show P + iLookup P iMeeusTable + 1 = P + 1 + iLookup P iMeeusTable by ring] at c1
      by_cases hk : P ∈ changeDays
      · left
        refine ⟨?_, Or.inr hk⟩
        rw [if_pos (invalid_pred hk).2] at ePp
        rcases c0 with c0 | c0
        · exact utc_err2 m1 (by rw [m3, c0]; exact ePm) (by rw [m2, c1]; exact ePp)
        · rw [show P - 1 + iLookup P iMeeusTable + 1 = P + iLookup P iMeeusTable by ring] at c0
          exact utc_err2 m1 (by rw [m3, c0]; exact eP) (by rw [m2, c1]; exact ePp)
      · right
        have hkp : ∀ K ∈ changeDays, P + 1 ≠ K + 1 := by
          intro K hK e
          apply hk
          rw [show P = K by omega]; exact hK
        have e1 : ∃ s1, exactFromMeeus (ssOf C.astro tehranLat tehranLon
            (P + 1 + iLookup P iMeeusTable)) = .ok s1 ∧ x < s1 := by
          by_cases hr : P = 2299148
          · subst hr
            have i1 : iLookup 2299148 iMeeusTable = 12 := by decide
            have i2 : iLookup (2299148 + 1 + 12) iExactTable = 2 := by decide
            rw [i1] at ePp ⊢
            rw [if_neg (by decide), i2] at ePp
            obtain ⟨_, r0, r1⟩ := ssOf_tehran (A := C.astro) (D := 2299148 + 1 + 12)
              (by unfold eraFirst; omega) (by unfold eraLast; omega) hE
            exact ⟨_, ePp, by push_cast at *; linarith⟩
          · have i0 := iMeeus_pred hkp (by omega)
            rw [show P + 1 - 1 = P by ring] at i0
            have e1 := exact_ssE hE (P := P + 1) (by omega) (by omega) (by omega)
            exact ⟨_, by rw [i0]; exact e1, by linarith⟩
        obtain ⟨s1, e1, hs1⟩ := e1
        rcases c0 with c0 | c0
        · -- only possible where the spacing of the floats changes
          right
          have hwin : ¬ ((1048580 ≤ h ∧ h ≤ 2097151 + 1 / 2) ∨ (2097153 + 3 / 10 ≤ h ∧ h ≤ 4194300)) := by
            intro hw
            unfold lonFracT at l0 l1
            have := civilDay_pred_tehran (lf := fl (tehranLon / 360)) (by linarith) (by linarith) hw
            rw [c0, c1] at this
            omega
          have hw : 2097151 + 1 / 2 < h ∧ h < 2097153 + 3 / 10 := by
            push Not at hwin
            refine ⟨hwin.1 (by linarith), ?_⟩
            by_contra hc
            have := hwin.2 (by linarith)
            linarith
          have hp : P = 2097144 := by
            have p0 : ((2097130 : ℤ) : ℚ) < P := by push_cast; linarith
            have p1 : (P : ℚ) < ((2097160 : ℤ) : ℚ) := by push_cast; linarith
            have p0 := Int.cast_lt.mp p0
            have p1 := Int.cast_lt.mp p1
            have i8 : iLookup P iMeeusTable = 8 := by
              have all : ∀ k : ℕ, k < 30 → iLookup (2097130 + k) iMeeusTable = 8 := by decide
              have := all (P - 2097130).toNat (by omega)
              rwa [Int.toNat_of_nonneg (by omega), show 2097130 + (P - 2097130) = P by ring] at this
            rw [i8] at m4
            push_cast at m4
            have p2 : ((2097143 : ℤ) : ℚ) < P := by push_cast; linarith
            have p3 : (P : ℚ) < ((2097145 : ℤ) : ℚ) := by push_cast; linarith
            have p2 := Int.cast_lt.mp p2
            have p3 := Int.cast_lt.mp p3
            omega
          have i0 := iMeeus_pred (N := P) (fun K hK e => hkm (by
            rw [e, show K + 1 - 1 = K by ring]; exact hK)) (by omega)
          have e0 := exact_ssE hE (P := P - 1) (by omega) (by omega) (by omega)
          refine ⟨?_, hp⟩
          rw [utc_core m1 (by rw [m3, c0, ← i0]; exact e0) (by rw [m2, c1]; exact e1),
            pickSs_prev hx uf hs1 (by linarith) (by linarith) (by linarith),
            if_pos (by linarith)]
        · left
          rw [show P - 1 + iLookup P iMeeusTable + 1 = P + iLookup P iMeeusTable by ring] at c0
          rw [utc_core m1 (by rw [m3, c0]; exact eP) (by rw [m2, c1]; exact e1),
            pickSs_prev hx sf hs1 (by linarith) (by linarith) (by linarith),
            if_neg (by linarith)]

end

end Verif
