import Verif.Lemmas.YearFromRd
import Verif.Lemmas.Forms

/-!
# Helper lemmas: the day a date falls on
-/

namespace Verif

/-! ### The two JD conversions on whole days -/

/-- A small shift that does not cross a change keeps the difference. -/
theorem iMeeus_shift {N c : ℤ} (hc : c = 0 ∨ c = -1 ∨ c = -2) (hN : Regular N) :
    iLookup (N + c) iMeeusTable = iLookup N iMeeusTable := by
  rw [regular_iff] at hN
  rcases meeus_cases N with h | h | h | h | h | h | h | h | h | h | h | h | h | h
  · obtain ⟨a, e⟩ := h
    rw [e]; exact (iMeeus_region _).1 (by omega)
  · obtain ⟨a, b, e⟩ := h
    rw [e]; exact (iMeeus_region _).2.1 (by omega) (by omega)
  · obtain ⟨a, b, e⟩ := h
    rw [e]; exact (iMeeus_region _).2.2.1 (by omega) (by omega)
  · obtain ⟨a, b, e⟩ := h
    rw [e]; exact (iMeeus_region _).2.2.2.1 (by omega) (by omega)
  · obtain ⟨a, b, e⟩ := h
    rw [e]; exact (iMeeus_region _).2.2.2.2.1 (by omega) (by omega)
  · obtain ⟨a, b, e⟩ := h
    rw [e]; exact (iMeeus_region _).2.2.2.2.2.1 (by omega) (by omega)
  · obtain ⟨a, b, e⟩ := h
    rw [e]; exact (iMeeus_region _).2.2.2.2.2.2.1 (by omega) (by omega)
  · obtain ⟨a, b, e⟩ := h
    rw [e]; exact (iMeeus_region _).2.2.2.2.2.2.2.1 (by omega) (by omega)
  · obtain ⟨a, b, e⟩ := h
    rw [e]; exact (iMeeus_region _).2.2.2.2.2.2.2.2.1 (by omega) (by omega)
  · obtain ⟨a, b, e⟩ := h
    rw [e]; exact (iMeeus_region _).2.2.2.2.2.2.2.2.2.1 (by omega) (by omega)
  · obtain ⟨a, b, e⟩ := h
    rw [e]; exact (iMeeus_region _).2.2.2.2.2.2.2.2.2.2.1 (by omega) (by omega)
  · obtain ⟨a, b, e⟩ := h
    rw [e]; exact (iMeeus_region _).2.2.2.2.2.2.2.2.2.2.2.1 (by omega) (by omega)
  · obtain ⟨a, b, e⟩ := h
    rw [e]; exact (iMeeus_region _).2.2.2.2.2.2.2.2.2.2.2.2.1 (by omega) (by omega)
  · obtain ⟨a, e⟩ := h
    rw [e]; exact (iMeeus_region _).2.2.2.2.2.2.2.2.2.2.2.2.2 (by omega)

/-- Every exact day outside the reform gap has a valid historic day, and the way back uses the same
difference. -/
theorem exact_of_meeus {N : ℤ} (hN : ¬ (2299149 ≤ N ∧ N ≤ 2299158)) :
    N + iLookup N iMeeusTable ∉ iInvalid ∧
    iLookup (N + iLookup N iMeeusTable) iExactTable = iLookup N iMeeusTable := by
  rw [iInvalid_mem]
  rcases meeus_cases N with h | h | h | h | h | h | h | h | h | h | h | h | h | h
  · obtain ⟨a, e⟩ := h
    rw [e]; exact ⟨by omega, (iExact_region _).1 (by omega)⟩
  · obtain ⟨a, b, e⟩ := h
    rw [e]; exact ⟨by omega, (iExact_region _).2.1 (by omega) (by omega)⟩
  · obtain ⟨a, b, e⟩ := h
    rw [e]; exact ⟨by omega, (iExact_region _).2.2.1 (by omega) (by omega)⟩
  · obtain ⟨a, b, e⟩ := h
    rw [e]; exact ⟨by omega, (iExact_region _).2.2.2.1 (by omega) (by omega)⟩
  · obtain ⟨a, b, e⟩ := h
    rw [e]; exact ⟨by omega, (iExact_region _).2.2.2.2.1 (by omega) (by omega)⟩
  · obtain ⟨a, b, e⟩ := h
    rw [e]; exact ⟨by omega, (iExact_region _).2.2.2.2.2.1 (by omega) (by omega)⟩
  · obtain ⟨a, b, e⟩ := h
    rw [e]; exact ⟨by omega, (iExact_region _).2.2.2.2.2.2.1 (by omega) (by omega)⟩
  · obtain ⟨a, b, e⟩ := h
    rw [e]; exact ⟨by omega, (iExact_region _).2.2.2.2.2.2.2.1 (by omega) (by omega)⟩
  · obtain ⟨a, b, e⟩ := h
    rw [e]; exact ⟨by omega, (iExact_region _).2.2.2.2.2.2.2.2.1 (by omega) (by omega)⟩
  · obtain ⟨a, b, e⟩ := h
    rw [e]; exact ⟨by omega, (iExact_region _).2.2.2.2.2.2.2.2.2.1 (by omega) (by omega)⟩
  · obtain ⟨a, b, e⟩ := h
    rw [e]; exact ⟨by omega, (iExact_region _).2.2.2.2.2.2.2.2.2.2.1 (by omega) (by omega)⟩
  · obtain ⟨a, b, e⟩ := h
    rw [e]; exact ⟨by omega, (iExact_region _).2.2.2.2.2.2.2.2.2.2.2.1 (by omega) (by omega)⟩
  · obtain ⟨a, b, e⟩ := h
    rw [e]; exact ⟨by omega, (iExact_region _).2.2.2.2.2.2.2.2.2.2.2.2.1 (by omega) (by omega)⟩
  · obtain ⟨a, e⟩ := h
    rw [e]; exact ⟨by omega, (iExact_region _).2.2.2.2.2.2.2.2.2.2.2.2.2 (by omega)⟩

/-- The difference at the day before is the same, except right after a change. -/
theorem iMeeus_pred {N : ℤ} (h : ∀ K ∈ changeDays, N ≠ K + 1) (hN : N ≠ 2299149) :
    iLookup (N - 1) iMeeusTable = iLookup N iMeeusTable := by
  simp only [changeDays, List.mem_cons, List.not_mem_nil, or_false, forall_eq_or_imp,
    forall_eq] at h
  rcases meeus_cases N with h | h | h | h | h | h | h | h | h | h | h | h | h | h
  · obtain ⟨a, e⟩ := h
    rw [e]; exact (iMeeus_region _).1 (by omega)
  · obtain ⟨a, b, e⟩ := h
    rw [e]; exact (iMeeus_region _).2.1 (by omega) (by omega)
  · obtain ⟨a, b, e⟩ := h
    rw [e]; exact (iMeeus_region _).2.2.1 (by omega) (by omega)
  · obtain ⟨a, b, e⟩ := h
    rw [e]; exact (iMeeus_region _).2.2.2.1 (by omega) (by omega)
  · obtain ⟨a, b, e⟩ := h
    rw [e]; exact (iMeeus_region _).2.2.2.2.1 (by omega) (by omega)
  · obtain ⟨a, b, e⟩ := h
    rw [e]; exact (iMeeus_region _).2.2.2.2.2.1 (by omega) (by omega)
  · obtain ⟨a, b, e⟩ := h
    rw [e]; exact (iMeeus_region _).2.2.2.2.2.2.1 (by omega) (by omega)
  · obtain ⟨a, b, e⟩ := h
    rw [e]; exact (iMeeus_region _).2.2.2.2.2.2.2.1 (by omega) (by omega)
  · obtain ⟨a, b, e⟩ := h
    rw [e]; exact (iMeeus_region _).2.2.2.2.2.2.2.2.1 (by omega) (by omega)
  · obtain ⟨a, b, e⟩ := h
    rw [e]; exact (iMeeus_region _).2.2.2.2.2.2.2.2.2.1 (by omega) (by omega)
  · obtain ⟨a, b, e⟩ := h
    rw [e]; exact (iMeeus_region _).2.2.2.2.2.2.2.2.2.2.1 (by omega) (by omega)
  · obtain ⟨a, b, e⟩ := h
    rw [e]; exact (iMeeus_region _).2.2.2.2.2.2.2.2.2.2.2.1 (by omega) (by omega)
  · obtain ⟨a, b, e⟩ := h
    rw [e]; exact (iMeeus_region _).2.2.2.2.2.2.2.2.2.2.2.2.1 (by omega) (by omega)
  · obtain ⟨a, e⟩ := h
    rw [e]; exact (iMeeus_region _).2.2.2.2.2.2.2.2.2.2.2.2.2 (by omega)

/-- Right after a change the historic number of the day before is an invalid day. -/
theorem invalid_pred {K : ℤ} (h : K ∈ changeDays) :
    K + iLookup (K + 1) iMeeusTable ∈ iInvalid ∧ K + 1 + iLookup K iMeeusTable ∈ iInvalid := by
  simp only [changeDays, List.mem_cons, List.not_mem_nil, or_false] at h
  rcases h with rfl | rfl | rfl | rfl | rfl | rfl | rfl | rfl | rfl | rfl | rfl | rfl <;> decide

/-- Otherwise the historic number of the day before is valid. -/
theorem valid_pred {N : ℤ} (h : ∀ K ∈ changeDays, N ≠ K + 1) :
    N - 1 + iLookup N iMeeusTable ∉ iInvalid := by
  rw [iInvalid_mem]
  simp only [changeDays, List.mem_cons, List.not_mem_nil, or_false, forall_eq_or_imp,
    forall_eq] at h
  rcases meeus_cases N with h | h | h | h | h | h | h | h | h | h | h | h | h | h
  · obtain ⟨a, e⟩ := h
    rw [e]; omega
  · obtain ⟨a, b, e⟩ := h
    rw [e]; omega
  · obtain ⟨a, b, e⟩ := h
    rw [e]; omega
  · obtain ⟨a, b, e⟩ := h
    rw [e]; omega
  · obtain ⟨a, b, e⟩ := h
    rw [e]; omega
  · obtain ⟨a, b, e⟩ := h
    rw [e]; omega
  · obtain ⟨a, b, e⟩ := h
    rw [e]; omega
  · obtain ⟨a, b, e⟩ := h
    rw [e]; omega
  · obtain ⟨a, b, e⟩ := h
    rw [e]; omega
  · obtain ⟨a, b, e⟩ := h
    rw [e]; omega
  · obtain ⟨a, b, e⟩ := h
    rw [e]; omega
  · obtain ⟨a, b, e⟩ := h
    rw [e]; omega
  · obtain ⟨a, b, e⟩ := h
    rw [e]; omega
  · obtain ⟨a, e⟩ := h
    rw [e]; omega

/-! ### The days on which the conversions fail -/

/-- The days (exact day number) that cannot be converted: the twelve last days before a change of
the difference, and the days of the reform gap. -/
def badDays : List ℤ :=
  changeDays ++ [2299148, 2299149, 2299150, 2299151, 2299152, 2299153, 2299154, 2299155, 2299156,
    2299157, 2299158]

theorem nr_unique {y y0 N : ℤ} (h0 : nrN y ≤ N) (h1 : N ≤ nrN y + 365) (h2 : nrN y0 < N)
    (h3 : N < nrN y0 + 365) : y = y0 := by
  unfold nrN at *
  rcases lt_trichotomy y y0 with h | h | h
  · have a := daysInYears_mono (show y ≤ y0 - 1 by omega)
    have b := daysInYears_succ_ge (y - 1)
    rw [show y - 1 + 1 = y by ring] at b
    omega
  · exact h
  · have a := daysInYears_mono (show y0 ≤ y - 1 by omega)
    have b := daysInYears_succ_ge (y0 - 1)
    rw [show y0 - 1 + 1 = y0 by ring] at b
    omega

/-- The day on which a date falls, and the historic day of its sunset. -/
theorem good_day {y N : ℤ} (h0 : nrN y ≤ N) (h1 : N ≤ nrN y + 365)
    (hb : N + getDayCoeff y ∉ badDays) :
    ¬ (2299149 ≤ N ∧ N ≤ 2299158) ∧
    histDay y N = N + getDayCoeff y + iLookup (N + getDayCoeff y) iMeeusTable ∧
    ¬ (2299149 ≤ N + getDayCoeff y ∧ N + getDayCoeff y ≤ 2299158) := by
  have hc := getDayCoeff_cases y
  have hgap : ¬ (2299148 ≤ N + getDayCoeff y ∧ N + getDayCoeff y ≤ 2299158) := by
    intro h
    apply hb
    simp only [badDays, changeDays, List.mem_append, List.mem_cons, List.not_mem_nil, or_false]
    omega
  by_cases hr : Regular N
  · refine ⟨by have := hr.2; omega, ?_, by omega⟩
    rw [iMeeus_shift hc hr]; unfold histDay; ring
  · have hcase : (∃ K ∈ changeDays, N = K + 1 ∨ N = K + 2) ∨ (2299149 ≤ N ∧ N ≤ 2299160) := by
      unfold Regular at hr
      by_contra hcon
      push Not at hcon
      apply hr
      refine ⟨fun K hK => ⟨(hcon.1 K hK).1, (hcon.1 K hK).2⟩, ?_⟩
      by_contra h2
      push Not at h2
      have := hcon.2 (by omega)
      omega
    rcases hcase with ⟨K, hK, hN⟩ | hN
    · have hy : getDayCoeff y = -1 := by
        simp only [changeDays, List.mem_cons, List.not_mem_nil, or_false] at hK
        rcases hK with rfl | rfl | rfl | rfl | rfl | rfl | rfl | rfl | rfl | rfl | rfl | rfl
        · have e : y = -1744 := nr_unique h0 h1 (by rcases hN with rfl | rfl <;> decide)
            (by rcases hN with rfl | rfl <;> decide)
          subst e; decide +kernel
        · have e : y = -1644 := nr_unique h0 h1 (by rcases hN with rfl | rfl <;> decide)
            (by rcases hN with rfl | rfl <;> decide)
          subst e; decide +kernel
        · have e : y = -1544 := nr_unique h0 h1 (by rcases hN with rfl | rfl <;> decide)
            (by rcases hN with rfl | rfl <;> decide)
          subst e; decide +kernel
        · have e : y = -1344 := nr_unique h0 h1 (by rcases hN with rfl | rfl <;> decide)
            (by rcases hN with rfl | rfl <;> decide)
          subst e; decide +kernel
        · have e : y = -1244 := nr_unique h0 h1 (by rcases hN with rfl | rfl <;> decide)
            (by rcases hN with rfl | rfl <;> decide)
          subst e; decide +kernel
        · have e : y = -1144 := nr_unique h0 h1 (by rcases hN with rfl | rfl <;> decide)
            (by rcases hN with rfl | rfl <;> decide)
          subst e; decide +kernel
        · have e : y = -944 := nr_unique h0 h1 (by rcases hN with rfl | rfl <;> decide)
            (by rcases hN with rfl | rfl <;> decide)
          subst e; decide +kernel
        · have e : y = -844 := nr_unique h0 h1 (by rcases hN with rfl | rfl <;> decide)
            (by rcases hN with rfl | rfl <;> decide)
          subst e; decide +kernel
        · have e : y = -744 := nr_unique h0 h1 (by rcases hN with rfl | rfl <;> decide)
            (by rcases hN with rfl | rfl <;> decide)
          subst e; decide +kernel
        · have e : y = -544 := nr_unique h0 h1 (by rcases hN with rfl | rfl <;> decide)
            (by rcases hN with rfl | rfl <;> decide)
          subst e; decide +kernel
        · have e : y = -444 := nr_unique h0 h1 (by rcases hN with rfl | rfl <;> decide)
            (by rcases hN with rfl | rfl <;> decide)
          subst e; decide +kernel
        · have e : y = -344 := nr_unique h0 h1 (by rcases hN with rfl | rfl <;> decide)
            (by rcases hN with rfl | rfl <;> decide)
          subst e; decide +kernel
      rw [hy] at hb ⊢
      have hKb : K ∈ badDays := by unfold badDays; exact List.mem_append_left _ hK
      rcases hN with rfl | rfl
      · exact absurd (by rw [show K + 1 + -1 = K by ring]; exact hKb) hb
      · have e : iLookup (K + 2) iMeeusTable = iLookup (K + 1) iMeeusTable ∧
            ¬ (2299149 ≤ K + 2 ∧ K + 2 ≤ 2299158) := by
          clear h0 h1 hb hgap hr hKb; revert K; decide
        refine ⟨e.2, ?_, by omega⟩
        unfold histDay
        rw [hy, e.1, show K + 2 + -1 = K + 1 by ring]; ring
    · have e : y = -261 := nr_unique h0 h1 (by have : nrN (-261) = 2298951 := by decide
                                               omega)
        (by have : nrN (-261) = 2298951 := by decide
            omega)
      subst e
      have hy : getDayCoeff (-261) = -1 := by decide +kernel
      rw [hy] at hgap ⊢
      have : N = 2299160 := by omega
      subst this
      refine ⟨by omega, ?_, by omega⟩
      unfold histDay; rw [hy]; decide

end Verif
