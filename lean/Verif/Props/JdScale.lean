import Verif.Lemmas.JdScale

/-!
# Property C31: historical and astronomical Julian days
-/

namespace Verif

/-- JD of the starts of the twelve days 29 February of the Julian calendar that do not exist in the
Gregorian calendar. -/
def droppedDays : List ℚ :=
  [1757641.5, 1794166.5, 1830691.5, 1903741.5, 1940266.5, 1976791.5, 2049841.5, 2086366.5,
   2122891.5, 2195941.5, 2232466.5, 2268991.5]

/-- C31, the gaps, for every rational JD. -/
theorem C31_gaps (x : ℚ) :
    (meeusFromExact x = .error .value ↔ 2299148.5 ≤ x ∧ x < 2299158.5) ∧
    (exactFromMeeus x = .error .value ↔ ∃ d ∈ droppedDays, d ≤ x ∧ x < d + 1) ∧
    ((∃ y, meeusFromExact x = .ok y) ↔ ¬ (2299148.5 ≤ x ∧ x < 2299158.5)) ∧
    ((∃ y, exactFromMeeus x = .ok y) ↔ ¬ ∃ d ∈ droppedDays, d ≤ x ∧ x < d + 1) := by
  have e : invalidDays = droppedDays.map (fun d => (d, d + 1)) := by
    decide +kernel
  have h : (invalidDays.any (fun se => se.1 ≤ x ∧ x < se.2) = true) ↔
      ∃ d ∈ droppedDays, d ≤ x ∧ x < d + 1 := by
    rw [e, List.any_map, List.any_eq_true]
    simp
  unfold meeusFromExact exactFromMeeus
  refine ⟨?_, ?_, ?_, ?_⟩
  · split_ifs with g <;> simp [g]
  · rw [← h]; by_cases g : invalidDays.any (fun se => se.1 ≤ x ∧ x < se.2) = true
    · rw [if_pos g]; exact ⟨fun _ => g, fun _ => rfl⟩
    · rw [if_neg g]; exact ⟨fun hh => (by cases hh), fun hh => absurd hh g⟩
  · split_ifs with g <;> simp [g]
  · rw [← h]; by_cases g : invalidDays.any (fun se => se.1 ≤ x ∧ x < se.2) = true
    · rw [if_pos g]; exact ⟨fun ⟨_, hh⟩ => (by cases hh), fun hh => absurd g hh⟩
    · rw [if_neg g]; exact ⟨fun _ => g, fun _ => ⟨_, rfl⟩⟩

/-- C31: historical to astronomical and back. -/
theorem C31_historical_round_trip (y x : ℚ) (hy : IsF64 y) (h1 : y ≤ 4194304)
    (h : exactFromMeeus y = .ok x) : meeusFromExact x = .ok y := by
  rw [exact_floor] at h
  split_ifs at h with hi
  injection h with h
  set M := ⌊y + 1 / 2⌋ with hM
  obtain ⟨a, b⟩ := meeus_of_exact hi
  have lb := iExact_bounds M
  have hv : fl (y - iLookup M iExactTable) = y - iLookup M iExactTable := by
    by_cases hs : M ≤ 1757641
    · rw [(iExact_region M).1 hs]; simpa [IsF64] using hy
    · have : ((1757642 : ℤ) : ℚ) ≤ y + 1 / 2 := by
        rw [← Int.le_floor]; omega
      push_cast at this
      exact fl_sub_small hy _ lb.1 (by omega) (by linarith) h1
  rw [hv] at h
  have hf : ⌊x + 1 / 2⌋ = M - iLookup M iExactTable := by
    rw [← h, show y - (iLookup M iExactTable : ℚ) + 1 / 2
      = y + 1 / 2 - ((iLookup M iExactTable : ℤ) : ℚ) by ring, Int.floor_sub_intCast]
  rw [meeus_floor, hf, if_neg a, b, ← h, sub_add_cancel, hy]

/-- C31: astronomical to historical and back. Missing from the full property: the twelve days
before JD 2^21, where the addition loses a bit; see below. -/
theorem C31_astronomical_round_trip_partial (x y : ℚ) (hx : IsF64 x) (h1 : x ≤ 4194290)
    (hw : ¬ (2097140 < x ∧ x < 2097152)) (h : meeusFromExact x = .ok y) :
    exactFromMeeus y = .ok x ∧ x ≤ y ∧ y ≤ x + 12 := by
  rw [meeus_floor] at h
  split_ifs at h with hi
  injection h with h
  set N := ⌊x + 1 / 2⌋ with hN
  obtain ⟨a, b⟩ := exact_of_meeus hi
  have lb := iMeeus_bounds N
  have hv : fl (x + iLookup N iMeeusTable) = x + iLookup N iMeeusTable := by
    by_cases hs : N ≤ 1757641
    · rw [(iMeeus_region N).1 hs]; simpa [IsF64] using hx
    · have : ((1757642 : ℤ) : ℚ) ≤ x + 1 / 2 := by
        rw [← Int.le_floor]; omega
      push_cast at this
      apply fl_add_small hx _ lb.1 lb.2
      by_cases hc : x ≤ 2097140
      · exact Or.inl ⟨by linarith, hc⟩
      · refine Or.inr ⟨?_, h1⟩
        by_contra hn
        exact hw ⟨not_le.mp hc, not_le.mp hn⟩
  rw [hv] at h
  have hf : ⌊y + 1 / 2⌋ = N + iLookup N iMeeusTable := by
    rw [← h, show x + (iLookup N iMeeusTable : ℚ) + 1 / 2
      = x + 1 / 2 + ((iLookup N iMeeusTable : ℤ) : ℚ) by ring, Int.floor_add_intCast]
  have q0 : (0 : ℚ) ≤ iLookup N iMeeusTable := by exact_mod_cast lb.1
  have q1 : (iLookup N iMeeusTable : ℚ) ≤ 12 := by exact_mod_cast lb.2
  refine ⟨?_, by linarith, by linarith⟩
  rw [exact_floor, hf, if_neg a, b, ← h, add_sub_cancel_right, hx]

/-- An instant of the reform month meets the hypotheses. -/
example : IsF64 2299158.75 ∧ meeusFromExact 2299158.75 = .ok 2299160.75 := by
  unfold IsF64; decide +kernel

/-- Both conversions never decrease, for every rational JD. -/
theorem C31_monotone (x1 x2 y1 y2 : ℚ) (hle : x1 ≤ x2) :
    (meeusFromExact x1 = .ok y1 → meeusFromExact x2 = .ok y2 → y1 ≤ y2) := by
  intro h1 h2
  rw [meeus_floor] at h1 h2
  split_ifs at h1 with i1
  split_ifs at h2 with i2
  injection h1 with h1
  injection h2 with h2
  rw [← h1, ← h2]
  apply fl_mono
  have hN : ⌊x1 + 1 / 2⌋ ≤ ⌊x2 + 1 / 2⌋ := Int.floor_le_floor (by linarith)
  by_cases hc : ⌊x2 + 1 / 2⌋ ≤ 2299148
  · have := iMeeus_mono hN hc
    have : (iLookup ⌊x1 + 1 / 2⌋ iMeeusTable : ℚ) ≤ iLookup ⌊x2 + 1 / 2⌋ iMeeusTable := by
      exact_mod_cast this
    linarith
  · have e2 : iLookup ⌊x2 + 1 / 2⌋ iMeeusTable = 2 :=
      (iMeeus_region _).2.2.2.2.2.2.2.2.2.2.2.2.2 (by omega)
    rw [e2]
    by_cases hd : ⌊x1 + 1 / 2⌋ ≤ 2299148
    · have b := (iMeeus_bounds ⌊x1 + 1 / 2⌋).2
      have b : (iLookup ⌊x1 + 1 / 2⌋ iMeeusTable : ℚ) ≤ 12 := by exact_mod_cast b
      have l1 : x1 + 1 / 2 < ((2299149 : ℤ) : ℚ) := by rw [← Int.floor_lt]; omega
      have l2 : ((2299159 : ℤ) : ℚ) ≤ x2 + 1 / 2 := by rw [← Int.le_floor]; omega
      push_cast at *
      linarith
    · rw [(iMeeus_region ⌊x1 + 1 / 2⌋).2.2.2.2.2.2.2.2.2.2.2.2.2 (by omega)]
      linarith

/-- C31: the conversion to historical days is strictly increasing. Missing from the full property: the twelve
days before JD 2^21. -/
theorem C31_meeus_strict_partial (x1 x2 y1 y2 : ℚ) (hx1 : IsF64 x1) (hx2 : IsF64 x2) (hlt : x1 < x2)
    (hb : x2 ≤ 4194290) (w1 : ¬ (2097140 < x1 ∧ x1 < 2097152)) (w2 : ¬ (2097140 < x2 ∧ x2 < 2097152))
    (h1 : meeusFromExact x1 = .ok y1) (h2 : meeusFromExact x2 = .ok y2) : y1 < y2 := by
  refine lt_of_le_of_ne (C31_monotone x1 x2 y1 y2 hlt.le h1 h2) ?_
  rintro rfl
  have e1 := (C31_astronomical_round_trip_partial x1 y1 hx1 (by linarith) w1 h1).1
  have e2 := (C31_astronomical_round_trip_partial x2 y1 hx2 hb w2 h2).1
  rw [e1] at e2
  injection e2 with e2
  linarith

/-- C31: the conversion to astronomical days is strictly increasing. -/
theorem C31_exact_strict (y1 y2 x1 x2 : ℚ) (hy1 : IsF64 y1) (hy2 : IsF64 y2) (hlt : y1 < y2)
    (hb : y2 ≤ 4194304) (h1 : exactFromMeeus y1 = .ok x1) (h2 : exactFromMeeus y2 = .ok x2) :
    x1 < x2 := by
  by_contra hc
  push Not at hc
  have := C31_monotone x2 x1 y2 y1 hc (C31_historical_round_trip y2 x2 hy2 hb h2)
    (C31_historical_round_trip y1 x1 hy1 (by linarith) h1)
  linarith

/-- Two historical days around the reform. -/
example : IsF64 2299160.25 ∧ IsF64 2299160.75 ∧ exactFromMeeus 2299160.25 = .ok 2299148.25 ∧
    exactFromMeeus 2299160.75 = .ok 2299158.75 := by
  unfold IsF64; decide +kernel

/-- C31 is false just before JD 2^21: two different instants get the same historical JD, and the
first one is not recovered. -/
theorem C31_window_negation :
    ∃ x1 x2 y : ℚ, IsF64 x1 ∧ IsF64 x2 ∧ x1 < x2 ∧ meeusFromExact x1 = .ok y ∧
      meeusFromExact x2 = .ok y ∧ exactFromMeeus y = .ok x2 := by
  refine ⟨2097152 - 1 / 2 ^ 32, 2097152, 2097160, ?_⟩
  unfold IsF64
  decide +kernel

end Verif
