import Verif.Lemmas.Convert

/-!
# Helper lemmas: the two Julian day numberings
-/

namespace Verif

/-- Adding a small integer to a float is exact unless a power of two is crossed. -/
theorem fl_add_small {x : ℚ} (hx : IsF64 x) (k : ℤ) (k0 : 0 ≤ k) (k1 : k ≤ 12)
    (hr : (1048576 ≤ x ∧ x ≤ 2097140) ∨ (2097152 ≤ x ∧ x ≤ 4194290)) : fl (x + k) = x + k := by
  have hkq : (k : ℚ) ≤ 12 := by exact_mod_cast k1
  have hkq0 : (0 : ℚ) ≤ k := by exact_mod_cast k0
  rcases hr with ⟨h0, h1⟩ | ⟨h0, h1⟩
  · obtain ⟨j, hj⟩ := isF64_multiple (e := 20) hx (by
      rw [pow2_20, abs_of_nonneg (by linarith)]; linarith)
    apply fl_of_multiple (e := 20)
    · refine ⟨j + k * 2 ^ 32, ?_⟩
      have : pow2 (20 - 52) = 1 / 2 ^ 32 := by rw [pow2_eq]; norm_num [zpow_neg]
      rw [hj, this]; push_cast; field_simp; norm_num; ring
    · have : pow2 (20 + 1) = 2097152 := by rw [pow2_eq]; norm_num
      rw [this, abs_of_nonneg (by linarith)]; linarith
  · obtain ⟨j, hj⟩ := isF64_multiple (e := 21) hx (by
      have : pow2 21 = 2097152 := by rw [pow2_eq]; norm_num
      rw [this, abs_of_nonneg (by linarith)]; linarith)
    apply fl_of_multiple (e := 21)
    · refine ⟨j + k * 2 ^ 31, ?_⟩
      have : pow2 (21 - 52) = 1 / 2 ^ 31 := by rw [pow2_eq]; norm_num [zpow_neg]
      rw [hj, this]; push_cast; field_simp; norm_num; ring
    · have : pow2 (21 + 1) = 4194304 := by rw [pow2_eq]; norm_num
      rw [this, abs_of_nonneg (by linarith)]; linarith

theorem meeus_of_exact {M : ℤ} (hM : M ∉ iInvalid) :
    ¬ (2299149 ≤ M - iLookup M iExactTable ∧ M - iLookup M iExactTable ≤ 2299158) ∧
    iLookup (M - iLookup M iExactTable) iMeeusTable = iLookup M iExactTable := by
  rw [iInvalid_mem] at hM
  obtain ⟨h0, h1, h2, h3, h4, h5, h6, h7, h8, h9, h10, h11, h12, h13⟩ := iExact_region M
  obtain ⟨g0, g1, g2, g3, g4, g5, g6, g7, g8, g9, g10, g11, g12, g13⟩ :=
    iMeeus_region (M - iLookup M iExactTable)
  rcases le_or_gt M 1757641 with a0 | a0
  · rw [h0 a0] at *; exact ⟨by omega, g0 (by omega)⟩
  rcases le_or_gt M 1794166 with a1 | a1
  · rw [h1 a0 a1] at *; exact ⟨by omega, g1 (by omega) (by omega)⟩
  rcases le_or_gt M 1830691 with a2 | a2
  · rw [h2 a1 a2] at *; exact ⟨by omega, g2 (by omega) (by omega)⟩
  rcases le_or_gt M 1903741 with a3 | a3
  · rw [h3 a2 a3] at *; exact ⟨by omega, g3 (by omega) (by omega)⟩
  rcases le_or_gt M 1940266 with a4 | a4
  · rw [h4 a3 a4] at *; exact ⟨by omega, g4 (by omega) (by omega)⟩
  rcases le_or_gt M 1976791 with a5 | a5
  · rw [h5 a4 a5] at *; exact ⟨by omega, g5 (by omega) (by omega)⟩
  rcases le_or_gt M 2049841 with a6 | a6
  · rw [h6 a5 a6] at *; exact ⟨by omega, g6 (by omega) (by omega)⟩
  rcases le_or_gt M 2086366 with a7 | a7
  · rw [h7 a6 a7] at *; exact ⟨by omega, g7 (by omega) (by omega)⟩
  rcases le_or_gt M 2122891 with a8 | a8
  · rw [h8 a7 a8] at *; exact ⟨by omega, g8 (by omega) (by omega)⟩
  rcases le_or_gt M 2195941 with a9 | a9
  · rw [h9 a8 a9] at *; exact ⟨by omega, g9 (by omega) (by omega)⟩
  rcases le_or_gt M 2232466 with a10 | a10
  · rw [h10 a9 a10] at *; exact ⟨by omega, g10 (by omega) (by omega)⟩
  rcases le_or_gt M 2268991 with a11 | a11
  · rw [h11 a10 a11] at *; exact ⟨by omega, g11 (by omega) (by omega)⟩
  rcases le_or_gt M 2299160 with a12 | a12
  · rw [h12 a11 a12] at *; exact ⟨by omega, g12 (by omega) (by omega)⟩
  rw [h13 a12] at *; exact ⟨by omega, g13 (by omega)⟩

theorem iMeeus_mono {N N' : ℤ} (h : N ≤ N') (h' : N' ≤ 2299148) :
    iLookup N iMeeusTable ≤ iLookup N' iMeeusTable := by
  rcases meeus_cases N with h | h | h | h | h | h | h | h | h | h | h | h | h | h <;>
  rcases meeus_cases N' with g | g | g | g | g | g | g | g | g | g | g | g | g | g <;> omega

theorem half_floor {x : ℚ} (K : ℤ) : (K : ℚ) + 1 / 2 ≤ x ↔ K < ⌊x + 1 / 2⌋ := by
  rw [← Int.add_one_le_iff, Int.le_floor]
  push_cast
  constructor <;> intro h <;> linarith

/-- The two conversions in terms of the day `⌊x + 1/2⌋`. -/
theorem meeus_floor (x : ℚ) :
    meeusFromExact x = if 2299149 ≤ ⌊x + 1 / 2⌋ ∧ ⌊x + 1 / 2⌋ ≤ 2299158 then .error .value
      else .ok (fl (x + iLookup ⌊x + 1 / 2⌋ iMeeusTable)) := by
  unfold meeusFromExact
  rw [lookup_floor _ _ meeusTable_eq]
  congr 1
  have a := half_floor (x := x) 2299148
  have b := half_floor (x := x) 2299158
  norm_num at a b ⊢
  rw [a, ← not_le (a := (4598317 / 2 : ℚ)), b]
  constructor <;> rintro ⟨h1, h2⟩ <;> constructor <;> omega

theorem exact_floor (x : ℚ) :
    exactFromMeeus x = if ⌊x + 1 / 2⌋ ∈ iInvalid then .error .value
      else .ok (fl (x - iLookup ⌊x + 1 / 2⌋ iExactTable)) := by
  unfold exactFromMeeus
  rw [lookup_floor _ _ exactTable_eq, invalidDays_eq]
  congr 1
  apply propext
  rw [List.any_eq_true]
  simp only [List.mem_map, decide_eq_true_eq]
  have key : ∀ K : ℤ, ((K : ℚ) - 1 / 2 ≤ x ∧ x < K + 1 / 2) ↔ ⌊x + 1 / 2⌋ = K := by
    intro K
    rw [Int.floor_eq_iff]
    constructor <;> rintro ⟨h1, h2⟩ <;> constructor <;> linarith
  constructor
  · rintro ⟨p, ⟨K, hK, rfl⟩, h⟩
    rw [(key K).mp h]; exact hK
  · intro h
    exact ⟨_, ⟨_, h, rfl⟩, (key _).mpr rfl⟩

end Verif
