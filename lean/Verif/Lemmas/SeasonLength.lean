import Verif.Lemmas.SeasonCert

/-!
# The approximate moments of the seasons

Bounds of the polynomials.
-/

namespace Verif.Solar

/-- The time in thousands of years, and its powers. -/
theorem early_powers {g : ℤ} (h0 : 1 ≤ g) (h1 : g ≤ 1000) : ∃ y : ℚ, y = (g : ℚ) / 1000 ∧ 0 ≤ y ∧ y ≤ 1 ∧ 0 ≤ y ^ 2 ∧ y ^ 2 ≤ 1 ∧
    0 ≤ y ^ 3 ∧ y ^ 3 ≤ 1 ∧ 0 ≤ y ^ 4 ∧ y ^ 4 ≤ 1 := by
  have a : (1 : ℚ) ≤ g := by exact_mod_cast h0
  have b : (g : ℚ) ≤ 1000 := by exact_mod_cast h1
  have y0 : 0 ≤ (g : ℚ) / 1000 := by linarith
  have y1 : (g : ℚ) / 1000 ≤ 1 := by linarith
  exact ⟨_, rfl, y0, y1, by positivity, pow_le_one₀ y0 y1, by positivity, pow_le_one₀ y0 y1, by positivity, pow_le_one₀ y0 y1⟩

theorem late_powers {g : ℤ} (h0 : 1000 ≤ g) (h1 : g ≤ 3005) : ∃ y : ℚ, y = ((g : ℚ) - 2000) / 1000 ∧ -1 ≤ y ∧ y ≤ 1.005 ∧ 0 ≤ y ^ 2 ∧
    y ^ 2 ≤ 1.011 ∧ -1.016 ≤ y ^ 3 ∧ y ^ 3 ≤ 1.016 ∧ 0 ≤ y ^ 4 ∧ y ^ 4 ≤ 1.021 := by
  have a : (1000 : ℚ) ≤ g := by exact_mod_cast h0
  have b : (g : ℚ) ≤ 3005 := by exact_mod_cast h1
  set y := ((g : ℚ) - 2000) / 1000 with hy
  have y0 : -1 ≤ y := by rw [hy]; linarith
  have y1 : y ≤ 1.005 := by rw [hy]; linarith
  have ya : |y| ≤ 1.005 := abs_le.mpr ⟨by linarith, y1⟩
  have p2 : |y ^ 2| ≤ 1.005 ^ 2 := by rw [abs_pow]; exact pow_le_pow_left₀ (abs_nonneg _) ya 2
  have p3 : |y ^ 3| ≤ 1.005 ^ 3 := by rw [abs_pow]; exact pow_le_pow_left₀ (abs_nonneg _) ya 3
  have p4 : |y ^ 4| ≤ 1.005 ^ 4 := by rw [abs_pow]; exact pow_le_pow_left₀ (abs_nonneg _) ya 4
  rw [abs_le] at p2 p3 p4
  norm_num at p2 p3 p4
  refine ⟨y, rfl, y0, y1, by positivity, ?_, ?_, ?_, by positivity, ?_⟩ <;> linarith [p2.1, p2.2, p3.1, p3.2, p4.1, p4.2]

theorem approx_range {g lam : ℤ} (h0 : 1 ≤ g) (h1 : g ≤ 3005) : 1721100 ≤ approxSeason g lam ∧ approxSeason g lam ≤ 2819900 := by
  unfold approxSeason
  by_cases h : g ≤ 1000
  · obtain ⟨y, hy, a⟩ := early_powers h0 h
    rw [if_pos h, ← hy]
    simp only
    split_ifs <;> simp only [Verif.poly] <;> constructor <;> linarith
  · obtain ⟨y, hy, a⟩ := late_powers (by omega) h1
    rw [if_neg h, ← hy]
    simp only
    split_ifs <;> simp only [Verif.poly] <;> constructor <;> linarith

theorem approx_lengths {g : ℤ} (h0 : 1 ≤ g) (h1 : g ≤ 3005) :
    (91.94 ≤ approxSeason g summer - approxSeason g spring ∧ approxSeason g summer - approxSeason g spring ≤ 93.98) ∧
    (92.33 ≤ approxSeason g autumn - approxSeason g summer ∧ approxSeason g autumn - approxSeason g summer ≤ 94.06) ∧
    (88.66 ≤ approxSeason g winter - approxSeason g autumn ∧ approxSeason g winter - approxSeason g autumn ≤ 90.67) := by
  unfold approxSeason spring summer autumn winter
  by_cases h : g ≤ 1000
  · obtain ⟨y, hy, a⟩ := early_powers h0 h
    simp only [if_pos h, ← hy]
    norm_num [Verif.poly]
    refine ⟨⟨?_, ?_⟩, ⟨?_, ?_⟩, ⟨?_, ?_⟩⟩ <;> linarith
  · obtain ⟨y, hy, a⟩ := late_powers (by omega) h1
    simp only [if_neg h, ← hy]
    norm_num [Verif.poly]
    refine ⟨⟨?_, ?_⟩, ⟨?_, ?_⟩, ⟨?_, ?_⟩⟩ <;> linarith

theorem approx_next {g : ℤ} (h0 : 1 ≤ g) (h1 : g ≤ 3004) :
    88.6 ≤ approxSeason (g + 1) spring - approxSeason g winter ∧ approxSeason (g + 1) spring - approxSeason g winter ≤ 90.3 := by
  unfold approxSeason spring summer autumn winter
  by_cases h : g < 1000
  · obtain ⟨y, hy, a⟩ := early_powers h0 (by omega)
    have e : (((g + 1 : ℤ) : ℚ)) / 1000 = y + 1 / 1000 := by rw [hy]; push_cast; ring
    simp only [if_pos (show g ≤ 1000 by omega), if_pos (show g + 1 ≤ 1000 by omega), ← hy, e]
    norm_num [Verif.poly]
    constructor <;> linarith
  · by_cases h' : g = 1000
    · subst h'
      norm_num [Verif.poly]
    · obtain ⟨y, hy, a⟩ := late_powers (g := g) (by omega) (by omega)
      have e : ((((g + 1 : ℤ) : ℚ)) - 2000) / 1000 = y + 1 / 1000 := by rw [hy]; push_cast; ring
      simp only [if_neg (show ¬ g ≤ 1000 by omega), if_neg (show ¬ g + 1 ≤ 1000 by omega), ← hy, e]
      norm_num [Verif.poly]
      constructor <;> linarith

theorem approx_year {g lam : ℤ} (h0 : 1 ≤ g) (h1 : g ≤ 3004) :
    |approxSeason (g + 1) lam - approxSeason g lam - 365.2422| ≤ 0.001 := by
  unfold approxSeason
  rw [abs_le]
  by_cases h : g < 1000
  · obtain ⟨y, hy, a⟩ := early_powers h0 (by omega)
    have e : (((g + 1 : ℤ) : ℚ)) / 1000 = y + 1 / 1000 := by rw [hy]; push_cast; ring
    simp only [if_pos (show g ≤ 1000 by omega), if_pos (show g + 1 ≤ 1000 by omega), ← hy, e]
    split_ifs <;> simp only [Verif.poly] <;> constructor <;> linarith
  · by_cases h' : g = 1000
    · subst h'
      norm_num [Verif.poly]
      split_ifs <;> norm_num
    · obtain ⟨y, hy, a⟩ := late_powers (g := g) (by omega) (by omega)
      have e : ((((g + 1 : ℤ) : ℚ)) - 2000) / 1000 = y + 1 / 1000 := by rw [hy]; push_cast; ring
      simp only [if_neg (show ¬ g ≤ 1000 by omega), if_neg (show ¬ g + 1 ≤ 1000 by omega), ← hy, e]
      split_ifs <;> simp only [Verif.poly] <;> constructor <;> linarith

end Verif.Solar
