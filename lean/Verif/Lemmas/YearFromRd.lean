import Verif.Lemmas.Badi

/-!
# Helper lemmas: the year of a day number
-/

namespace Verif

theorem ysInt_lt {y : ℤ} (h0 : -1843 ≤ y) (h1 : y ≤ 1161) : ysInt y + 365 ≤ ysInt (y + 1) := by
  rcases ysInt_step h0 h1 with h | h <;> omega

theorem ysInt_mono {a b : ℤ} (ha : -1843 ≤ a) (hab : a ≤ b) (hb : b ≤ 1162) :
    ysInt a + 365 * (b - a) ≤ ysInt b := by
  obtain ⟨n, rfl⟩ : ∃ n : ℕ, b = a + n := ⟨(b - a).toNat, by omega⟩
  induction n with
  | zero => simp
  | succ n ih =>
    have h1 := ih (by omega) (by push_cast at hb; omega)
    have h2 := ysInt_lt (y := a + n) (by omega) (by push_cast at hb; omega)
    have e : a + ((n + 1 : ℕ) : ℤ) = a + n + 1 := by push_cast; ring
    rw [e]; omega

/-- Every day number between two year starts belongs to exactly one year. -/
theorem year_of_rd {n : ℤ} {a b : ℤ} (hab : a ≤ b)
    (h0 : ysInt a ≤ n) (h1 : n < ysInt b) :
    ∃ t, a ≤ t ∧ t < b ∧ ysInt t ≤ n ∧ n < ysInt (t + 1) := by
  obtain ⟨k, rfl⟩ : ∃ k : ℕ, b = a + k := ⟨(b - a).toNat, by omega⟩
  induction k with
  | zero => simp at h1; omega
  | succ k ih =>
    have e : a + ((k + 1 : ℕ) : ℤ) = a + k + 1 := by push_cast; ring
    rw [e] at h1
    by_cases h : n < ysInt (a + k)
    · obtain ⟨t, t0, t1, t2⟩ := ih (by omega) h
      exact ⟨t, t0, by push_cast; omega, t2⟩
    · exact ⟨a + k, by omega, by push_cast; omega, by omega, h1⟩

/-- Check of the mean year length against the table. -/
def meanWalk : ℕ → List ℤ → Bool
  | _, [] => true
  | i, c :: r =>
    let x := i + 156
    decide (((10000 * (365 * x + x / 4 + x / 400) : ℕ) : ℤ) + 10000 * c
      ≤ ((10000 * (x / 100) + 3652425 * i + 569760000 + 9990 : ℕ) : ℤ)) && meanWalk (i + 1) r

set_option maxRecDepth 20000 in
theorem meanWalk_ok : meanWalk 0 coeffList = true := by decide +kernel

theorem meanWalk_get {l : List ℤ} {i : ℕ} (h : meanWalk i l = true) (j : ℕ) (hj : j < l.length) :
    10000 * (365 * ((i + j : ℕ) + 156 : ℤ) + ((i + j : ℕ) + 156 : ℤ) / 4
      + ((i + j : ℕ) + 156 : ℤ) / 400) + 10000 * l[j]
      ≤ 10000 * (((i + j : ℕ) + 156 : ℤ) / 100) + 3652425 * (i + j : ℕ) + 569760000 + 9990 := by
  induction l generalizing i j with
  | nil => simp at hj
  | cons c r ih =>
    simp only [meanWalk, Bool.and_eq_true, decide_eq_true_eq] at h
    cases j with
    | zero =>
      have h1 := h.1
      push_cast at h1
      simpa using h1
    | succ j =>
      have := ih h.2 j (by simpa using hj)
      have e : i + 1 + j = i + (j + 1) := by omega
      rw [e] at this
      simpa using this

/-- Upper bound of the year starts by the mean Gregorian year. -/
theorem ysInt_upper {y : ℤ} (h0 : -1843 ≤ y) (h1 : y ≤ 1161) :
    10000 * (ysInt y + 287) ≤ 3652425 * (y + 1843) + 9990 := by
  obtain ⟨i, hi⟩ : ∃ i : ℕ, y = -1843 + (i : ℤ) := ⟨(y + 1843).toNat, by omega⟩
  have hlen : coeffList.length = 3005 := by rw [coeffList_spec]; simp
  have hi1 : i < coeffList.length := by omega
  have w := meanWalk_get meanWalk_ok i hi1
  have a := coeffs_get i (by omega)
  rw [List.getElem?_append_left hi1, List.getElem?_eq_getElem hi1] at a
  have a := Option.some.inj a
  rw [a, ← hi, zero_add] at w
  unfold ysInt
  rw [daysInYears_eq]
  have e : y - 1 = (i : ℤ) - 1844 := by omega
  rw [e]
  omega

/-- Lower bound of the year starts by the mean Gregorian year. -/
theorem ysInt_lower (y : ℤ) : 3652425 * (y + 1843) - 30000 ≤ 10000 * (ysInt y + 287) := by
  have := getDayCoeff_cases y
  unfold ysInt
  rw [daysInYears_eq]
  omega

theorem yearGuess {n t : ℤ} (ht0 : -1843 ≤ t) (ht1 : t ≤ 1160) (h0 : ysInt t ≤ n)
    (h1 : n < ysInt (t + 1)) (hn : -287 ≤ n) :
    t ≤ pyInt (fl ((n - rdStart : ℤ) / fl 365.2425)) + minYear ∧
      pyInt (fl ((n - rdStart : ℤ) / fl 365.2425)) + minYear ≤ t + 1 := by
  have u := ysInt_upper (y := t + 1) (by omega) (by omega)
  have l := ysInt_lower t
  have e0 : rdStart = -287 := rfl
  have e1 : minYear = -1842 := rfl
  have hu : 10000 * (n - rdStart) ≤ 3652425 * (t + 1844) - 10 := by omega
  have hl : 3652425 * (t + 1843) - 30000 ≤ 10000 * (n - rdStart) := by omega
  have hu' : 10000 * ((n - rdStart : ℤ) : ℚ) ≤ 3652425 * ((t : ℚ) + 1844) - 10 := by exact_mod_cast hu
  have hl' : 3652425 * ((t : ℚ) + 1843) - 30000 ≤ 10000 * ((n - rdStart : ℤ) : ℚ) := by exact_mod_cast hl
  have hx0 : (0 : ℚ) ≤ ((n - rdStart : ℤ) : ℚ) := by
    have : 0 ≤ n - rdStart := by omega
    exact_mod_cast this
  set x : ℚ := ((n - rdStart : ℤ) : ℚ) with hx
  have htq : (t : ℚ) ≤ 1160 := by exact_mod_cast ht1
  have c0 : (365.2425 - 1 / 1000000000 : ℚ) ≤ fl 365.2425 := by decide +kernel
  have c1 : fl 365.2425 ≤ (365.2425 + 1 / 1000000000 : ℚ) := by decide +kernel
  set c := fl 365.2425 with hc
  have cpos : 0 < c := by norm_num at c0; linarith
  have q0 : (t : ℚ) + 1842 + 1 / 10 ≤ x / c := by
    rw [le_div_iff₀ cpos]
    have htq0 : (-1843 : ℚ) ≤ t := by exact_mod_cast ht0
    rcases le_or_gt ((t : ℚ) + 1842 + 1 / 10) 0 with hneg | hpos
    · nlinarith
    · have : ((t : ℚ) + 1842 + 1 / 10) * c ≤ ((t : ℚ) + 1842 + 1 / 10) * (365.2425 + 1 / 1000000000) :=
        mul_le_mul_of_nonneg_left c1 hpos.le
      norm_num at this ⊢
      linarith
  have q1 : x / c ≤ (t : ℚ) + 1844 - 1 / 1000000 := by
    rw [div_le_iff₀ cpos]
    have htq0 : (-1843 : ℚ) ≤ t := by exact_mod_cast ht0
    have : ((t : ℚ) + 1844 - 1 / 1000000) * (365.2425 - 1 / 1000000000)
        ≤ ((t : ℚ) + 1844 - 1 / 1000000) * c :=
      mul_le_mul_of_nonneg_left c0 (by linarith)
    norm_num at this ⊢
    linarith
  have qp : 0 ≤ x / c := div_nonneg hx0 cpos.le
  have e := abs_le.mp (fl_err_le (x := x / c) (B := 4000) (abs_le.mpr ⟨by linarith, by linarith⟩))
  have hp : pyInt (fl (x / c)) = ⌊fl (x / c)⌋ := by
    unfold pyInt; rw [if_pos (fl_nonneg qp)]
  rw [hp, e1]
  constructor
  · have : t + 1842 ≤ ⌊fl (x / c)⌋ := by
      rw [Int.le_floor]; push_cast; linarith
    omega
  · have : ⌊fl (x / c)⌋ < t + 1844 := by
      rw [Int.floor_lt]; push_cast; linarith
    omega

theorem badiYearFromRd_ok {A : Astro} (hE : TehranEvening A) {n t : ℤ} (ht0 : -1843 ≤ t)
    (ht1 : t ≤ 1161) (h0 : ysInt t ≤ n) (h1 : n < ysInt (t + 1)) (hn : n ≤ 1096902) :
    (Cal.init A).badiYearFromRd n = .ok t := by
  have hrd := init_rdEnd hE
  have e0 : rdStart = -287 := rfl
  have e1 : minYear = -1842 := rfl
  have e2 : maxYear = 1161 := rfl
  have hm : -287 ≤ n := by
    have := ysInt_mono (le_refl (-1843)) ht0 (by omega)
    rw [ysInt_m1843] at this; omega
  unfold Cal.badiYearFromRd
  rw [hrd, pyAssert_true (by simp [e0]; omega), pyOk_bind]
  set g := pyInt (fl ((n - rdStart : ℤ) / fl 365.2425)) + minYear with hg
  have hcl : ∀ g' : ℤ, (g' = t ∧ -1842 ≤ t ∨ g' = t + 1 ∧ t + 1 ≤ 1161) →
      (match (Cal.init A).yearStart g' with
        | none => (.error .key : Py ℤ)
        | some ys =>
          if n < ys then .ok (g' - 1)
          else if ((Cal.init A).yearStart (g' + 1)).getD (1096902 + 1) ≤ n then .ok (g' + 1)
          else .ok g') = .ok t := by
    rintro g' (⟨rfl, _⟩ | ⟨rfl, _⟩)
    · have s1 : (Cal.init A).yearStart g' = some (ysInt g') := by
        rw [init_yearStart hE, if_pos (by omega)]
      have s2 : (Cal.init A).yearStart (g' + 1) = some (ysInt (g' + 1)) := by
        rw [init_yearStart hE, if_pos (by omega)]
      rw [s1, s2]
      simp only [Option.getD_some]
      rw [if_neg (by omega), if_neg (by omega)]
    · have s1 : (Cal.init A).yearStart (t + 1) = some (ysInt (t + 1)) := by
        rw [init_yearStart hE, if_pos (by omega)]
      rw [s1]
      simp only []
      rw [if_pos (by omega)]
      congr 1; omega
  apply hcl
  by_cases h61 : t ≤ 1160
  · obtain ⟨a, b⟩ := yearGuess ht0 h61 h0 h1 hm
    rw [← hg] at a b
    have hpos : -1842 ≤ g := by
      have : 0 ≤ pyInt (fl ((n - rdStart : ℤ) / fl 365.2425)) := by
        unfold pyInt
        have c0 : (0 : ℚ) < fl 365.2425 := by decide +kernel
        have : (0 : ℚ) ≤ ((n - rdStart : ℤ) : ℚ) := by
          have : 0 ≤ n - rdStart := by omega
          exact_mod_cast this
        have h := fl_nonneg (div_nonneg this c0.le)
        rw [if_pos h]
        exact Int.floor_nonneg.mpr h
      omega
    split_ifs <;> omega
  · have ht : t = 1161 := by omega
    subst ht
    have hn' : n = 1096902 := by rw [ysInt_1161] at h0; omega
    have : g = 1161 ∨ g = 1162 := by
      rw [hg, hn']; decide +kernel
    split_ifs <;> omega

theorem badiYearFromRd_err {A : Astro} (hE : TehranEvening A) {n : ℤ}
    (h : n < -287 ∨ 1096902 < n) : (Cal.init A).badiYearFromRd n = .error .assertion := by
  unfold Cal.badiYearFromRd
  rw [init_rdEnd hE, pyAssert_false (by simp [rdStart]; omega), pyErr_bind]

end Verif
