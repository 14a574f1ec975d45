import Verif.Lemmas.GregorianFwd

/-!
# `posix_timestamp`: lemmas
-/

namespace Verif

/-- The loop over the years of `posix_timestamp` ends inside a year. -/
theorem posixLoop_exit : ∀ (fuel : ℕ) (Y days : ℤ), 0 ≤ days → days < fuel →
    ∃ Y' e, posixLoop fuel Y days = (Y', e) ∧ 0 ≤ e ∧
      daysInYears (Y' - 1) + e = daysInYears (Y - 1) + days ∧
      e < 365 + (if gIsLeap Y' then 1 else 0) ∧ Y ≤ Y' := by
  intro fuel
  induction fuel with
  | zero => intro Y days h0 h1; exact absurd h1 (by push_cast; omega)
  | succ n ih =>
    intro Y days h0 h1
    unfold posixLoop
    simp only
    by_cases hc : days < 365 + (if gIsLeap Y then 1 else 0)
    · rw [if_pos hc]
      exact ⟨Y, days, rfl, h0, rfl, hc, le_refl _⟩
    · rw [if_neg hc]
      have st := daysInYears_leap Y
      have hp : (0 : ℤ) ≤ (if gIsLeap Y then 1 else 0) := by split_ifs <;> norm_num
      push_cast at h1
      obtain ⟨Y', e, a, b, c, d, f⟩ := ih (Y + 1) (days - (365 + (if gIsLeap Y then 1 else 0)))
        (by omega) (by omega)
      refine ⟨Y', e, a, b, ?_, d, by omega⟩
      rw [c, add_sub_cancel_right]
      omega

/-- The date part of the result. -/
theorem posix_date {N y m d : ℤ} (h0 : 0 ≤ N) (hv : ValidG y m d)
    (hN : dayG y m d = dayG 1970 1 1 + N) :
    ∃ Y e, posixLoop ((N + 1).toNat + 1) 1970 (N + 1) = (Y, e) ∧ 1970 ≤ y ∧
      (¬ (m = 12 ∧ d = 31) → Y = y ∧ posixMonthLoop e (monthDays (gIsLeap Y)) 1 0 = some (m, d)) ∧
      (m = 12 ∧ d = 31 → posixMonthLoop e (monthDays (gIsLeap Y)) 1 0 = some (1, 0)) := by
  obtain ⟨vl, v1, v2⟩ := valid_facts hv
  obtain ⟨Y, e, a, b, c, dd, f⟩ := posixLoop_exit ((N + 1).toNat + 1) 1970 (N + 1) (by omega)
    (by push_cast; omega)
  have e0 : dayG 1970 1 1 = 719163 := by decide
  have e1 : daysInYears (1970 - 1) = 719162 := by decide
  obtain ⟨b1, b2⟩ := dayG_bounds hv
  have st := daysInYears_leap Y
  have sty := daysInYears_leap y
  have c12 := cum_last (gIsLeap y)
  have hy : 1970 ≤ y := by
    by_contra h
    have := daysInYears_mono (show y ≤ 1970 - 1 by omega)
    omega
  have dN : dayG y m d = daysInYears (y - 1) + (cumDays (gIsLeap y) m + d) := by unfold dayG; ring
  refine ⟨Y, e, a, hy, ?_, ?_⟩
  · intro hn
    have e1' : 1 ≤ e := by
      by_contra h
      have he : e = 0 := by omega
      have hyY : y = Y - 1 := by
        apply year_unique b1 b2 _ (by omega)
        have st' := daysInYears_leap (Y - 1)
        split_ifs at st' <;> omega
      apply hn
      apply last_days hv (Or.inr rfl)
      subst hyY
      split_ifs at sty c12 <;> omega
    have hyY : y = Y := year_unique b1 b2 (by omega) (by omega)
    subst hyY
    refine ⟨rfl, ?_⟩
    rw [← vl]
    congr 1
    omega
  · rintro ⟨rfl, rfl⟩
    have he : e = 0 := by
      by_contra h
      have hyY : y = Y := year_unique b1 b2 (by omega) (by omega)
      subst hyY
      split_ifs at sty dd c12 <;> omega
    subst he
    cases gIsLeap Y <;> decide

/-- The time part of the result. -/
theorem posix_time {t : ℚ} (ht : IsF64 t) (h0 : 0 ≤ t) (h1 : t < 2 ^ 53) :
    ∃ (h mi : ℤ) (s : ℚ), ⌊fl (t / 86400)⌋ = ⌊t / 86400⌋ ∧
      ⌊fl ((⌊fl (pyModInt t 86400 / 60)⌋ : ℚ) / 60)⌋ = h ∧
      ⌊fl (pyModInt t 86400 / 60)⌋ % 60 = mi ∧ pyRound (pyModInt (pyModInt t 86400) 60) 6 = s ∧
      0 ≤ h ∧ h < 24 ∧ 0 ≤ mi ∧ mi < 60 ∧ 0 ≤ s ∧ s ≤ 60 ∧
      |86400 * (⌊t / 86400⌋ : ℚ) + 3600 * h + 60 * mi + s - t| ≤ 1 / 1000000 := by
  have f1 : ⌊fl (t / 86400)⌋ = ⌊t / 86400⌋ := by
    have := floor_fl_div (n := 86400) ht h0 h1 (by norm_num)
      ((div_le_self h0 (by norm_num)).trans_lt h1)
    exact_mod_cast this
  have l1 := Int.floor_le (t / 86400)
  have l2 := Int.lt_floor_add_one (t / 86400)
  rw [le_div_iff₀ (by norm_num)] at l1
  rw [div_lt_iff₀ (by norm_num)] at l2
  have k0 : 0 ≤ ⌊t / 86400⌋ := Int.floor_nonneg.mpr (by positivity)
  have eS : pyModInt t 86400 = t - ((86400 * ⌊t / 86400⌋ : ℤ) : ℚ) := by
    unfold pyModInt
    rw [if_pos h0]
    push_cast
    rfl
  have sF : IsF64 (pyModInt t 86400) := by
    rw [eS]
    exact isF64_sub_int ht (by omega) (by push_cast; linarith) h1
  set S := pyModInt t 86400 with hS
  push_cast at eS
  have S0 : 0 ≤ S := by linarith
  have S1 : S < 86400 := by linarith
  have f2 : ⌊fl (S / 60)⌋ = ⌊S / 60⌋ := by
    have := floor_fl_div (n := 60) sF S0 (by linarith) (by norm_num)
      ((div_le_self S0 (by norm_num)).trans_lt (by linarith))
    exact_mod_cast this
  have m1 := Int.floor_le (S / 60)
  have m2 := Int.lt_floor_add_one (S / 60)
  rw [le_div_iff₀ (by norm_num)] at m1
  rw [div_lt_iff₀ (by norm_num)] at m2
  have M0 : 0 ≤ ⌊S / 60⌋ := Int.floor_nonneg.mpr (by positivity)
  have M1 : ⌊S / 60⌋ < 1440 := by
    rw [Int.floor_lt]; push_cast; rw [div_lt_iff₀ (by norm_num)]; linarith
  have f3 : ⌊fl ((⌊S / 60⌋ : ℚ) / 60)⌋ = ⌊S / 60⌋ / 60 := by
    have q0 : (0 : ℚ) ≤ ⌊S / 60⌋ := by exact_mod_cast M0
    have q1 : (⌊S / 60⌋ : ℚ) < 1440 := by exact_mod_cast M1
    have := floor_fl_div (x := (⌊S / 60⌋ : ℚ)) (n := 60)
      (isF64_int (by rw [abs_le]; constructor <;> omega)) q0 (by linarith) (by norm_num)
      ((div_le_self q0 (by norm_num)).trans_lt (by linarith))
    rw [Rat.floor_intCast_div_natCast] at this
    push_cast at this
    exact this
  have eR : pyModInt S 60 = S - 60 * (⌊S / 60⌋ : ℚ) := by
    unfold pyModInt
    rw [if_pos S0]
    push_cast
    rfl
  have R0 : 0 ≤ pyModInt S 60 := by rw [eR]; linarith
  have R1 : pyModInt S 60 < 60 := by rw [eR]; linarith
  set R := pyModInt S 60 with hR
  have er := abs_le.mp (pyRound_err R 6)
  rw [abs_of_nonneg R0] at er
  have p0 : pyRound 0 6 = 0 := by have := pyRound_int 0 6 (by norm_num); simpa using this
  have p60 : pyRound 60 6 = 60 := by have := pyRound_int 60 6 (by norm_num); simpa using this
  have s0 := pyRound_mono 6 R0
  have s1 := pyRound_mono 6 R1.le
  rw [p0] at s0
  rw [p60] at s1
  rw [f2]
  refine ⟨_, _, _, f1, rfl, rfl, rfl, ?_⟩
  rw [f3]
  refine ⟨by omega, by omega, by omega, by omega, s0, s1, ?_⟩
  have hsplit : 3600 * ((⌊S / 60⌋ / 60 : ℤ) : ℚ) + 60 * ((⌊S / 60⌋ % 60 : ℤ) : ℚ) = 60 * (⌊S / 60⌋ : ℚ) := by
    have := Int.emod_add_mul_ediv ⌊S / 60⌋ 60
    have : ((⌊S / 60⌋ % 60 + 60 * (⌊S / 60⌋ / 60) : ℤ) : ℚ) = (⌊S / 60⌋ : ℚ) := by rw [this]
    push_cast at this
    linarith
  rw [abs_le]
  norm_num at er ⊢
  constructor <;> linarith

theorem checkGregorian_hist {g : GDate} (h : 1583 ≤ g.y) : checkGregorian g true = checkGregorian g false := by
  unfold checkGregorian
  have : ¬ (g.y < 1583) := by omega
  simp only [this, and_false, Bool.false_eq_true, if_false]

end Verif
