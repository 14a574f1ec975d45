import Mathlib.Order.Interval.Finset.Basic
import Mathlib.Data.Int.Interval
import Verif.Lemmas.Numeric
import Verif.Lemmas.YearTable
import Verif.Model.Gregorian
import Verif.Spec.Gregorian

/-!
# Gregorian conversions: lemmas
-/

namespace Verif

/-! ### Dyadic numbers -/

theorem fl_grid (k : ℤ) (n : ℕ) (h : |k| ≤ 2 ^ 53) : fl ((k : ℚ) / 2 ^ n) = k / 2 ^ n := by
  have := fl_dyadic k (-(n : ℤ)) h
  rw [pow2_eq, zpow_neg, zpow_natCast, ← div_eq_mul_inv] at this
  exact this

/-! ### Months -/

/-- Days before a month. -/
def cumDays (leap : Bool) (m : ℤ) : ℤ := ((monthDays leap).take (m - 1).toNat).sum

theorem gIsLeap_iff (y : ℤ) : gIsLeap y = true ↔ SpecLeapGregorian y := by
  unfold gIsLeap SpecLeapGregorian
  simp only [Bool.false_eq_true, if_false, beq_iff_eq]
  split_ifs <;> simp <;> omega

theorem month_facts : ∀ leap : Bool, ∀ m ∈ Finset.Icc (1 : ℤ) 12,
    (monthDays leap).getD (m - 1).toNat 0 = specMonthLen (leap = true) m ∧
    cumDays leap (m + 1) = cumDays leap m + specMonthLen (leap = true) m ∧
    28 ≤ specMonthLen (leap = true) m ∧ specMonthLen (leap = true) m ≤ 31 ∧
    0 ≤ cumDays leap m ∧ cumDays leap m + specMonthLen (leap = true) m ≤ 366 ∧
    gMonths.getD (m - 1).toNat 0 + (if m = 2 ∧ leap then 1 else 0) = specMonthLen (leap = true) m := by
  decide +kernel

theorem month_loop_table : ∀ leap : Bool, ∀ m ∈ Finset.Icc (1 : ℤ) 12, ∀ d ∈ Finset.Icc (1 : ℤ) 31,
    d ≤ specMonthLen (leap = true) m →
    posixMonthLoop (cumDays leap m + d) (monthDays leap) 1 0 = some (m, d) := by
  decide +kernel

theorem cum_year (leap : Bool) : cumDays leap 13 = 365 + (if leap then 1 else 0) := by
  revert leap; decide +kernel

theorem cum_first (leap : Bool) : cumDays leap 1 = 0 := by
  revert leap; decide +kernel

theorem cum_last (leap : Bool) : cumDays leap 12 = 334 + (if leap then 1 else 0) := by
  revert leap; decide +kernel

theorem specMonthLen_leap (y m : ℤ) :
    specMonthLen (SpecLeapGregorian y) m = specMonthLen (gIsLeap y = true) m := by
  unfold specMonthLen
  by_cases h : SpecLeapGregorian y
  · rw [if_pos h, if_pos ((gIsLeap_iff y).mpr h)]
  · rw [if_neg h, if_neg (fun g => h ((gIsLeap_iff y).mp g))]

/-- The loop over the months on rational days is the one on the next whole day. -/
theorem gregMonthLoop_eq {days : ℚ} (hfl : ∀ k : ℤ, |k| ≤ 400 → fl (days - k) = days - k)
    (L : List ℤ) (month d : ℤ) (hd : 0 ≤ d) (hL : ∀ x ∈ L, 0 ≤ x) (hs : d + L.sum ≤ 400) {r : ℤ × ℤ}
    (h : posixMonthLoop ⌈days⌉ L month d = some r) : gregMonthLoop days L month d = r := by
  induction L generalizing month d with
  | nil => simp [posixMonthLoop] at h
  | cons x rest ih =>
    have hx := hL x (by simp)
    have hr : 0 ≤ rest.sum := List.sum_nonneg (fun y hy => hL y (by simp [hy]))
    rw [List.sum_cons] at hs
    unfold posixMonthLoop at h
    unfold gregMonthLoop
    by_cases hc : d + x < ⌈days⌉
    · rw [if_pos hc] at h
      rw [if_pos (Int.lt_ceil.mp hc)]
      exact ih _ _ (by omega) (fun y hy => hL y (by simp [hy])) (by omega) h
    · rw [if_neg hc] at h
      rw [if_neg (fun g => hc (Int.lt_ceil.mpr g))]
      injection h with h
      rw [← h, add_sub_cancel_right, hfl d (by rw [abs_of_nonneg hd]; omega), Int.ceil_sub_intCast]

theorem monthDays_sum (leap : Bool) : (monthDays leap).sum ≤ 366 ∧ ∀ x ∈ monthDays leap, 0 ≤ x := by
  revert leap; decide +kernel

/-! ### The loop over the years -/

theorem daysInYears_leap (y : ℤ) :
    daysInYears y = daysInYears (y - 1) + 365 + (if gIsLeap y then 1 else 0) := by
  by_cases h : gIsLeap y = true
  · rw [if_pos h]
    rw [gIsLeap_iff] at h
    unfold SpecLeapGregorian at h
    rw [daysInYears_eq, daysInYears_eq]; omega
  · rw [if_neg h]
    rw [gIsLeap_iff] at h
    unfold SpecLeapGregorian at h
    rw [daysInYears_eq, daysInYears_eq]; omega

theorem fl_gt_iff {md : ℚ} (hfl : ∀ k : ℤ, |md - k| ≤ 1000 → fl (md - k) = md - k) (k : ℤ) :
    365 < fl (md - k) ↔ 365 < md - k := by
  by_cases h : |md - (k : ℚ)| ≤ 1000
  · rw [hfl k h]
  · rw [abs_le] at h
    push Not at h
    have i365 : IsF64 365 := by unfold IsF64; decide +kernel
    have i1000 : IsF64 1000 := by unfold IsF64; decide +kernel
    by_cases hc : -1000 ≤ md - (k : ℚ)
    · have h := h hc
      have := le_fl_of_le h.le i1000
      constructor <;> intro <;> linarith
    · have := fl_le_of_le (x := md - (k : ℚ)) (y := 365) (by linarith) i365
      constructor <;> intro <;> linarith

/-- The loop stops, with less than `fuel` rounds. -/
theorem gregLoop_exit {md : ℚ} (hfl : ∀ k : ℤ, |md - k| ≤ 1000 → fl (md - k) = md - k) :
    ∀ (fuel : ℕ) (Y : ℤ), -1 < md - daysInYears Y → md - daysInYears Y < fuel + 300 →
      ∃ Y', gregLoop md false fuel Y (fl (md - daysInYears Y)) = (Y', md - daysInYears Y') ∧
        -1 < md - daysInYears Y' ∧ md - daysInYears Y' ≤ 365 ∧ Y ≤ Y' ∧
        (Y' = Y ∨ 365 < md - daysInYears (Y' - 1)) := by
  intro fuel
  induction fuel with
  | zero =>
    intro Y h1 h2
    push_cast at h2
    rw [hfl _ (by rw [abs_le]; constructor <;> linarith)]
    refine ⟨Y, rfl, h1, ?_, le_refl _, Or.inl rfl⟩
    linarith
  | succ n ih =>
    intro Y h1 h2
    unfold gregLoop
    by_cases hc : 365 < md - (daysInYears Y : ℚ)
    · rw [if_pos ((fl_gt_iff hfl _).mpr hc)]
      have st := daysInYears_leap (Y + 1)
      rw [add_sub_cancel_right] at st
      have s1 : daysInYears Y + 365 ≤ daysInYears (Y + 1) := by split_ifs at st <;> omega
      have s2 : daysInYears (Y + 1) ≤ daysInYears Y + 366 := by split_ifs at st <;> omega
      have s1q : (daysInYears Y : ℚ) + 365 ≤ daysInYears (Y + 1) := by exact_mod_cast s1
      have s2q : (daysInYears (Y + 1) : ℚ) ≤ daysInYears Y + 366 := by exact_mod_cast s2
      push_cast at h2
      obtain ⟨Y', e, a, b, c, d⟩ := ih (Y + 1) (by linarith) (by linarith)
      refine ⟨Y', e, a, b, by omega, Or.inr ?_⟩
      rcases d with d | d
      · rw [d, add_sub_cancel_right]; exact hc
      · exact d
    · rw [if_neg (fun g => hc ((fl_gt_iff hfl _).mp g)),
        hfl _ (by rw [abs_le]; constructor <;> linarith)]
      exact ⟨Y, rfl, h1, not_lt.mp hc, le_refl _, Or.inl rfl⟩

/-! ### The end of the conversion -/

/-- The part of `gregorian_date_from_jd` after the year has been found. -/
def gregEnd (jd : ℚ) (year : ℤ) (days : ℚ) : GDate :=
  let md := monthDays (gIsLeap year)
  let (month, day) := gregMonthLoop days md 1 0
  let f := pyMod1 jd
  let day := fl (day + fl (f - (if 1 / 2 < f then 3 / 2 else 1 / 2)))
  let (year, month, day) :=
    if day < 1 then
      let month := if 1 < month then month - 1 else month + 11
      let day := fl (md.getD (month - 1).toNat 0 + day)
      (if month = 12 then year - 1 else year, month, day)
    else (year, month, day)
  ⟨year, month, pyRound day 12, []⟩

/-- The part of `gregorian_date_from_jd` after the year loop. -/
def gregTail (jd : ℚ) (yd : ℤ × ℚ) : GDate :=
  if yd.2 = 0 then gregEnd jd yd.1 (if yd.1 < 0 ∧ yd.1 % 4 ≠ 0 then (365 : ℚ) else 366)
  else gregEnd jd (yd.1 + 1) yd.2

theorem gregorianFromJdExact_tail (jd : ℚ) : gregorianFromJdExact jd =
    gregTail jd (gregLoop (fl (jd - (gregorianEpoch - 1))) false
      (⌊fl (fl (jd - (gregorianEpoch - 1)) - daysInYears
        (if fl (jd - (gregorianEpoch - 1)) < gregorianEpoch - 1 then
          (⌊|fl (fl (jd - (gregorianEpoch - 1)) / fl 365.2421897)|⌋ + 1) * -1
          else ⌊|fl (fl (jd - (gregorianEpoch - 1)) / fl 365.2421897)|⌋ + 1))⌋.toNat + 1)
      (if fl (jd - (gregorianEpoch - 1)) < gregorianEpoch - 1 then
          (⌊|fl (fl (jd - (gregorianEpoch - 1)) / fl 365.2421897)|⌋ + 1) * -1
          else ⌊|fl (fl (jd - (gregorianEpoch - 1)) / fl 365.2421897)|⌋ + 1)
      (fl (fl (jd - (gregorianEpoch - 1)) - daysInYears
        (if fl (jd - (gregorianEpoch - 1)) < gregorianEpoch - 1 then
          (⌊|fl (fl (jd - (gregorianEpoch - 1)) / fl 365.2421897)|⌋ + 1) * -1
          else ⌊|fl (fl (jd - (gregorianEpoch - 1)) / fl 365.2421897)|⌋ + 1)))) := by
  unfold gregTail gregEnd gregorianFromJdExact
  simp only
  split_ifs <;> rfl

theorem fl_grid_sum {t : ℚ} {j : ℤ} (ht : t = j / 2 ^ 32) (j0 : 0 ≤ j) (j1 : j < 2 ^ 32) (n : ℤ)
    (hn : |n| ≤ 2 ^ 19) : fl ((n : ℚ) / 2 + t) = n / 2 + t := by
  have e : (n : ℚ) / 2 + t = ((n * 2 ^ 31 + j : ℤ) : ℚ) / 2 ^ 32 := by
    rw [ht]; push_cast; ring
  rw [abs_le] at hn
  rw [e, fl_grid]
  rw [abs_le]
  constructor <;> omega

/-- The end of the conversion, in terms of the whole day reached by the loop. -/
theorem gregEnd_eq {jd t : ℚ} {j : ℤ} (ht : t = j / 2 ^ 32) (j0 : 0 ≤ j) (j1 : j < 2 ^ 32)
    (hf : pyMod1 jd = if t < 1 / 2 then t + 1 / 2 else t - 1 / 2) {y : ℤ} {days : ℚ}
    (hfl : ∀ k : ℤ, |k| ≤ 400 → fl (days - k) = days - k) {M E : ℤ}
    (hl : posixMonthLoop ⌈days⌉ (monthDays (gIsLeap y)) 1 0 = some (M, E)) (hE : -1 ≤ E)
    (hE1 : E ≤ 31) {q : ℤ} (hq : q = if j = 0 then E else E - 1) :
    gregEnd jd y days =
      if 1 ≤ q then ⟨y, M, pyRound (q + t) 12, []⟩
      else if 1 < M then
        ⟨if M - 1 = 12 then y - 1 else y, M - 1,
          pyRound (((monthDays (gIsLeap y)).getD (M - 1 - 1).toNat 0 + q : ℤ) + t) 12, []⟩
      else ⟨if M + 11 = 12 then y - 1 else y, M + 11,
        pyRound (((monthDays (gIsLeap y)).getD (M + 11 - 1).toNat 0 + q : ℤ) + t) 12, []⟩ := by
  have t0 : 0 ≤ t := by rw [ht]; positivity
  have t1 : t < 1 := by
    rw [ht, div_lt_one (by norm_num)]
    exact_mod_cast j1
  have mdr : ∀ (l : Bool) (i : ℕ), 0 ≤ (monthDays l).getD i 0 ∧ (monthDays l).getD i 0 ≤ 31 := by
    intro l i
    by_cases hi : i < 12
    · revert i l; decide +kernel
    · rw [List.getD_eq_getElem?_getD, List.getElem?_eq_none (by cases l <;> simp [monthDays] <;> omega)]
      simp
  unfold gregEnd
  simp only
  rw [gregMonthLoop_eq hfl _ 1 0 le_rfl (monthDays_sum _).2 (by have := (monthDays_sum (gIsLeap y)).1; omega) hl]
  simp only
  have hday : fl ((E : ℚ) + fl (pyMod1 jd - (if 1 / 2 < pyMod1 jd then 3 / 2 else 1 / 2))) = q + t := by
    rw [hf]
    by_cases hj : j = 0
    · have : t = 0 := by rw [ht, hj]; simp
      rw [if_pos hj] at hq
      rw [this, hq]
      norm_num
      rw [fl_zero, add_zero, fl_int _ (by rw [abs_le]; constructor <;> omega)]
    · rw [if_neg hj] at hq
      have tp : 0 < t := by
        rw [ht]
        have : (0 : ℚ) < j := by exact_mod_cast (by omega : 0 < j)
        positivity
      have g1 := fl_grid_sum ht j0 j1 (-2) (by norm_num)
      have g2 := fl_grid_sum ht j0 j1 (2 * (E - 1)) (by rw [abs_le]; constructor <;> omega)
      have c : (if t < 1 / 2 then t + 1 / 2 else t - 1 / 2) -
          (if 1 / 2 < (if t < 1 / 2 then t + 1 / 2 else t - 1 / 2) then (3 / 2 : ℚ) else 1 / 2)
          = ((-2 : ℤ) : ℚ) / 2 + t := by
        by_cases h : t < 1 / 2
        · rw [if_pos h, if_pos (by linarith)]; push_cast; ring
        · rw [if_neg h, if_neg (by linarith)]; push_cast; ring
      rw [c, g1, hq]
      push_cast at g2 ⊢
      rw [show (E : ℚ) + (-2 / 2 + t) = 2 * ((E : ℚ) - 1) / 2 + t by ring, g2]
      ring
  rw [hday]
  have hc : (q : ℚ) + t < 1 ↔ ¬ 1 ≤ q := by
    constructor
    · intro h h'
      have : (1 : ℚ) ≤ q := by exact_mod_cast h'
      linarith
    · intro h
      have : (q : ℚ) ≤ 0 := by exact_mod_cast (by omega : q ≤ 0)
      linarith
  have hsum : ∀ i : ℕ, fl ((((monthDays (gIsLeap y)).getD i 0 : ℤ) : ℚ) + (q + t))
      = (((monthDays (gIsLeap y)).getD i 0 + q : ℤ) : ℚ) + t := by
    intro i
    have := mdr (gIsLeap y) i
    have g := fl_grid_sum ht j0 j1 (2 * ((monthDays (gIsLeap y)).getD i 0 + q))
      (by rw [abs_le]; split_ifs at hq <;> constructor <;> omega)
    push_cast at g ⊢
    rw [mul_div_cancel_left₀ _ (two_ne_zero)] at g
    rw [← add_assoc, g]
  by_cases h1 : 1 ≤ q
  · rw [if_pos h1, if_neg (fun g => (hc.mp g) h1)]
  · rw [if_neg h1, if_pos (hc.mpr h1)]
    by_cases h2 : 1 < M
    · simp only [if_pos h2, hsum]
    · simp only [if_neg h2, hsum]

theorem cum_before_last : ∀ leap : Bool, ∀ m ∈ Finset.Icc (1 : ℤ) 11,
    cumDays leap m + specMonthLen (leap = true) m ≤ cumDays leap 12 := by
  decide +kernel

theorem year_unique {a b N : ℤ} (h1 : daysInYears (a - 1) < N) (h2 : N ≤ daysInYears a)
    (h3 : daysInYears (b - 1) < N) (h4 : N ≤ daysInYears b) : a = b := by
  by_contra hne
  rcases lt_or_gt_of_ne hne with h | h
  · have := daysInYears_mono (show a ≤ b - 1 by omega); omega
  · have := daysInYears_mono (show b ≤ a - 1 by omega); omega

theorem ceil_grid {t : ℚ} {j : ℤ} (ht : t = j / 2 ^ 32) (j0 : 0 ≤ j) (j1 : j < 2 ^ 32) (n : ℤ) :
    ⌈(n : ℚ) + t⌉ = if j = 0 then n else n + 1 := by
  split_ifs with h
  · rw [ht, h]; simp
  · have tp : 0 < t := by
      rw [ht]
      have : (0 : ℚ) < j := by exact_mod_cast (by omega : 0 < j)
      positivity
    have t1 : t < 1 := by
      rw [ht, div_lt_one (by norm_num)]
      exact_mod_cast j1
    rw [Int.ceil_eq_iff]
    push_cast
    constructor <;> linarith

/-- Facts about a date: days before it in its year. -/
theorem valid_facts {y m d : ℤ} (hv : ValidG y m d) :
    posixMonthLoop (cumDays (gIsLeap y) m + d) (monthDays (gIsLeap y)) 1 0 = some (m, d) ∧
    1 ≤ cumDays (gIsLeap y) m + d ∧
    daysInYears (y - 1) + (cumDays (gIsLeap y) m + d) ≤ daysInYears y := by
  obtain ⟨h1, h2, h3, h4⟩ := hv
  rw [specMonthLen_leap] at h4
  have hm : m ∈ Finset.Icc (1 : ℤ) 12 := by simp; omega
  obtain ⟨f1, f2, f3, f4, f5, f6, f7⟩ := month_facts (gIsLeap y) m hm
  refine ⟨month_loop_table _ m hm d (by simp; omega) h4, by omega, ?_⟩
  have st := daysInYears_leap y
  have c12 := cum_last (gIsLeap y)
  by_cases e : m = 12
  · subst e
    have : specMonthLen (gIsLeap y = true) 12 = 31 := by unfold specMonthLen; norm_num
    omega
  · have := cum_before_last (gIsLeap y) m (by simp; omega)
    omega

/-- A day number that is the last or last but one of its year. -/
theorem last_days {y m d k : ℤ} (hv : ValidG y m d) (hk : k = 30 ∨ k = 31)
    (h : cumDays (gIsLeap y) m + d = cumDays (gIsLeap y) 12 + k) : m = 12 ∧ d = k := by
  have h31 : specMonthLen (gIsLeap y = true) 12 = 31 := by unfold specMonthLen; norm_num
  have a := (valid_facts hv).1
  have b := month_loop_table (gIsLeap y) 12 (by simp) k (by simp; omega) (by omega)
  rw [h, b] at a
  simp only [Option.some.injEq, Prod.mk.injEq] at a
  omega

/-- First guess of the year for a day before the epoch. -/
theorem guess_neg {n : ℤ} (n0 : 0 ≤ n) (n1 : n ≤ 400000000) {k : ℤ}
    (hk : k = ⌊|fl ((-n : ℤ) / fl 365.2421897)|⌋ + 1) :
    1 ≤ k ∧ 0 ≤ -n - daysInYears (-k) ∧
    (-n = daysInYears (-k) → -k % 4 = 0 → gIsLeap (-k) = true) := by
  have T0 : fl 365.2421897 ≤ 365.24218971 ∧ (365 : ℚ) ≤ fl 365.2421897 := by decide +kernel
  obtain ⟨T0, T1⟩ := T0
  set T := fl 365.2421897 with hT
  norm_num at T0
  have Tp : 0 < T := by linarith
  have e : |fl (((-n : ℤ) : ℚ) / T)| = fl ((n : ℚ) / T) := by
    push_cast
    rw [neg_div, fl_neg, abs_neg, abs_of_nonneg (fl_nonneg (by
      have : (0 : ℚ) ≤ n := by exact_mod_cast n0
      positivity))]
  rw [e] at hk
  have nq : (0 : ℚ) ≤ n := by exact_mod_cast n0
  have k1 : 1 ≤ k := by
    have := Int.floor_nonneg.mpr (fl_nonneg (show 0 ≤ (n : ℚ) / T by positivity))
    omega
  have key : 10000000 * n < 3652421898 * k := by
    have h := Int.lt_floor_add_one (fl ((n : ℚ) / T))
    rw [show ((⌊fl ((n : ℚ) / T)⌋ : ℚ) + 1) = k by rw [hk]; push_cast; ring] at h
    have er := abs_le.mp (fl_err ((n : ℚ) / T))
    rw [abs_of_nonneg (show 0 ≤ (n : ℚ) / T by positivity)] at er
    have kq : (1 : ℚ) ≤ k := by exact_mod_cast k1
    have : (n : ℚ) / T < k * (1 + 1 / 4503599627370496) := by
      have := er.1
      nlinarith
    rw [div_lt_iff₀ Tp] at this
    have h2 : (n : ℚ) < k * (1 + 1 / 4503599627370496) * 365.24218971 := by
      refine this.trans_le ?_
      norm_num
      apply mul_le_mul_of_nonneg_left T0
      positivity
    have : ((10000000 * n : ℤ) : ℚ) < ((3652421898 * k : ℤ) : ℚ) := by
      push_cast
      norm_num at h2
      linarith
    exact_mod_cast this
  refine ⟨k1, ?_, ?_⟩
  · rw [daysInYears_eq]; omega
  · intro h h4
    by_contra hn
    rw [gIsLeap_iff] at hn
    unfold SpecLeapGregorian at hn
    rw [daysInYears_eq] at h
    omega

theorem pyMod1_half {n : ℤ} {t : ℚ} (t0 : 0 ≤ t) (t1 : t < 1) (h : t = 0 ∨ 0 ≤ n) :
    pyMod1 ((n : ℚ) + 1 / 2 + t) = if t < 1 / 2 then t + 1 / 2 else t - 1 / 2 := by
  by_cases hx : 0 ≤ (n : ℚ) + 1 / 2 + t
  · rw [pyMod1_of_nonneg hx]
    split_ifs with ht
    · rw [show (n : ℚ) + 1 / 2 + t = t + 1 / 2 + n by ring, Int.fract_add_intCast,
        Int.fract_eq_self.mpr ⟨by linarith, by linarith⟩]
    · rw [show (n : ℚ) + 1 / 2 + t = t - 1 / 2 + ((n + 1 : ℤ) : ℚ) by push_cast; ring,
        Int.fract_add_intCast, Int.fract_eq_self.mpr ⟨by linarith, by linarith⟩]
  · have tz : t = 0 := by
      rcases h with h | h
      · exact h
      · have : (0 : ℚ) ≤ n := by exact_mod_cast h
        exact absurd (by linarith) hx
    rw [tz] at hx ⊢
    have c : ⌈(n : ℚ) + 1 / 2 + 0⌉ = n + 1 := by
      rw [Int.ceil_eq_iff]; push_cast; constructor <;> linarith
    unfold pyMod1
    rw [if_neg hx]
    simp only [c]
    rw [if_neg (by push_cast; intro h; linarith)]
    have : (n : ℚ) + 1 / 2 + 0 - ((n + 1 : ℤ) : ℚ) + 1 = 1 / 2 := by push_cast; ring
    rw [this]
    decide +kernel

/-- Number of days of a date from the end of year 0, day 1 being 1 January 1. -/
def dayG (y m d : ℤ) : ℤ := daysInYears (y - 1) + cumDays (gIsLeap y) m + d

theorem dayG_bounds {y m d : ℤ} (hv : ValidG y m d) :
    daysInYears (y - 1) < dayG y m d ∧ dayG y m d ≤ daysInYears y := by
  obtain ⟨-, a, b⟩ := valid_facts hv
  unfold dayG
  omega

theorem gregorianFromJdExact_eq {y m d : ℤ} (hv : ValidG y m d) {t : ℚ} {j : ℤ} (ht : t = j / 2 ^ 32)
    (j0 : 0 ≤ j) (j1 : j < 2 ^ 32) (hy0 : -1000000 ≤ y) (hy1 : y ≤ 4713) (hj : j = 0 ∨ 1 ≤ y) :
    gregorianFromJdExact ((dayG y m d : ℚ) + t + 1721422.5) = ⟨y, m, pyRound (d + t) 12, []⟩ := by
  obtain ⟨vl, v1, v2⟩ := valid_facts hv
  obtain ⟨b1, b2⟩ := dayG_bounds hv
  obtain ⟨m1, m2, d1, d2⟩ := id hv
  have t0 : 0 ≤ t := by rw [ht]; positivity
  have t1 : t < 1 := by
    rw [ht, div_lt_one (by norm_num)]
    exact_mod_cast j1
  have tp : j ≠ 0 → 0 < t := by
    intro h
    rw [ht]
    have : (0 : ℚ) < j := by exact_mod_cast (by omega : 0 < j)
    positivity
  have tz : j = 0 → t = 0 := by rintro rfl; rw [ht]; simp
  have dN : dayG y m d = daysInYears (y - 1) + (cumDays (gIsLeap y) m + d) := by unfold dayG; ring
  have Nhi : dayG y m d ≤ 1721387 := by
    have := daysInYears_mono hy1
    have e : daysInYears 4713 = 1721387 := by decide
    omega
  have Nlo : -400000000 ≤ dayG y m d := by
    have := daysInYears_mono (show -1000001 ≤ y - 1 by omega)
    have e : daysInYears (-1000001) = -365242866 := by decide
    omega
  have Npos : 1 ≤ y → 1 ≤ dayG y m d := by
    intro h
    have := daysInYears_mono (show 0 ≤ y - 1 by omega)
    have e : daysInYears 0 = 0 := by decide
    omega
  have Nneg : y ≤ 0 → dayG y m d ≤ 0 := by
    intro h
    have := daysInYears_mono h
    have e : daysInYears 0 = 0 := by decide
    omega
  set N := dayG y m d with hN
  have ep : gregorianEpoch - 1 = 1721422.5 := by unfold gregorianEpoch; norm_num
  have hflm : fl ((N : ℚ) + t) = N + t := by
    by_cases h : j = 0
    · rw [tz h, add_zero, fl_int _ (by rw [abs_le]; constructor <;> omega)]
    · have e : (N : ℚ) + t = ((N * 2 ^ 32 + j : ℤ) : ℚ) / 2 ^ 32 := by rw [ht]; push_cast; ring
      have := Npos (by omega)
      rw [e, fl_grid _ _ (by rw [abs_le]; constructor <;> omega)]
  have hmd : fl ((N : ℚ) + t + 1721422.5 - (gregorianEpoch - 1)) = N + t := by
    rw [ep, add_sub_cancel_right, hflm]
  have hmod : pyMod1 ((N : ℚ) + t + 1721422.5) = if t < 1 / 2 then t + 1 / 2 else t - 1 / 2 := by
    have := pyMod1_half (n := N + 1721422) t0 t1 (by
      by_cases h : j = 0
      · exact Or.inl (tz h)
      · have := Npos (by omega)
        right; omega)
    rw [← this]
    congr 1
    push_cast
    ring
  have hfl : ∀ k : ℤ, |(N : ℚ) + t - k| ≤ 1000 → fl ((N : ℚ) + t - k) = N + t - k := by
    intro k hk
    have g := fl_grid_sum ht j0 j1 (2 * (N - k)) (by
      rw [abs_le] at hk
      have h1 : ((-1001 : ℤ) : ℚ) < ((N - k : ℤ) : ℚ) := by push_cast; linarith
      have h2 : ((N - k : ℤ) : ℚ) < ((1001 : ℤ) : ℚ) := by push_cast; linarith
      rw [Int.cast_lt] at h1 h2
      rw [abs_le]; constructor <;> omega)
    push_cast at g
    rw [mul_div_cancel_left₀ _ (two_ne_zero), show (N : ℚ) - k + t = N + t - k by ring] at g
    exact g
  rw [gregorianFromJdExact_tail, hmd]
  have hlt : (N : ℚ) + t < gregorianEpoch - 1 := by
    rw [ep]
    have : (N : ℚ) ≤ 1721387 := by exact_mod_cast Nhi
    norm_num
    linarith
  rw [if_pos hlt]
  set S := (⌊|fl (((N : ℚ) + t) / fl 365.2421897)|⌋ + 1) * -1 with hS
  have S1 : S ≤ -1 := by
    have := Int.floor_nonneg.mpr (abs_nonneg (fl (((N : ℚ) + t) / fl 365.2421897)))
    omega
  have DS : daysInYears S ≤ -366 := by
    have := daysInYears_mono S1
    have e : daysInYears (-1) = -366 := by decide
    omega
  have hstart : (1 ≤ N ∨ (j = 0 ∧ 0 ≤ N - daysInYears S ∧
      (N = daysInYears S → S % 4 = 0 → gIsLeap S = true))) := by
    by_cases h : 1 ≤ y
    · exact Or.inl (Npos h)
    · right
      have hj0 : j = 0 := by omega
      have n0 := Nneg (by omega)
      refine ⟨hj0, ?_⟩
      have g := guess_neg (n := -N) (by omega) (by omega) (k := -S) (by
        rw [hS, tz hj0]; push_cast; ring_nf)
      rw [neg_neg, neg_neg] at g
      exact ⟨g.2.1, g.2.2⟩
  have hd0 : -1 < (N : ℚ) + t - daysInYears S := by
    have : (0 : ℚ) ≤ ((N - daysInYears S : ℤ) : ℚ) := by
      exact_mod_cast (by rcases hstart with h | h <;> omega)
    push_cast at this
    linarith
  have hfuel : (N : ℚ) + t - daysInYears S <
      ((⌊fl ((N : ℚ) + t - daysInYears S)⌋.toNat + 1 : ℕ) : ℚ) + 300 := by
    set v := (N : ℚ) + t - daysInYears S with hv'
    have vb : |v| ≤ 1000000000 := by
      have DSlo : -500000000 ≤ daysInYears S := by
        have T1 : (365 : ℚ) ≤ fl 365.2421897 := by decide +kernel
        have Nq : |(N : ℚ) + t| ≤ 400000001 := by
          have q1 : (-400000000 : ℚ) ≤ N := by exact_mod_cast Nlo
          have q2 : (N : ℚ) ≤ 1721387 := by exact_mod_cast Nhi
          rw [abs_le]; constructor <;> linarith
        have h1 : |((N : ℚ) + t) / fl 365.2421897| ≤ 1100000 := by
          rw [abs_div, abs_of_pos (show 0 < fl 365.2421897 by linarith), div_le_iff₀ (by linarith)]
          linarith
        have h2 := fl_err_le h1
        have h3 : |fl (((N : ℚ) + t) / fl 365.2421897)| ≤ 1100001 := by
          rw [abs_le] at h1 h2 ⊢
          constructor <;> linarith
        have h4 := (Int.floor_le _).trans h3
        have h4 : ⌊|fl (((N : ℚ) + t) / fl 365.2421897)|⌋ ≤ 1100001 := by exact_mod_cast h4
        have h5 := daysInYears_mono (show -1100002 ≤ S by omega)
        have e : daysInYears (-1100002) = -401767481 := by decide
        omega
      have q1 : (-500000000 : ℚ) ≤ daysInYears S := by exact_mod_cast DSlo
      have q2 : (N : ℚ) ≤ 1721387 := by exact_mod_cast Nhi
      rw [abs_le]; constructor <;> linarith
    have er := abs_le.mp (fl_err_le vb)
    have f1 := Int.lt_floor_add_one (fl v)
    have f2 := Int.self_le_toNat ⌊fl v⌋
    have f2 : (⌊fl v⌋ : ℚ) ≤ ((⌊fl v⌋.toNat : ℤ) : ℚ) := by exact_mod_cast f2
    push_cast at f2 ⊢
    linarith
  obtain ⟨Y, eL, e1, e2, e3, e4⟩ := gregLoop_exit hfl _ S hd0 hfuel
  rw [eL]
  have st := daysInYears_leap Y
  have stn := daysInYears_leap (Y + 1)
  rw [add_sub_cancel_right] at stn
  have i1 : -1 ≤ N - daysInYears Y := by
    have : ((-2 : ℤ) : ℚ) < ((N - daysInYears Y : ℤ) : ℚ) := by push_cast; linarith
    rw [Int.cast_lt] at this; omega
  have i2 : N - daysInYears Y ≤ 365 := by
    have : ((N - daysInYears Y : ℤ) : ℚ) ≤ ((365 : ℤ) : ℚ) := by push_cast; linarith
    rw [Int.cast_le] at this; omega
  have i2' : j ≠ 0 → N - daysInYears Y ≤ 364 := by
    intro h
    have := tp h
    have : ((N - daysInYears Y : ℤ) : ℚ) < ((365 : ℤ) : ℚ) := by push_cast; linarith
    rw [Int.cast_lt] at this; omega
  have i3 : j = 0 → 0 ≤ N - daysInYears Y := by
    intro h
    have := tz h
    have : ((-1 : ℤ) : ℚ) < ((N - daysInYears Y : ℤ) : ℚ) := by push_cast; linarith
    rw [Int.cast_lt] at this; omega
  have i4 : Y = S ∨ 364 < N - daysInYears (Y - 1) := by
    rcases e4 with h | h
    · exact Or.inl h
    · right
      have : ((364 : ℤ) : ℚ) < ((N - daysInYears (Y - 1) : ℤ) : ℚ) := by push_cast; linarith
      rw [Int.cast_lt] at this; exact this
  have i4' : j = 0 → Y = S ∨ 365 < N - daysInYears (Y - 1) := by
    intro hj
    rcases e4 with h | h
    · exact Or.inl h
    · right
      rw [tz hj] at h
      have : ((365 : ℤ) : ℚ) < ((N - daysInYears (Y - 1) : ℤ) : ℚ) := by push_cast; linarith
      rw [Int.cast_lt] at this; exact this
  have hdays : (N : ℚ) + t - daysInYears Y = ((N - daysInYears Y : ℤ) : ℚ) + t := by push_cast; ring
  have hfld : ∀ k : ℤ, |k| ≤ 400 → fl (((N - daysInYears Y : ℤ) : ℚ) + t - k)
      = ((N - daysInYears Y : ℤ) : ℚ) + t - k := by
    intro k hk
    have := hfl (daysInYears Y + k) (by
      push_cast
      rw [abs_le] at hk ⊢
      have k1 : (-400 : ℚ) ≤ k := by exact_mod_cast hk.1
      have k2 : (k : ℚ) ≤ 400 := by exact_mod_cast hk.2
      constructor <;> linarith)
    push_cast at this ⊢
    rw [show (N : ℚ) - daysInYears Y + t - k = N + t - (daysInYears Y + k) by ring]
    exact this
  unfold gregTail
  simp only
  rw [hdays]
  set δ := N - daysInYears Y with hδ
  have c12 := cum_last (gIsLeap y)
  by_cases hδ1 : 1 ≤ δ
  · -- the usual case
    have hyY : y = Y + 1 := by
      apply year_unique b1 b2 (by rw [add_sub_cancel_right]; omega)
      split_ifs at stn <;> omega
    have hδd : δ = cumDays (gIsLeap y) m + d := by
      have : daysInYears (y - 1) = daysInYears Y := by rw [hyY, add_sub_cancel_right]
      omega
    rw [if_neg (by
      intro h
      have : (1 : ℚ) ≤ δ := by exact_mod_cast hδ1
      linarith), ← hyY]
    have hm : m ∈ Finset.Icc (1 : ℤ) 12 := by simp; omega
    obtain ⟨f1, f2, f3, f4, f5, f6, f7⟩ := month_facts (gIsLeap y) m hm
    rw [specMonthLen_leap] at d2
    have hc := ceil_grid ht j0 j1 δ
    by_cases hj0 : j = 0
    · rw [if_pos hj0, hδd] at hc
      rw [gregEnd_eq ht j0 j1 hmod hfld (M := m) (E := d) (by rw [hδd, hc]; exact vl) (by omega)
        (by omega) (q := d) (by rw [if_pos hj0]), if_pos d1]
    · rw [if_neg hj0, hδd] at hc
      by_cases hdl : d < specMonthLen (gIsLeap y = true) m
      · have := month_loop_table (gIsLeap y) m hm (d + 1) (by simp; omega) (by omega)
        rw [gregEnd_eq ht j0 j1 hmod hfld (M := m) (E := d + 1) (by rw [hδd, hc, add_assoc]; exact this)
          (by omega) (by omega) (q := d) (by rw [if_neg hj0]; ring), if_pos d1]
      · have hm12 : m ≠ 12 := by
          rintro rfl
          have := i2' hj0
          split_ifs at c12 <;>
          · have : specMonthLen (gIsLeap y = true) 12 = 31 := by unfold specMonthLen; norm_num
            omega
        have hm' : m + 1 ∈ Finset.Icc (1 : ℤ) 12 := by simp; omega
        have f' := month_facts (gIsLeap y) (m + 1) hm'
        have := month_loop_table (gIsLeap y) (m + 1) hm' 1 (by simp) (by omega)
        rw [gregEnd_eq ht j0 j1 hmod hfld (M := m + 1) (E := 1) (by
            rw [hδd, hc, ← this]; congr 1; omega) (by omega) (by omega) (q := 0)
            (by rw [if_neg hj0]; ring), if_neg (by omega), if_pos (by omega), add_sub_cancel_right,
            if_neg hm12, f1]
        have : specMonthLen (gIsLeap y = true) m = d := by omega
        rw [this, add_zero]
  · have hyY : y = Y := by
      apply year_unique b1 b2 _ (by omega)
      rcases i4 with h | h
      · split_ifs at st <;> omega
      · omega
    subst hyY
    have h31 : specMonthLen (gIsLeap y = true) 12 = 31 := by unfold specMonthLen; norm_num
    have hδ0 : δ = 0 ∨ δ = -1 := by omega
    rcases hδ0 with hδ0 | hδ0
    · have hl : m = 12 ∧ d = 31 := last_days hv (Or.inr rfl) (by split_ifs at st c12 <;> omega)
      obtain ⟨rfl, rfl⟩ := hl
      by_cases hj0 : j = 0
      · rw [if_pos (by rw [hδ0, tz hj0]; simp)]
        have hcond : (if y < 0 ∧ y % 4 ≠ 0 then (365 : ℚ) else 366) =
            ((cumDays (gIsLeap y) 12 + 31 : ℤ) : ℚ) := by
          by_cases hleap : gIsLeap y = true
          · have := (gIsLeap_iff y).mp hleap
            unfold SpecLeapGregorian at this
            rw [if_neg (by omega), c12, if_pos hleap]; norm_num
          · have hYS : y = S := by
              rcases i4' hj0 with h | h
              · exact h
              · rw [if_neg hleap] at st; omega
            rcases hstart with h | ⟨-, -, h⟩
            · exfalso
              have := daysInYears_mono (show y ≤ -1 by omega)
              omega
            · have h4 : ¬ S % 4 = 0 := by
                intro h4
                exact hleap (by rw [hYS]; exact h (by rw [← hYS]; omega) h4)
              rw [if_pos (by omega), c12, if_neg hleap]; norm_num
        rw [hcond]
        have i31 := month_facts (gIsLeap y) 12 (by simp)
        rw [gregEnd_eq ht j0 j1 hmod (M := 12) (E := 31) (fun k hk => by
            rw [← Int.cast_sub, fl_int _ (by rw [abs_le] at hk ⊢; constructor <;> omega)])
          (by rw [Int.ceil_intCast]; exact vl) (by omega) (by omega) (q := 31) (by rw [if_pos hj0]),
          if_pos (by omega)]
      · rw [if_neg (by rw [hδ0]; have := tp hj0; push_cast; intro h; linarith)]
        have hc := ceil_grid ht j0 j1 δ
        rw [if_neg hj0, hδ0] at hc
        have := month_loop_table (gIsLeap (y + 1)) 1 (by simp) 1 (by simp) (by unfold specMonthLen; norm_num)
        rw [gregEnd_eq ht j0 j1 hmod hfld (M := 1) (E := 1) (by
            rw [hδ0, hc, ← this, cum_first]) (by omega) (by omega) (q := 0)
            (by rw [if_neg hj0]; ring), if_neg (by omega), if_neg (by omega)]
        have e31 := (month_facts (gIsLeap (y + 1)) 12 (by simp)).1
        have h31' : specMonthLen (gIsLeap (y + 1) = true) 12 = 31 := by unfold specMonthLen; norm_num
        rw [h31'] at e31
        norm_num
        norm_num at e31
        rw [e31]
        norm_num
    · have hj0 : j ≠ 0 := fun h => by have := i3 h; omega
      have hl : m = 12 ∧ d = 30 := last_days hv (Or.inl rfl) (by
        rcases i4 with h | h
        · exfalso
          rcases hstart with h' | h'
          · have := congrArg daysInYears h
            omega
          · exact hj0 h'.1
        · split_ifs at st c12 <;> omega)
      obtain ⟨rfl, rfl⟩ := hl
      rw [if_neg (by rw [hδ0]; push_cast; intro h; linarith)]
      have hc := ceil_grid ht j0 j1 δ
      rw [if_neg hj0, hδ0] at hc
      have : posixMonthLoop 0 (monthDays (gIsLeap (y + 1))) 1 0 = some (1, 0) := by
        cases gIsLeap (y + 1) <;> decide
      rw [gregEnd_eq ht j0 j1 hmod hfld (M := 1) (E := 0) (by
          rw [hδ0, hc, ← this]; rfl) (by omega) (by omega) (q := -1)
          (by rw [if_neg hj0]; ring), if_neg (by omega), if_neg (by omega)]
      have e31 := (month_facts (gIsLeap (y + 1)) 12 (by simp)).1
      have h31' : specMonthLen (gIsLeap (y + 1) = true) 12 = 31 := by unfold specMonthLen; norm_num
      rw [h31'] at e31
      norm_num
      norm_num at e31
      rw [e31]
      norm_num

theorem validG_next {y m d : ℤ} (hv : ValidG y m d) :
    ValidG (nextG y m d).1 (nextG y m d).2.1 (nextG y m d).2.2 := by
  obtain ⟨m1, m2, d1, d2⟩ := hv
  have len1 : ∀ y' m' : ℤ, 1 ≤ specMonthLen (SpecLeapGregorian y') m' := by
    intro y' m'
    unfold specMonthLen
    split_ifs <;> omega
  unfold nextG
  by_cases a : d < specMonthLen (SpecLeapGregorian y) m
  · rw [if_pos a]
    exact ⟨m1, m2, by simp only; omega, by simp only; omega⟩
  · rw [if_neg a]
    by_cases b : m < 12
    · rw [if_pos b]
      exact ⟨by simp only; omega, by simp only; omega, le_refl _, len1 _ _⟩
    · rw [if_neg b]
      exact ⟨le_refl _, by norm_num, le_refl _, len1 _ _⟩

theorem dayG_next {y m d : ℤ} (hv : ValidG y m d) :
    dayG (nextG y m d).1 (nextG y m d).2.1 (nextG y m d).2.2 = dayG y m d + 1 := by
  obtain ⟨m1, m2, d1, d2⟩ := hv
  unfold nextG
  by_cases a : d < specMonthLen (SpecLeapGregorian y) m
  · rw [if_pos a]
    unfold dayG; simp only; ring
  · rw [if_neg a]
    obtain ⟨-, f2, -⟩ := month_facts (gIsLeap y) m (by simp; omega)
    rw [specMonthLen_leap] at a d2
    by_cases b : m < 12
    · rw [if_pos b]
      unfold dayG; simp only
      rw [f2]; omega
    · rw [if_neg b]
      have hm : m = 12 := by omega
      subst hm
      have c := cum_year (gIsLeap y)
      have st := daysInYears_leap y
      unfold dayG; simp only
      rw [cum_first, add_sub_cancel_right]
      norm_num at f2
      omega

theorem iterate_nextG (n : ℕ) {y m d : ℤ}
    (h : (y, m, d) = (fun g : ℤ × ℤ × ℤ => nextG g.1 g.2.1 g.2.2)^[n] (1970, 1, 1)) :
    ValidG y m d ∧ dayG y m d = dayG 1970 1 1 + n := by
  have key : ∀ n : ℕ, ∀ y m d : ℤ,
      (y, m, d) = (fun g : ℤ × ℤ × ℤ => nextG g.1 g.2.1 g.2.2)^[n] (1970, 1, 1) →
      ValidG y m d ∧ dayG y m d = dayG 1970 1 1 + n := by
    intro n
    induction n with
    | zero =>
      intro y m d h
      simp only [Function.iterate_zero, id_eq, Prod.mk.injEq] at h
      obtain ⟨rfl, rfl, rfl⟩ := h
      exact ⟨by decide +kernel, by simp⟩
    | succ k ih =>
      intro y m d h
      rw [Function.iterate_succ_apply'] at h
      set g := (fun g : ℤ × ℤ × ℤ => nextG g.1 g.2.1 g.2.2)^[k] (1970, 1, 1) with hg
      obtain ⟨v, e⟩ := ih g.1 g.2.1 g.2.2 rfl
      have v' := validG_next v
      have e' := dayG_next v
      rw [← h] at v' e'
      refine ⟨v', ?_⟩
      simp only at e'
      rw [e', e]; push_cast; ring
  exact key n y m d h

end Verif
