import Verif.Py.Float

/-!
# Facts about binary64 rounding

Helper lemmas about `fl`, `pyRound`, `pyMod1`, `roundHalfEven`.
-/

namespace Verif

theorem pow2_eq (e : ℤ) : pow2 e = (2 : ℚ) ^ e := by
  cases e with
  | ofNat n => simp [pow2]
  | negSucc n => simp [pow2, zpow_negSucc]

theorem pow2_pos (e : ℤ) : 0 < pow2 e := by rw [pow2_eq]; exact zpow_pos (by norm_num) e

theorem pow2_add (a b : ℤ) : pow2 (a + b) = pow2 a * pow2 b := by
  simp only [pow2_eq]; exact zpow_add₀ (by norm_num) _ _

theorem pow2_le {a b : ℤ} (h : a ≤ b) : pow2 a ≤ pow2 b := by
  simp only [pow2_eq]; exact zpow_le_zpow_right₀ (by norm_num) h

theorem pow2_lt {a b : ℤ} (h : a < b) : pow2 a < pow2 b := by
  simp only [pow2_eq]; exact zpow_lt_zpow_right₀ (by norm_num) h

theorem pow2_lt_iff {a b : ℤ} : pow2 a < pow2 b ↔ a < b := by
  simp only [pow2_eq]; exact zpow_lt_zpow_iff_right₀ (by norm_num)

theorem pow2_nat (n : ℕ) : pow2 (n : ℤ) = 2 ^ n := by
  rw [pow2_eq]; simp

/-- The binary exponent brackets the magnitude. -/
theorem ilog2_spec (x : ℚ) (hx : x ≠ 0) :
    pow2 (ilog2 x) ≤ |x| ∧ |x| < pow2 (ilog2 x + 1) := by
  have hn : x.num.natAbs ≠ 0 := by simpa using hx
  have hd : x.den ≠ 0 := x.den_ne_zero
  have hxabs : |x| = (x.num.natAbs : ℚ) / (x.den : ℚ) := by
    conv_lhs => rw [← Rat.num_div_den x]
    rw [abs_div]; congr 1
    · rw [← Int.cast_abs, Int.abs_eq_natAbs]; rfl
    · simp
  have h1 := Nat.log2_self_le hn
  have h2 := @Nat.lt_log2_self x.num.natAbs
  have h3 := Nat.log2_self_le hd
  have h4 := @Nat.lt_log2_self x.den
  have dpos : (0 : ℚ) < x.den := by positivity
  have h1' : (2 : ℚ) ^ (x.num.natAbs.log2) ≤ (x.num.natAbs : ℚ) := by exact_mod_cast h1
  have h2' : (x.num.natAbs : ℚ) < 2 ^ (x.num.natAbs.log2 + 1) := by exact_mod_cast h2
  have h3' : (2 : ℚ) ^ (x.den.log2) ≤ (x.den : ℚ) := by exact_mod_cast h3
  have h4' : (x.den : ℚ) < 2 ^ (x.den.log2 + 1) := by exact_mod_cast h4
  set a := x.num.natAbs.log2
  set b := x.den.log2
  have hub : |x| < pow2 ((a : ℤ) - b + 1) := by
    rw [hxabs, div_lt_iff₀ dpos]
    have : pow2 ((a : ℤ) - b + 1) * (2 : ℚ) ^ b = 2 ^ (a + 1) := by
      rw [← pow2_nat b, ← pow2_add, ← pow2_nat]; congr 1; push_cast; ring
    calc (x.num.natAbs : ℚ) < 2 ^ (a + 1) := h2'
      _ = pow2 ((a : ℤ) - b + 1) * (2 : ℚ) ^ b := this.symm
      _ ≤ _ := by apply mul_le_mul_of_nonneg_left h3' (pow2_pos _).le
  have hlb : pow2 ((a : ℤ) - b - 1) ≤ |x| := by
    rw [hxabs, le_div_iff₀ dpos]
    have : pow2 ((a : ℤ) - b - 1) * (2 : ℚ) ^ (b + 1) = 2 ^ a := by
      rw [← pow2_nat (b + 1), ← pow2_add, ← pow2_nat]; congr 1; push_cast; ring
    calc pow2 ((a : ℤ) - b - 1) * (x.den : ℚ) ≤ pow2 ((a : ℤ) - b - 1) * 2 ^ (b + 1) := by
          apply mul_le_mul_of_nonneg_left h4'.le (pow2_pos _).le
      _ = 2 ^ a := this
      _ ≤ _ := h1'
  unfold ilog2
  simp only
  change pow2 (if pow2 ((a : ℤ) - b) ≤ |x| then (a : ℤ) - b else (a : ℤ) - b - 1) ≤ |x| ∧
    |x| < pow2 ((if pow2 ((a : ℤ) - b) ≤ |x| then (a : ℤ) - b else (a : ℤ) - b - 1) + 1)
  split_ifs with h
  · exact ⟨h, hub⟩
  · refine ⟨hlb, ?_⟩
    rw [sub_add_cancel]; exact lt_of_not_ge h

theorem ilog2_unique {x : ℚ} {e : ℤ} (h1 : pow2 e ≤ |x|) (h2 : |x| < pow2 (e + 1)) :
    ilog2 x = e := by
  have hx : x ≠ 0 := by
    rintro rfl; simp at h1; exact absurd h1 (not_le.mpr (pow2_pos e))
  obtain ⟨h3, h4⟩ := ilog2_spec x hx
  have a := pow2_lt_iff.mp (lt_of_le_of_lt h1 h4)
  have b := pow2_lt_iff.mp (lt_of_le_of_lt h3 h2)
  omega

/-! ### Rounding to integer -/

theorem roundHalfEven_err (x : ℚ) : |(roundHalfEven x : ℚ) - x| ≤ 1 / 2 := by
  have h1 := Int.floor_le x
  have h2 := Int.lt_floor_add_one x
  unfold roundHalfEven
  simp only
  rw [abs_le]
  split_ifs <;> push_cast <;> constructor <;> linarith

theorem roundHalfEven_int (n : ℤ) : roundHalfEven (n : ℚ) = n := by
  unfold roundHalfEven; simp

theorem roundHalfEven_of_close {x : ℚ} {n : ℤ} (h : |x - n| < 1 / 2) :
    roundHalfEven x = n := by
  have h1 := roundHalfEven_err x
  rw [abs_le] at h1
  rw [abs_lt] at h
  have a : ((roundHalfEven x : ℤ) : ℚ) < (n : ℚ) + 1 := by linarith
  have b : ((n : ℤ) : ℚ) < (roundHalfEven x : ℚ) + 1 := by linarith
  have a' : roundHalfEven x < n + 1 := by exact_mod_cast a
  have b' : n < roundHalfEven x + 1 := by exact_mod_cast b
  omega

theorem roundHalfEven_mono {x y : ℚ} (h : x ≤ y) : roundHalfEven x ≤ roundHalfEven y := by
  rcases lt_or_ge ⌊x⌋ ⌊y⌋ with hf | hf
  · have hx : roundHalfEven x ≤ ⌊x⌋ + 1 := by
      unfold roundHalfEven; simp only; split_ifs <;> omega
    have hy : ⌊y⌋ ≤ roundHalfEven y := by
      unfold roundHalfEven; simp only; split_ifs <;> omega
    omega
  · have : ⌊x⌋ = ⌊y⌋ := le_antisymm (Int.floor_le_floor h) hf
    unfold roundHalfEven
    simp only [this]
    split_ifs <;> first | omega | (exfalso; linarith)

theorem floor_le_roundHalfEven (x : ℚ) : ⌊x⌋ ≤ roundHalfEven x := by
  unfold roundHalfEven; simp only; split_ifs <;> omega

theorem roundHalfEven_le_floor_add_one (x : ℚ) : roundHalfEven x ≤ ⌊x⌋ + 1 := by
  unfold roundHalfEven; simp only; split_ifs <;> omega

theorem roundHalfEven_nonneg {x : ℚ} (h : 0 ≤ x) : 0 ≤ roundHalfEven x := by
  have := roundHalfEven_mono h
  have h0 : roundHalfEven 0 = 0 := by simpa using roundHalfEven_int 0
  omega

theorem roundHalfEven_neg (x : ℚ) : roundHalfEven (-x) = - roundHalfEven x := by
  rcases lt_trichotomy (x - ⌊x⌋) (1 / 2) with h | h | h
  · have h0 := Int.floor_le x
    have e1 : roundHalfEven x = ⌊x⌋ := by unfold roundHalfEven; simp only; rw [if_pos h]
    rw [e1]
    apply roundHalfEven_of_close
    push_cast; rw [abs_lt]; constructor <;> linarith
  · have hx : x = ⌊x⌋ + 1 / 2 := by linarith
    have hfl : ⌊-x⌋ = -⌊x⌋ - 1 := by
      rw [Int.floor_eq_iff]; push_cast; constructor <;> linarith
    unfold roundHalfEven
    simp only [hfl]
    push_cast
    have e2 : ¬ (-x - (-(⌊x⌋ : ℚ) - 1) < 1 / 2) := by linarith
    have e3 : ¬ (1 / 2 < -x - (-(⌊x⌋ : ℚ) - 1)) := by linarith
    have e4 : ¬ (x - (⌊x⌋ : ℚ) < 1 / 2) := by linarith
    have e5 : ¬ (1 / 2 < x - (⌊x⌋ : ℚ)) := by linarith
    rw [if_neg e2, if_neg e3, if_neg e4, if_neg e5]
    split_ifs <;> omega
  · have h0 := Int.lt_floor_add_one x
    have e1 : roundHalfEven x = ⌊x⌋ + 1 := by
      unfold roundHalfEven; simp only; rw [if_neg (by linarith), if_pos h]
    rw [e1]
    apply roundHalfEven_of_close
    push_cast; rw [abs_lt]; constructor <;> linarith

/-! ### binary64 rounding -/

theorem fl_zero : fl 0 = 0 := by simp [fl]

theorem fl_ne {x : ℚ} (hx : x ≠ 0) :
    fl x = roundHalfEven (x / pow2 (ilog2 x - 52)) * pow2 (ilog2 x - 52) := by
  simp [fl, hx]

theorem fl_ulp_err {x : ℚ} (hx : x ≠ 0) : |fl x - x| ≤ pow2 (ilog2 x - 53) := by
  rw [fl_ne hx]
  set u := pow2 (ilog2 x - 52) with hu
  have up : 0 < u := pow2_pos _
  have h := roundHalfEven_err (x / u)
  have e : (roundHalfEven (x / u) : ℚ) * u - x = ((roundHalfEven (x / u) : ℚ) - x / u) * u := by
    field_simp
  have hh : pow2 (ilog2 x - 53) = 1 / 2 * u := by
    rw [hu, show ilog2 x - 52 = (ilog2 x - 53) + 1 by ring, pow2_add]
    have : pow2 1 = 2 := pow2_nat 1
    rw [this]; ring
  rw [e, abs_mul, abs_of_pos up, hh]
  exact mul_le_mul_of_nonneg_right h up.le

/-- Relative error at most `2^-53`. -/
theorem fl_err (x : ℚ) : |fl x - x| ≤ |x| / 9007199254740992 := by
  by_cases hx : x = 0
  · simp [hx, fl_zero]
  · have h1 := fl_ulp_err hx
    have h2 := (ilog2_spec x hx).1
    have h3 : pow2 (ilog2 x - 53) = pow2 (ilog2 x) / 9007199254740992 := by
      rw [show ilog2 x - 53 = ilog2 x + (-53) by ring, pow2_add]
      simp only [pow2_eq]; norm_num [div_eq_mul_inv]
    rw [h3] at h1
    refine h1.trans ?_
    exact div_le_div_of_nonneg_right h2 (by norm_num)

theorem fl_err_le {x B : ℚ} (h : |x| ≤ B) : |fl x - x| ≤ B / 9007199254740992 :=
  (fl_err x).trans (div_le_div_of_nonneg_right h (by norm_num))

theorem ilog2_neg (x : ℚ) : ilog2 (-x) = ilog2 x := by
  unfold ilog2; simp

theorem fl_neg (x : ℚ) : fl (-x) = - fl x := by
  by_cases hx : x = 0
  · simp [hx, fl_zero]
  · rw [fl_ne hx, fl_ne (neg_ne_zero.mpr hx), ilog2_neg, neg_div, roundHalfEven_neg]
    push_cast; ring

/-- A number with at most 53 significant bits is not changed. -/
theorem fl_dyadic (k : ℤ) (e : ℤ) (hk : |k| ≤ 2 ^ 53) : fl (k * pow2 e) = k * pow2 e := by
  by_cases h0 : k = 0
  · simp [h0, fl_zero]
  have hx : (k : ℚ) * pow2 e ≠ 0 := mul_ne_zero (by exact_mod_cast h0) (pow2_pos e).ne'
  set x : ℚ := k * pow2 e with hxd
  obtain ⟨h1, h2⟩ := ilog2_spec x hx
  have habs : |x| = |(k : ℚ)| * pow2 e := by rw [hxd, abs_mul, abs_of_pos (pow2_pos e)]
  have hkq : |(k : ℚ)| ≤ 2 ^ 53 := by exact_mod_cast hk
  -- the exponent of x is at most e + 53
  have hle : pow2 (ilog2 x) ≤ pow2 (e + 53) := by
    rw [pow2_add]
    calc pow2 (ilog2 x) ≤ |x| := h1
      _ = |(k : ℚ)| * pow2 e := habs
      _ ≤ 2 ^ 53 * pow2 e := mul_le_mul_of_nonneg_right hkq (pow2_pos e).le
      _ = pow2 e * pow2 53 := by
        rw [mul_comm]; congr 1
  have hle' : ilog2 x ≤ e + 53 := by
    by_contra hc
    exact absurd hle (not_le.mpr (pow2_lt (by omega)))
  rw [fl_ne hx]
  rcases eq_or_lt_of_le hle' with heq | hlt
  · -- |k| = 2^53, x = ± 2^(e+53)
    have hk53 : |(k : ℚ)| = 2 ^ 53 := by
      apply le_antisymm hkq
      rw [heq, habs, pow2_add, mul_comm] at h1
      have := le_of_mul_le_mul_right h1 (pow2_pos e)
      have h53 : pow2 53 = 2 ^ 53 := pow2_nat 53
      rwa [h53] at this
    have hdiv : x / pow2 (ilog2 x - 52) = ((k / 2 : ℤ) : ℚ) := by
      have hkk : k = 2 ^ 53 ∨ k = - 2 ^ 53 := by
        have : |k| = 2 ^ 53 := by exact_mod_cast hk53
        rcases abs_choice k with h | h <;> omega
      have : x / pow2 (ilog2 x - 52) = (k : ℚ) / 2 := by
        rw [heq, hxd, show e + 53 - 52 = e + 1 by ring, pow2_add]
        have := (pow2_pos e).ne'
        have h2 : pow2 1 = 2 := pow2_nat 1
        rw [h2]; field_simp
      rw [this]
      rcases hkk with h | h <;> rw [h] <;> norm_num
    rw [hdiv, roundHalfEven_int, ← hdiv]
    exact div_mul_cancel₀ _ (pow2_pos _).ne'
  · obtain ⟨n, hn⟩ : ∃ n : ℕ, e = (ilog2 x - 52) + n := ⟨(e - (ilog2 x - 52)).toNat, by omega⟩
    have hdiv : x / pow2 (ilog2 x - 52) = ((k * 2 ^ n : ℤ) : ℚ) := by
      rw [div_eq_iff (pow2_pos _).ne', hxd]
      conv_lhs => rw [hn, pow2_add, pow2_nat]
      push_cast; ring
    rw [hdiv, roundHalfEven_int, ← hdiv]
    exact div_mul_cancel₀ _ (pow2_pos _).ne'

theorem fl_int (n : ℤ) (h : |n| ≤ 2 ^ 53) : fl (n : ℚ) = n := by
  have := fl_dyadic n 0 h
  simpa [pow2] using this

/-- Half integers are exact. -/
theorem fl_half (n : ℤ) (h : |n| ≤ 2 ^ 53) : fl ((n : ℚ) / 2) = n / 2 := by
  have h1 := fl_dyadic n (-1) h
  have : pow2 (-1) = 1 / 2 := by rw [pow2_eq]; norm_num
  rw [this] at h1
  rw [show (n : ℚ) / 2 = n * (1 / 2) by ring]; exact h1

theorem fl_nonneg {x : ℚ} (h : 0 ≤ x) : 0 ≤ fl x := by
  by_cases hx : x = 0
  · simp [hx, fl_zero]
  · rw [fl_ne hx]
    apply mul_nonneg _ (pow2_pos _).le
    have := roundHalfEven_nonneg (div_nonneg h (pow2_pos (ilog2 x - 52)).le)
    exact_mod_cast this

theorem fl_ge_pow2 {x : ℚ} (hx : 0 < x) : pow2 (ilog2 x) ≤ fl x := by
  have hs := ilog2_spec x hx.ne'
  rw [abs_of_pos hx] at hs
  rw [fl_ne hx.ne']
  set u := pow2 (ilog2 x - 52) with hu
  have up : 0 < u := pow2_pos _
  have h52 : pow2 (ilog2 x) = (2 ^ 52 : ℤ) * u := by
    rw [hu, show ilog2 x = (ilog2 x - 52) + 52 by ring, pow2_add, mul_comm]
    norm_num [pow2]
  have hle : ((2 ^ 52 : ℤ) : ℚ) ≤ x / u := by
    rw [le_div_iff₀ up, ← h52]; exact hs.1
  have := roundHalfEven_mono hle
  rw [roundHalfEven_int] at this
  rw [h52]
  apply mul_le_mul_of_nonneg_right _ up.le
  exact_mod_cast this

theorem fl_le_pow2 {x : ℚ} (hx : 0 < x) : fl x ≤ pow2 (ilog2 x + 1) := by
  have hs := ilog2_spec x hx.ne'
  rw [abs_of_pos hx] at hs
  rw [fl_ne hx.ne']
  set u := pow2 (ilog2 x - 52) with hu
  have up : 0 < u := pow2_pos _
  have h53 : pow2 (ilog2 x + 1) = (2 ^ 53 : ℤ) * u := by
    rw [hu, show ilog2 x + 1 = (ilog2 x - 52) + 53 by ring, pow2_add, mul_comm]
    norm_num [pow2]
  have hle : x / u ≤ ((2 ^ 53 : ℤ) : ℚ) := by
    rw [div_le_iff₀ up, ← h53]; exact hs.2.le
  have := roundHalfEven_mono hle
  rw [roundHalfEven_int] at this
  rw [h53]
  apply mul_le_mul_of_nonneg_right _ up.le
  exact_mod_cast this

theorem fl_mono_pos {x y : ℚ} (hx : 0 < x) (h : x ≤ y) : fl x ≤ fl y := by
  have hy : 0 < y := lt_of_lt_of_le hx h
  have sx := ilog2_spec x hx.ne'
  have sy := ilog2_spec y hy.ne'
  rw [abs_of_pos hx] at sx
  rw [abs_of_pos hy] at sy
  have hle : ilog2 x ≤ ilog2 y := by
    have := pow2_lt_iff.mp (lt_of_le_of_lt (sx.1.trans h) sy.2)
    omega
  rcases eq_or_lt_of_le hle with he | hlt
  · rw [fl_ne hx.ne', fl_ne hy.ne', he]
    apply mul_le_mul_of_nonneg_right _ (pow2_pos _).le
    have := roundHalfEven_mono (div_le_div_of_nonneg_right h (pow2_pos (ilog2 y - 52)).le)
    exact_mod_cast this
  · exact (fl_le_pow2 hx).trans ((pow2_le (by omega)).trans (fl_ge_pow2 hy))

/-- Rounding is monotone. -/
theorem fl_mono {x y : ℚ} (h : x ≤ y) : fl x ≤ fl y := by
  rcases lt_trichotomy x 0 with hx | hx | hx
  · rcases lt_or_ge y 0 with hy | hy
    · have := fl_mono_pos (x := -y) (y := -x) (by linarith) (by linarith)
      rw [fl_neg, fl_neg] at this; linarith
    · have h1 := fl_nonneg (x := -x) (by linarith)
      rw [fl_neg] at h1
      linarith [fl_nonneg hy]
  · subst hx; rw [fl_zero]; exact fl_nonneg h
  · exact fl_mono_pos hx h

/-- The result of a rounding has at most 53 significant bits. -/
theorem fl_form {x : ℚ} (hx : x ≠ 0) : ∃ k : ℤ, |k| ≤ 2 ^ 53 ∧ fl x = k * pow2 (ilog2 x - 52) := by
  refine ⟨roundHalfEven (x / pow2 (ilog2 x - 52)), ?_, fl_ne hx⟩
  have up := pow2_pos (ilog2 x - 52)
  have hs := (ilog2_spec x hx).2
  have h53 : pow2 (ilog2 x + 1) = (2 ^ 53 : ℤ) * pow2 (ilog2 x - 52) := by
    rw [show ilog2 x + 1 = (ilog2 x - 52) + 53 by ring, pow2_add, mul_comm]
    norm_num [pow2]
  have hb : |x / pow2 (ilog2 x - 52)| ≤ ((2 ^ 53 : ℤ) : ℚ) := by
    rw [abs_div, abs_of_pos up, div_le_iff₀ up, ← h53]; exact hs.le
  rw [abs_le] at hb ⊢
  constructor
  · have := roundHalfEven_mono hb.1
    rw [← Int.cast_neg, roundHalfEven_int] at this
    exact_mod_cast this
  · have := roundHalfEven_mono hb.2
    rw [roundHalfEven_int] at this
    exact_mod_cast this

theorem fl_idem (x : ℚ) : fl (fl x) = fl x := by
  by_cases hx : x = 0
  · simp [hx, fl_zero]
  · obtain ⟨k, hk, he⟩ := fl_form hx
    rw [he]; exact fl_dyadic k _ hk

theorem isF64_fl (x : ℚ) : IsF64 (fl x) := fl_idem x

theorem isF64_int {n : ℤ} (h : |n| ≤ 2 ^ 53) : IsF64 (n : ℚ) := fl_int n h

theorem fl_le_of_le {x y : ℚ} (h : x ≤ y) (hy : IsF64 y) : fl x ≤ y := by
  have := fl_mono h; rwa [hy] at this

theorem le_fl_of_le {x y : ℚ} (h : y ≤ x) (hy : IsF64 y) : y ≤ fl x := by
  have := fl_mono h; rwa [hy] at this

/-- A float of magnitude at least `2^e` is a multiple of `2^(e-52)`. -/
theorem isF64_multiple {y : ℚ} {e : ℤ} (hy : IsF64 y) (h : pow2 e ≤ |y|) :
    ∃ k : ℤ, y = k * pow2 (e - 52) := by
  have hy0 : y ≠ 0 := by
    rintro rfl; simp at h; exact absurd h (not_le.mpr (pow2_pos e))
  obtain ⟨k, _, hk⟩ := fl_form hy0
  rw [hy] at hk
  have hs := (ilog2_spec y hy0).2
  have : e < ilog2 y + 1 := pow2_lt_iff.mp (lt_of_le_of_lt h hs)
  obtain ⟨n, hn⟩ : ∃ n : ℕ, ilog2 y - 52 = (e - 52) + n := ⟨(ilog2 y - e).toNat, by omega⟩
  refine ⟨k * 2 ^ n, ?_⟩
  rw [hk, hn, pow2_add, pow2_nat]; push_cast; ring

/-- A value close to a float (relative to the spacing) rounds to that float. -/
theorem fl_eq_of_close {x y : ℚ} {e : ℤ} (hy : IsF64 y) (hye : pow2 e ≤ |y|)
    (h : |x - y| < pow2 (e - 54)) : fl x = y := by
  obtain ⟨ky, hky⟩ := isF64_multiple hy hye
  have hp : pow2 e = 2 ^ 54 * pow2 (e - 54) := by
    rw [show e = (e - 54) + 54 by ring, pow2_add, mul_comm]
    norm_num [pow2]
  have hu : pow2 (e - 54) = pow2 (e - 53) / 2 := by
    rw [show e - 53 = (e - 54) + 1 by ring, pow2_add]
    have : pow2 1 = 2 := pow2_nat 1
    rw [this]; ring
  have hu2 : pow2 (e - 53) = pow2 (e - 52) / 2 := by
    rw [show e - 52 = (e - 53) + 1 by ring, pow2_add]
    have : pow2 1 = 2 := pow2_nat 1
    rw [this]; ring
  have up := pow2_pos (e - 54)
  -- |x| ≥ 2^(e-1)
  have hxl : pow2 (e - 1) ≤ |x| := by
    have h1 : |y| - |x| ≤ |x - y| := by
      have := abs_sub_abs_le_abs_sub y x; rwa [abs_sub_comm] at this
    have h2 : pow2 (e - 1) = pow2 e / 2 := by
      rw [show pow2 e = pow2 ((e - 1) + 1) by rw [sub_add_cancel], pow2_add]
      have : pow2 1 = 2 := pow2_nat 1
      rw [this]; ring
    rw [h2]
    nlinarith [hp, h, hye]
  have hx0 : x ≠ 0 := by
    rintro rfl; simp at hxl; exact absurd hxl (not_le.mpr (pow2_pos _))
  -- error of rounding x
  by_cases hxe : pow2 e ≤ |x|
  · -- fl x is a multiple of 2^(e-52) within half a unit, plus small offset
    obtain ⟨k, hk⟩ := isF64_multiple (isF64_fl x) (e := e) (by
      rcases abs_cases x with ⟨ha, hb⟩ | ⟨ha, hb⟩
      · have hpx : 0 < x := lt_of_le_of_ne hb (Ne.symm hx0)
        rw [ha] at hxe
        have : pow2 e ≤ fl x := by
          apply le_fl_of_le hxe
          have := fl_dyadic 1 e (by norm_num); simpa [IsF64] using this
        exact this.trans (le_abs_self _)
      · rw [ha] at hxe
        have : pow2 e ≤ fl (-x) := by
          apply le_fl_of_le hxe
          have := fl_dyadic 1 e (by norm_num); simpa [IsF64] using this
        rw [fl_neg] at this
        exact this.trans (neg_le_abs _))
    -- y rounds to itself; use monotonicity with the nearest multiples: distance argument
    have herr := fl_ulp_err hx0
    -- exponent of x is e or more; if more then the bound is weaker, use nearest property via y
    -- direct: roundHalfEven property with unit of x
    obtain ⟨hs1, hs2⟩ := ilog2_spec x hx0
    have hge : e ≤ ilog2 x := by
      have := pow2_lt_iff.mp (lt_of_le_of_lt hxe hs2); omega
    -- y is a multiple of the unit of x, or close to a power of two boundary
    have hyu : ∃ k' : ℤ, y = k' * pow2 (ilog2 x - 52) ∨ ilog2 x = e := by
      rcases eq_or_lt_of_le hge with heq | hlt
      · exact ⟨0, Or.inr heq.symm⟩
      · by_cases hyy : pow2 (ilog2 x) ≤ |y|
        · obtain ⟨k', hk'⟩ := isF64_multiple hy hyy
          exact ⟨k', Or.inl hk'⟩
        · -- |y| < 2^(ilog2 x) ≤ |x|: y is a multiple of 2^(e-52) strictly below, at distance
          -- at least ... contradiction with closeness
          exfalso
          push Not at hyy
          -- |y| ≤ 2^i - 2^(i'-52) where both are multiples of 2^(e-52)
          have hkk : |y| = |(ky : ℚ)| * pow2 (e - 52) := by
            rw [hky, abs_mul, abs_of_pos (pow2_pos _)]
          obtain ⟨n, hn⟩ : ∃ n : ℕ, ilog2 x = (e - 52) + n := ⟨(ilog2 x - (e - 52)).toNat, by omega⟩
          have hpi : pow2 (ilog2 x) = ((2 ^ n : ℤ) : ℚ) * pow2 (e - 52) := by
            rw [hn, pow2_add, pow2_nat]; push_cast; ring
          rw [hkk, hpi] at hyy
          have h1 : |(ky : ℚ)| < ((2 ^ n : ℤ) : ℚ) := lt_of_mul_lt_mul_right hyy (pow2_pos _).le
          have h2 : |ky| + 1 ≤ 2 ^ n := by exact_mod_cast h1
          have h3 : |(ky : ℚ)| + 1 ≤ ((2 ^ n : ℤ) : ℚ) := by exact_mod_cast h2
          have h4 : |y| + pow2 (e - 52) ≤ |x| := by
            calc |y| + pow2 (e - 52) = (|(ky : ℚ)| + 1) * pow2 (e - 52) := by rw [hkk]; ring
              _ ≤ ((2 ^ n : ℤ) : ℚ) * pow2 (e - 52) :=
                mul_le_mul_of_nonneg_right h3 (pow2_pos _).le
              _ = pow2 (ilog2 x) := hpi.symm
              _ ≤ |x| := hs1
          have h5 := abs_sub_abs_le_abs_sub x y
          linarith
    obtain ⟨k', hk' | hk'⟩ := hyu
    · -- y = k' u
      have uu := pow2_pos (ilog2 x - 52)
      have hsmall : pow2 (e - 54) ≤ pow2 (ilog2 x - 52) / 4 := by
        have : pow2 (e - 52) ≤ pow2 (ilog2 x - 52) := pow2_le (by omega)
        linarith
      rw [fl_ne hx0]
      have : roundHalfEven (x / pow2 (ilog2 x - 52)) = k' := by
        apply roundHalfEven_of_close
        have : x / pow2 (ilog2 x - 52) - k' = (x - y) / pow2 (ilog2 x - 52) := by
          rw [hk']; field_simp
        rw [this, abs_div, abs_of_pos uu, div_lt_iff₀ uu]
        linarith
      rw [this, ← hk']
    · have uu := pow2_pos (e - 52)
      rw [fl_ne hx0, hk']
      have : roundHalfEven (x / pow2 (e - 52)) = ky := by
        apply roundHalfEven_of_close
        have : x / pow2 (e - 52) - ky = (x - y) / pow2 (e - 52) := by
          rw [hky]; field_simp
        rw [this, abs_div, abs_of_pos uu, div_lt_iff₀ uu]
        linarith
      rw [this, ← hky]
  · -- |x| just below 2^e: unit is 2^(e-53)
    push Not at hxe
    have hil : ilog2 x = e - 1 := ilog2_unique hxl (by rwa [sub_add_cancel])
    have uu := pow2_pos (e - 53)
    have hyk : y = ((2 * ky : ℤ) : ℚ) * pow2 (e - 53) := by
      rw [hky, hu2]; push_cast; ring
    rw [fl_ne hx0, hil, show e - 1 - 52 = e - 53 by ring]
    have : roundHalfEven (x / pow2 (e - 53)) = 2 * ky := by
      apply roundHalfEven_of_close
      have : x / pow2 (e - 53) - ((2 * ky : ℤ) : ℚ) = (x - y) / pow2 (e - 53) := by
        rw [hyk]; field_simp
      rw [this, abs_div, abs_of_pos uu, div_lt_iff₀ uu]
      linarith
    rw [this, ← hyk]

/-! ### `round(x, n)` -/

theorem pyRound_err (x : ℚ) (n : ℕ) :
    |pyRound x n - x| ≤ (1 / 2) / 10 ^ n + (|x| + (1 / 2) / 10 ^ n) / 9007199254740992 := by
  unfold pyRound
  set r : ℚ := (roundHalfEven (x * 10 ^ n) : ℚ) / 10 ^ n with hr
  have tp : (0 : ℚ) < 10 ^ n := by positivity
  have h1 : |r - x| ≤ (1 / 2) / 10 ^ n := by
    have := roundHalfEven_err (x * 10 ^ n)
    have e : r - x = ((roundHalfEven (x * 10 ^ n) : ℚ) - x * 10 ^ n) / 10 ^ n := by
      rw [hr]; field_simp
    rw [e, abs_div, abs_of_pos tp]
    exact div_le_div_of_nonneg_right this tp.le
  have h2 := fl_err r
  have h3 : |r| ≤ |x| + (1 / 2) / 10 ^ n := by
    have := abs_sub_abs_le_abs_sub r x; linarith
  have h4 : |fl r - x| ≤ |fl r - r| + |r - x| := by
    have := abs_add_le (fl r - r) (r - x); simpa using this
  have h5 : |r| / 9007199254740992 ≤ (|x| + (1 / 2) / 10 ^ n) / 9007199254740992 :=
    div_le_div_of_nonneg_right h3 (by norm_num)
  linarith

/-- Rounding to 12 decimals does not change a float of magnitude at least `2^16`. -/
theorem pyRound12_id {x : ℚ} (hx : IsF64 x) (h : 2 ^ 16 ≤ |x|) : pyRound x 12 = x := by
  unfold pyRound
  apply fl_eq_of_close (e := 16) hx
  · have h16 : pow2 16 = 2 ^ 16 := pow2_nat 16
    rw [h16]; exact h
  · have tp : (0 : ℚ) < 10 ^ 12 := by positivity
    have := roundHalfEven_err (x * 10 ^ 12)
    have e : (roundHalfEven (x * 10 ^ 12) : ℚ) / 10 ^ 12 - x
        = ((roundHalfEven (x * 10 ^ 12) : ℚ) - x * 10 ^ 12) / 10 ^ 12 := by
      field_simp
    rw [e, abs_div, abs_of_pos tp, div_lt_iff₀ tp]
    refine lt_of_le_of_lt this ?_
    rw [pow2_eq]; norm_num

theorem pyRound_mono {x y : ℚ} (n : ℕ) (h : x ≤ y) : pyRound x n ≤ pyRound y n := by
  unfold pyRound
  apply fl_mono
  have tp : (0 : ℚ) < 10 ^ n := by positivity
  apply div_le_div_of_nonneg_right _ tp.le
  have := roundHalfEven_mono (mul_le_mul_of_nonneg_right h tp.le)
  exact_mod_cast this

theorem pyRound_int (k : ℤ) (n : ℕ) (h : |k| ≤ 2 ^ 53) : pyRound (k : ℚ) n = k := by
  unfold pyRound
  have : (k : ℚ) * 10 ^ n = ((k * 10 ^ n : ℤ) : ℚ) := by push_cast; ring
  rw [this, roundHalfEven_int]
  push_cast
  rw [mul_div_assoc, div_self (by positivity), mul_one, fl_int k h]

/-! ### `x % 1` -/

theorem pyMod1_nonneg (x : ℚ) : 0 ≤ pyMod1 x := by
  unfold pyMod1
  split_ifs with h
  · linarith [Int.floor_le x]
  · simp only
    split_ifs
    · exact le_refl _
    · apply fl_nonneg
      have := Int.ceil_lt_add_one x; linarith

theorem pyMod1_le_one (x : ℚ) : pyMod1 x ≤ 1 := by
  unfold pyMod1
  split_ifs with h
  · linarith [Int.lt_floor_add_one x]
  · simp only
    split_ifs
    · norm_num
    · apply fl_le_of_le
      · have := Int.le_ceil x; linarith
      · have := fl_int 1 (by norm_num); simpa [IsF64] using this

theorem pyMod1_of_nonneg {x : ℚ} (h : 0 ≤ x) : pyMod1 x = Int.fract x := by
  unfold pyMod1; rw [if_pos h]; rfl

theorem pyMod1_lt_one {x : ℚ} (h : 0 ≤ x) : pyMod1 x < 1 := by
  rw [pyMod1_of_nonneg h]; exact Int.fract_lt_one x

theorem pyMod1_int (n : ℤ) : pyMod1 (n : ℚ) = 0 := by
  unfold pyMod1; simp

end Verif
