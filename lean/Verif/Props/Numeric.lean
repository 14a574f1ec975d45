import Verif.Lemmas.Numeric
import Verif.Lemmas.Forward
import Verif.Model.Badi
import Verif.Spec.Witness
import Mathlib.Algebra.BigOperators.Group.Finset.Basic
import Mathlib.Algebra.BigOperators.Ring.Finset
import Mathlib.Tactic.Ring
import Mathlib.Tactic.LinearCombination

/-!
# Properties C41 to C47: numeric helpers
-/

namespace Verif

/-! ## C41 -/

/-- `r` is the integer nearest to `a / b`; of two equally near ones it is the even one. -/
def NearestEven (a b r : ℤ) : Prop := 2 * |a - r * b| ≤ |b| ∧ (2 * |a - r * b| = |b| → r % 2 = 0)

/-- C41. -/
theorem C41_divide_and_round (a b : ℤ) (hb : b ≠ 0) : NearestEven a b (divideAndRound a b) := by
  have e := Int.fmod_add_mul_fdiv a b
  have hc : b * a.fdiv b = a.fdiv b * b := mul_comm _ _
  have hr : (0 < b ∧ 0 ≤ a.fmod b ∧ a.fmod b < b) ∨ (b < 0 ∧ a.fmod b ≤ 0 ∧ b < a.fmod b) := by
    rcases lt_or_gt_of_ne hb with h | h
    · have h1 := Int.fmod_nonneg_of_pos (-a) (b := -b) (by omega)
      have h2 := Int.fmod_lt_of_pos (-a) (b := -b) (by omega)
      rw [Int.neg_fmod_neg] at h1 h2
      omega
    · exact Or.inl ⟨h, Int.fmod_nonneg_of_pos a h, Int.fmod_lt_of_pos a h⟩
  have key : divideAndRound a b = a.fdiv b +
      (if (0 < b ∧ b < a.fmod b * 2) ∨ (b < 0 ∧ a.fmod b * 2 < b) ∨
        (a.fmod b * 2 = b ∧ a.fdiv b % 2 = 1) then 1 else 0) := by
    unfold divideAndRound
    simp only
    congr 1
    apply if_congr _ rfl rfl
    rcases hr with ⟨h, -⟩ | ⟨h, -⟩
    · simp [h, not_lt.mpr h.le]
    · simp [h, not_lt.mpr h.le]
  unfold NearestEven
  rw [key]
  generalize a.fdiv b = q at *
  generalize a.fmod b = r at *
  split_ifs with h
  · rw [show a - (q + 1) * b = r - b by linear_combination -e + hc]
    rcases hr with ⟨h1, h2, h3⟩ | ⟨h1, h2, h3⟩
    · rw [abs_of_pos h1, abs_of_neg (by omega)]; exact ⟨by omega, by omega⟩
    · rw [abs_of_neg h1, abs_of_pos (by omega)]; exact ⟨by omega, by omega⟩
  · rw [add_zero, show a - q * b = r by linear_combination -e + hc]
    rcases hr with ⟨h1, h2, h3⟩ | ⟨h1, h2, h3⟩
    · rw [abs_of_pos h1, abs_of_nonneg h2]; exact ⟨by omega, by omega⟩
    · rw [abs_of_neg h1, abs_of_nonpos h2]; exact ⟨by omega, by omega⟩

/-- The description determines the result. -/
theorem C41_unique (a b r r' : ℤ) (hb : b ≠ 0) (h : NearestEven a b r) (h' : NearestEven a b r') :
    r = r' := by
  obtain ⟨h1, h2⟩ := h
  obtain ⟨h3, h4⟩ := h'
  by_contra hne
  have key : |(r' - r) * b| ≤ |b| := by
    have e : (r' - r) * b = (a - r * b) - (a - r' * b) := by ring
    rw [e]
    have := abs_sub (a - r * b) (a - r' * b)
    omega
  rw [abs_mul] at key
  have bp : 0 < |b| := abs_pos.mpr hb
  have k1 : |r' - r| ≤ 1 := by
    by_contra hc
    have : 2 * |b| ≤ |r' - r| * |b| := mul_le_mul_of_nonneg_right (by omega) bp.le
    omega
  have k2 : |r' - r| = 1 := by
    have : 0 < |r' - r| := abs_pos.mpr (by omega)
    omega
  have t : |(a - r * b) - (a - r' * b)| = |b| := by
    rw [show (a - r * b) - (a - r' * b) = (r' - r) * b by ring, abs_mul, k2, one_mul]
  have t2 := abs_sub (a - r * b) (a - r' * b)
  have e1 := h2 (by omega)
  have e2 := h4 (by omega)
  rcases abs_cases (r' - r) with ⟨h, -⟩ | ⟨h, -⟩ <;> omega

/-- Ties and negative divisors occur: -7 / 2 rounds to -4 and 5 / -2 to -2. -/
example : NearestEven (-7) 2 (-4) ∧ NearestEven 5 (-2) (-2) := by
  unfold NearestEven; decide

/-! ## C42 -/

/-- C42. -/
theorem C42_trim (l : List ℚ) :
    (∃ n, l = trimHms l ++ List.replicate n 0) ∧ (trimHms l).getLast? ≠ some 0 ∧
      trimHms (trimHms l) = trimHms l := by
  refine ⟨trimHms_append l, ?_, trimHms_idem l⟩
  rw [trimHms_eq, List.getLast?_reverse]
  intro h
  have := List.head?_dropWhile_not (· == (0 : ℚ)) l.reverse
  rw [h] at this
  simp at this

example : trimHms [12, 0, 30, 0, 0] = [12, 0, 30] := by decide +kernel

/-! ## C43 -/

/-- C43, decoding: every day fraction, also a negative one, decodes to a legal time of day that
differs by at most 2 ms from the fraction; with `us=True` the microsecond is legal too. -/
theorem C43_decode (dec : ℚ) :
    (0 ≤ (hmsFromDecimalDay dec).1 ∧ (hmsFromDecimalDay dec).1 ≤ 24 ∧
      0 ≤ (hmsFromDecimalDay dec).2.1 ∧ (hmsFromDecimalDay dec).2.1 < 60 ∧
      0 ≤ (hmsFromDecimalDay dec).2.2 ∧ (hmsFromDecimalDay dec).2.2 < 60 ∧
      |3600 * ((hmsFromDecimalDay dec).1 : ℚ) + 60 * (hmsFromDecimalDay dec).2.1
        + (hmsFromDecimalDay dec).2.2 - 86400 * pyMod1 dec| ≤ 1 / 500) ∧
    (0 ≤ (hmsFromDecimalDayUs dec).2.2.1 ∧ (hmsFromDecimalDayUs dec).2.2.1 < 60 ∧
      0 ≤ (hmsFromDecimalDayUs dec).2.2.2 ∧ (hmsFromDecimalDayUs dec).2.2.2 ≤ 999999 ∧
      (hmsFromDecimalDayUs dec).1 = (hmsFromDecimalDay dec).1 ∧
      (hmsFromDecimalDayUs dec).2.1 = (hmsFromDecimalDay dec).2.1) := by
  have h := hms_any dec
  refine ⟨h, ?_⟩
  obtain ⟨-, -, -, -, a5, a6, -⟩ := h
  obtain ⟨k, hk⟩ := second_form (partialHourToMinute (partialDayToHours dec))
  have := micro_range (s := (hmsFromDecimalDay dec).2.2) hk a5 a6
  refine ⟨Int.floor_nonneg.mpr a5, ?_, this.1, this.2, rfl, rfl⟩
  rw [show (60 : ℤ) = ((60 : ℤ) : ℤ) from rfl]
  apply Int.floor_lt.mpr
  exact_mod_cast a6

/-- C43, decoding and encoding again. -/
theorem C43_decode_encode (dec : ℚ) (h0 : 0 ≤ dec) (h1 : dec < 1) :
    ∃ f, decimalDayFromHms (hmsFromDecimalDay dec).1 (hmsFromDecimalDay dec).2.1
        (hmsFromDecimalDay dec).2.2 0 = .ok f ∧ |f - dec| ≤ 1 / 40000000 := by
  obtain ⟨a1, a2, a3, a4, a5, a6, a7⟩ := hms_any dec
  rw [pyMod1_of_nonneg h0, Int.fract_eq_self.mpr ⟨h0, h1⟩] at a7
  obtain ⟨f, hf, -, fe⟩ := decimalDay_err a1 a2 a3 a4 a5 a6
  refine ⟨f, hf, ?_⟩
  have a7 := abs_le.mp a7
  have fe := abs_le.mp fe
  rw [abs_le]
  constructor <;> linarith

/-- C43, encoding and decoding again, up to 2.5 ms and never crossing midnight. Missing from the full property:
exactness; it is false, see `C43_whole_second_negation`. -/
theorem C43_encode_decode_partial (h mi : ℤ) (s : ℚ) (h0 : 0 ≤ h) (h1 : h < 24) (mi0 : 0 ≤ mi)
    (mi1 : mi < 60) (s0 : 0 ≤ s) (s1 : s ≤ 59.99) :
    ∃ f, decimalDayFromHms h mi s 0 = .ok f ∧
      |3600 * ((hmsFromDecimalDay f).1 : ℚ) + 60 * (hmsFromDecimalDay f).2.1
        + (hmsFromDecimalDay f).2.2 - (3600 * h + 60 * mi + s)| ≤ 1 / 400 := by
  norm_num at s1
  obtain ⟨f, hf, f0, fe⟩ := decimalDay_err h0 (by omega) mi0 mi1 s0 (by linarith)
  refine ⟨f, hf, ?_⟩
  have hq : (h : ℚ) ≤ 23 := by exact_mod_cast (by omega : h ≤ 23)
  have mq : (mi : ℚ) ≤ 59 := by exact_mod_cast (by omega : mi ≤ 59)
  have fe := abs_le.mp fe
  obtain ⟨-, -, -, -, -, -, a7⟩ := hms_any f
  rw [pyMod1_of_nonneg f0, Int.fract_eq_self.mpr ⟨f0, by linarith⟩] at a7
  have a7 := abs_le.mp a7
  rw [abs_le]
  constructor <;> linarith

example : (0 : ℤ) ≤ 23 ∧ (23 : ℤ) < 24 ∧ (59.99 : ℚ) ≤ 59.99 ∧
    (decimalDayFromHms 23 59 59.99 0).isOk = true := by decide +kernel

/-- C43 is false for whole seconds: the time 00:00:01 is decoded as 00:00:01.0008. -/
theorem C43_whole_second_negation :
    ∃ f, decimalDayFromHms 0 0 1 0 = .ok f ∧
      hmsFromDecimalDay f = (0, 0, fl (10008 / 10000)) ∧ hmsFromDecimalDay f ≠ (0, 0, 1) := by
  refine ⟨fl (1 / 86400), by decide +kernel, ?_⟩
  decide +kernel

/-! ## C44 -/

/-- C44, `_poly`. -/
theorem C44_poly (x : ℚ) (a : List ℚ) :
    poly x a = ∑ i ∈ Finset.range a.length, a.getD i 0 * x ^ i := by
  induction a with
  | nil => simp [poly]
  | cons c r ih =>
    rw [poly, ih, List.length_cons, Finset.sum_range_succ', Finset.mul_sum]
    simp only [List.getD_cons_succ, List.getD_cons_zero, pow_zero, mul_one]
    rw [add_comm]
    congr 1
    apply Finset.sum_congr rfl
    intro i _
    ring

example : poly 2 [1, -3, 5] = 15 := by decide +kernel

/-- C44, `_interpolation_from_three`: it passes through its three points and reproduces every
quadratic function; with `normalize` it passes through the three angles up to whole turns. -/
theorem C44_interpolation (y1 y2 y3 a b c n : ℚ) :
    interpolationFromThree y1 y2 y3 (-1) = y1 ∧ interpolationFromThree y1 y2 y3 0 = y2 ∧
    interpolationFromThree y1 y2 y3 1 = y3 ∧
    interpolationFromThree (a - b + c) c (a + b + c) n = a * n ^ 2 + b * n + c ∧
    (∃ k : ℤ, interpolationFromThree y1 y2 y3 (-1) true = y1 + 360 * k) ∧
    interpolationFromThree y1 y2 y3 0 true = y2 ∧
    (∃ k : ℤ, interpolationFromThree y1 y2 y3 1 true = y3 + 360 * k) := by
  unfold interpolationFromThree
  refine ⟨by simp; ring, by simp, by simp; ring, by simp; ring, ?_, by simp, ?_⟩
  · refine ⟨if y2 - y1 < 0 then -1 else 0, ?_⟩
    simp only [if_true]
    split_ifs <;> push_cast <;> ring
  · refine ⟨if y3 - y2 < 0 then 1 else 0, ?_⟩
    simp only [if_true]
    split_ifs <;> push_cast <;> ring

/-- C44, `_coterminal_angle`: from 0 on the result is exact and below 360; a negative angle gets
a result of at most 360 that differs from a whole number of turns by one rounding. Missing from the full
property: the strict bound for negative angles, which is false, see below. -/
theorem C44_coterminal_partial (x : ℚ) :
    (0 ≤ x → 0 ≤ coterminalAngle x ∧ coterminalAngle x < 360 ∧
      ∃ k : ℤ, coterminalAngle x = x + 360 * k) ∧
    (x < 0 → 0 ≤ coterminalAngle x ∧ coterminalAngle x ≤ 360 ∧
      ∃ k : ℤ, |coterminalAngle x - (x + 360 * k)| ≤ 1 / 10000000000000) := by
  have f360 : IsF64 360 := by unfold IsF64; decide +kernel
  constructor
  · intro h
    unfold coterminalAngle fmod
    simp only
    rw [if_pos (show 0 ≤ x / 360 by positivity)]
    have a := Int.floor_le (x / 360)
    have b := Int.lt_floor_add_one (x / 360)
    rw [le_div_iff₀ (by norm_num)] at a
    rw [div_lt_iff₀ (by norm_num)] at b
    rw [if_neg (by linarith)]
    exact ⟨by linarith, by linarith, -⌊x / 360⌋, by push_cast; ring⟩
  · intro h
    unfold coterminalAngle fmod
    simp only
    have hq : ¬ (0 ≤ x / 360) := by
      rw [not_le]; exact div_neg_of_neg_of_pos h (by norm_num)
    rw [if_neg hq]
    have a := Int.le_ceil (x / 360)
    have b := Int.ceil_lt_add_one (x / 360)
    rw [div_le_iff₀ (by norm_num)] at a
    have b' : (⌈x / 360⌉ : ℚ) - 1 < x / 360 := by linarith
    rw [lt_div_iff₀ (by norm_num)] at b'
    split_ifs with hneg
    · have e := fl_err_le (x := x - 360 * (⌈x / 360⌉ : ℚ) + 360) (B := 360)
        (by rw [abs_le]; constructor <;> linarith)
      refine ⟨fl_nonneg (by linarith), fl_le_of_le (by linarith) f360, 1 - ⌈x / 360⌉, ?_⟩
      rw [show x + 360 * ((1 - ⌈x / 360⌉ : ℤ) : ℚ) = x - 360 * (⌈x / 360⌉ : ℚ) + 360 by
        push_cast; ring]
      exact e.trans (by norm_num)
    · refine ⟨by linarith, by linarith, -⌈x / 360⌉, ?_⟩
      push_cast
      rw [show x - 360 * (⌈x / 360⌉ : ℚ) - (x + 360 * -(⌈x / 360⌉ : ℚ)) = 0 by ring]
      norm_num

/-- C44 is false for tiny negative angles: the result is 360 itself. -/
theorem C44_coterminal_negation :
    ∃ x, IsF64 x ∧ x < 0 ∧ coterminalAngle x = 360 := by
  refine ⟨-(1 / 2 ^ 60), ?_⟩
  unfold IsF64
  decide +kernel

/-! ## C45 -/

theorem dms_minutes {f : ℚ} (hf : IsF64 f) (f0 : 0 ≤ f) (f1 : f < 1) :
    0 ≤ ⌊fl (f * 60)⌋ ∧ ⌊fl (f * 60)⌋ < 60 := by
  refine ⟨Int.floor_nonneg.mpr (fl_nonneg (by positivity)), ?_⟩
  have hb : f ≤ 1 - 1 / 2 ^ 53 := by
    rcases lt_or_ge f (1 / 2) with h | h
    · refine h.le.trans (by norm_num)
    · have e1 : pow2 (-1) = 1 / 2 := by rw [pow2_eq]; norm_num
      have e2 : pow2 (-1 - 52) = 1 / 2 ^ 53 := by rw [pow2_eq]; norm_num [zpow_neg]
      obtain ⟨k, hk⟩ := isF64_multiple (e := -1) hf (by rw [e1, abs_of_nonneg f0]; exact h)
      rw [e2] at hk
      have : (k : ℚ) < ((2 ^ 53 : ℤ) : ℚ) := by
        push_cast
        have : (k : ℚ) * (1 / 2 ^ 53) < 1 := by rw [← hk]; exact f1
        rwa [mul_one_div, div_lt_one (by positivity)] at this
      have : k ≤ 2 ^ 53 - 1 := by
        have := Int.cast_lt.mp this; omega
      have : (k : ℚ) ≤ 2 ^ 53 - 1 := by exact_mod_cast this
      rw [hk, mul_one_div, div_le_iff₀ (by positivity)]
      norm_num at this ⊢
      linarith
  have := fl_mono (mul_le_mul_of_nonneg_right hb (by norm_num : (0 : ℚ) ≤ 60))
  have c : fl ((1 - 1 / 2 ^ 53) * 60) < 60 := by decide +kernel
  rw [Int.floor_lt]
  push_cast
  linarith

/-- C45 for coordinates given with the short direction words: the hemisphere letter matches
the sign and kind, minutes are legal, and converting back gives the coordinate up to 1e-12 degrees. Missing
from the full property: the long direction words (`LATITUDE`), for which it is false, see below. -/
theorem C45_coordinates_partial (c : ℚ) (hc : IsF64 c) (hb : |c| ≤ 360) (lat : Bool) :
    ∃ (d mi : ℤ) (s : ℚ) (dir : String),
      dmsFromDecimal c (if lat then "LAT".toList else "LON".toList) = .ok (d, mi, s, dir) ∧
      dir = (if lat then (if c < 0 then "S" else "N") else (if c < 0 then "W" else "E")) ∧
      d = ⌊|c|⌋ ∧ 0 ≤ mi ∧ mi < 60 ∧
      ∃ c', decimalFromDms d mi s dir = .ok c' ∧ |c' - c| ≤ 1 / 1000000000000 := by
  have a0 := abs_nonneg c
  have fr : IsF64 (|c| - (⌊|c|⌋ : ℚ)) := isF64_sub_int (isF64_abs hc) (Int.floor_nonneg.mpr a0)
    (Int.floor_le _) (by norm_num; linarith)
  have f0 : 0 ≤ |c| - (⌊|c|⌋ : ℚ) := by linarith [Int.floor_le |c|]
  have f1 : |c| - (⌊|c|⌋ : ℚ) < 1 := by linarith [Int.lt_floor_add_one |c|]
  obtain ⟨m0, m1⟩ := dms_minutes fr f0 f1
  refine ⟨⌊|c|⌋, ⌊fl (fl (|c| - (⌊|c|⌋ : ℚ)) * 60)⌋,
    fl (fl (fl (|c| - ⌊|c|⌋) - fl (((⌊fl (fl (|c| - (⌊|c|⌋ : ℚ)) * 60)⌋ : ℤ) : ℚ) / 60)) * 3600),
    if lat then (if c < 0 then "S" else "N") else (if c < 0 then "W" else "E"), ?_, rfl, rfl, ?_, ?_, ?_⟩
  · unfold dmsFromDecimal
    cases lat
    · rw [if_pos (by decide)]
      simp
    · rw [if_pos (by decide)]
      simp
  · rw [fr]; exact m0
  · rw [fr]; exact m1
  · rw [fr]
    have d0 : (0 : ℤ) ≤ ⌊|c|⌋ := Int.floor_nonneg.mpr a0
    have d0q : (0 : ℚ) ≤ ⌊|c|⌋ := by exact_mod_cast d0
    generalize hmi : ⌊fl ((|c| - (⌊|c|⌋ : ℚ)) * 60)⌋ = mi at *
    have mq0 : (0 : ℚ) ≤ mi := by exact_mod_cast m0
    have mq1 : (mi : ℚ) ≤ 59 := by exact_mod_cast (by omega : mi ≤ 59)
    have fb := abs_le.mp (fl_err_le (x := (|c| - (⌊|c|⌋ : ℚ)) * 60) (B := 60)
      (by rw [abs_of_nonneg (by positivity)]; linarith))
    have g0 : (mi : ℚ) ≤ fl ((|c| - (⌊|c|⌋ : ℚ)) * 60) := by rw [← hmi]; exact Int.floor_le _
    have g1 : fl ((|c| - (⌊|c|⌋ : ℚ)) * 60) < mi + 1 := by rw [← hmi]; exact Int.lt_floor_add_one _
    set u := fl ((mi : ℚ) / 60) with hu
    have ue := abs_le.mp (fl_err_le (x := (mi : ℚ) / 60) (B := 1)
      (by rw [abs_of_nonneg (by positivity)]; linarith))
    rw [← hu] at ue
    set v := fl (|c| - (⌊|c|⌋ : ℚ) - u) with hv
    have ve := abs_le.mp (fl_err_le (x := |c| - (⌊|c|⌋ : ℚ) - u) (B := 1 / 50)
      (by rw [abs_le]; constructor <;> linarith))
    rw [← hv] at ve
    set w := fl (v * 3600) with hw
    have we := abs_le.mp (fl_err_le (x := v * 3600) (B := 100)
      (by rw [abs_le]; constructor <;> linarith))
    rw [← hw] at we
    have z1 := abs_le.mp (fl_err_le (x := (⌊|c|⌋ : ℚ) + u) (B := 400)
      (by rw [abs_le]; constructor <;> linarith))
    have z2 := abs_le.mp (fl_err_le (x := w / 3600) (B := 1)
      (by rw [abs_le]; constructor <;> linarith))
    have z3 := abs_le.mp (fl_err_le (x := fl ((⌊|c|⌋ : ℚ) + u) + fl (w / 3600)) (B := 400)
      (by rw [abs_le]; constructor <;> linarith))
    have main : |fl (fl ((⌊|c|⌋ : ℚ) + u) + fl (w / 3600)) - (|c|)| ≤ 1 / 1000000000000 := by
      rw [abs_le]; constructor <;> linarith
    unfold decimalFromDms
    have hneg : ¬ (⌊|c|⌋ < 0) := by omega
    rcases lt_or_ge c 0 with h | h
    · refine ⟨-fl (fl ((⌊|c|⌋ : ℚ) + u) + fl (w / 3600)), ?_, ?_⟩
      · cases lat <;> simp [h, hneg, hu]
      · rw [abs_of_neg h] at main ⊢
        rw [show -fl (fl ((⌊-c⌋ : ℚ) + u) + fl (w / 3600)) - c
          = -(fl (fl ((⌊-c⌋ : ℚ) + u) + fl (w / 3600)) - -c) by ring, abs_neg]
        exact main
    · refine ⟨fl (fl ((⌊|c|⌋ : ℚ) + u) + fl (w / 3600)), ?_, ?_⟩
      · cases lat <;> simp [not_lt.mpr h, hneg, hu]
      · rw [abs_of_nonneg h] at main ⊢
        exact main

/-- The longitude of the Shrine of the Báb is such a coordinate. -/
example : IsF64 (fl 34.987197) ∧ |fl (34.987197 : ℚ)| ≤ 360 :=
  ⟨isF64_fl _, by decide +kernel⟩

/-- C45 is false for the direction words other than `LAT`: a latitude gets an east or west letter. -/
theorem C45_direction_word_negation :
    dmsFromDecimal (-33) "LATITUDE".toList = .ok (33, 0, 0, "W") := by decide +kernel

/-- C45 for hours of right ascension. -/
theorem C45_hours (deg : ℚ) (h0 : 0 ≤ deg) (h1 : deg ≤ 360) :
    0 ≤ (hmsFromDegrees deg).1 ∧ (hmsFromDegrees deg).1 ≤ 24 ∧ 0 ≤ (hmsFromDegrees deg).2.1 ∧
    (hmsFromDegrees deg).2.1 < 60 ∧
    |degreesFromHms (hmsFromDegrees deg).1 (hmsFromDegrees deg).2.1 (hmsFromDegrees deg).2.2 - deg|
      ≤ 1 / 1000000000000 := by
  unfold hmsFromDegrees
  simp only
  set q := fl (deg / 15) with hq
  have qf : IsF64 q := isF64_fl _
  have q0 : 0 ≤ q := fl_nonneg (by positivity)
  have qe := abs_le.mp (fl_err_le (x := deg / 15) (B := 24)
    (by rw [abs_of_nonneg (by positivity)]; linarith))
  rw [← hq] at qe
  have q1 : q ≤ 24 := fl_le_of_le (by linarith) (by unfold IsF64; decide +kernel)
  have hh0 : (0 : ℤ) ≤ ⌊q⌋ := Int.floor_nonneg.mpr q0
  have hh1 : ⌊q⌋ ≤ 24 := by
    have : ⌊q⌋ < 25 := by rw [Int.floor_lt]; push_cast; linarith
    omega
  have fr : IsF64 (q - (⌊q⌋ : ℚ)) := isF64_sub_int qf hh0 (Int.floor_le _) (by norm_num; linarith)
  have f0 : 0 ≤ q - (⌊q⌋ : ℚ) := by linarith [Int.floor_le q]
  have f1 : q - (⌊q⌋ : ℚ) < 1 := by linarith [Int.lt_floor_add_one q]
  obtain ⟨m0, m1⟩ := dms_minutes fr f0 f1
  rw [fr]
  refine ⟨hh0, hh1, m0, m1, ?_⟩
  have d0q : (0 : ℚ) ≤ ⌊q⌋ := by exact_mod_cast hh0
  generalize hmi : ⌊fl ((q - (⌊q⌋ : ℚ)) * 60)⌋ = mi at *
  have mq0 : (0 : ℚ) ≤ mi := by exact_mod_cast m0
  have mq1 : (mi : ℚ) ≤ 59 := by exact_mod_cast (by omega : mi ≤ 59)
  have fb := abs_le.mp (fl_err_le (x := (q - (⌊q⌋ : ℚ)) * 60) (B := 60)
    (by rw [abs_of_nonneg (by positivity)]; linarith))
  have g0 : (mi : ℚ) ≤ fl ((q - (⌊q⌋ : ℚ)) * 60) := by rw [← hmi]; exact Int.floor_le _
  have g1 : fl ((q - (⌊q⌋ : ℚ)) * 60) < mi + 1 := by rw [← hmi]; exact Int.lt_floor_add_one _
  set u := fl ((mi : ℚ) / 60) with hu
  have ue := abs_le.mp (fl_err_le (x := (mi : ℚ) / 60) (B := 1)
    (by rw [abs_of_nonneg (by positivity)]; linarith))
  rw [← hu] at ue
  set v := fl (q - (⌊q⌋ : ℚ) - u) with hv
  have ve := abs_le.mp (fl_err_le (x := q - (⌊q⌋ : ℚ) - u) (B := 1 / 50)
    (by rw [abs_le]; constructor <;> linarith))
  rw [← hv] at ve
  set w := fl (v * 3600) with hw
  have we := abs_le.mp (fl_err_le (x := v * 3600) (B := 100)
    (by rw [abs_le]; constructor <;> linarith))
  rw [← hw] at we
  unfold degreesFromHms
  have y1 := abs_le.mp (fl_err_le (x := ((15 * mi : ℤ) : ℚ) / 60) (B := 15)
    (by push_cast; rw [abs_of_nonneg (by positivity)]; linarith))
  have y2 := abs_le.mp (fl_err_le (x := ((15 * ⌊q⌋ : ℤ) : ℚ) + fl (((15 * mi : ℤ) : ℚ) / 60)) (B := 400)
    (by push_cast at *; rw [abs_le]; constructor <;> linarith))
  have y3 := abs_le.mp (fl_err_le (x := 15 * w) (B := 1500)
    (by rw [abs_le]; constructor <;> linarith))
  have y4 := abs_le.mp (fl_err_le (x := fl (15 * w) / 3600) (B := 1)
    (by rw [abs_le]; constructor <;> linarith))
  have y5 := abs_le.mp (fl_err_le (x := fl (((15 * ⌊q⌋ : ℤ) : ℚ) + fl (((15 * mi : ℤ) : ℚ) / 60))
      + fl (fl (15 * w) / 3600)) (B := 400)
    (by push_cast at *; rw [abs_le]; constructor <;> linarith))
  push_cast at *
  rw [abs_le]
  constructor <;> linarith

example : (hmsFromDegrees 187.5) = (12, 30, 0) := by decide +kernel

/-! ## C46 -/

/-- C46 below two days: the fields are legal and add up exactly to the number of seconds (zone
added), in binary64 arithmetic. Missing from the full property: two days and more; see below. -/
theorem C46_seconds_partial (s zone : ℚ) (h0 : 0 ≤ fl (s + fl (zone * 3600)))
    (h1 : fl (s + fl (zone * 3600)) < 172800) :
    0 ≤ (dhmsFromSeconds s zone).1 ∧ 0 ≤ (dhmsFromSeconds s zone).2.1 ∧
    (dhmsFromSeconds s zone).2.1 < 24 ∧ 0 ≤ (dhmsFromSeconds s zone).2.2.1 ∧
    (dhmsFromSeconds s zone).2.2.1 < 60 ∧ 0 ≤ (dhmsFromSeconds s zone).2.2.2 ∧
    (dhmsFromSeconds s zone).2.2.2 < 60 ∧
    secondsFromDhms (dhmsFromSeconds s zone).1 (dhmsFromSeconds s zone).2.1
      (dhmsFromSeconds s zone).2.2.1 (dhmsFromSeconds s zone).2.2.2 = .ok (fl (s + fl (zone * 3600))) := by
  unfold dhmsFromSeconds
  simp only
  have xf : IsF64 (fl (s + fl (zone * 3600))) := isF64_fl _
  generalize fl (s + fl (zone * 3600)) = x at *
  have eh : ⌊fl (x / 3600)⌋ = ⌊x / 3600⌋ := by
    have := floor_fl_div (n := 3600) xf h0 (by norm_num; linarith) (by norm_num)
      (by norm_num; linarith)
    exact_mod_cast this
  rw [eh]
  set h := ⌊x / 3600⌋ with hh
  have hh0 : 0 ≤ h := Int.floor_nonneg.mpr (by positivity)
  have hlo : (h : ℚ) * 3600 ≤ x := by
    have := Int.floor_le (x / 3600); rw [← hh, le_div_iff₀ (by norm_num)] at this; exact this
  have hhi : x < ((h : ℚ) + 1) * 3600 := by
    have := Int.lt_floor_add_one (x / 3600); rw [← hh, div_lt_iff₀ (by norm_num)] at this; exact this
  have hh48 : h < 48 := by
    rw [hh, Int.floor_lt, div_lt_iff₀ (by norm_num)]; push_cast; linarith
  have yf : IsF64 (x - ((h * 3600 : ℤ) : ℚ)) := isF64_sub_int xf (by omega)
    (by push_cast; exact hlo) (by norm_num; linarith)
  have y0 : 0 ≤ x - ((h * 3600 : ℤ) : ℚ) := by push_cast; linarith
  have y1 : x - ((h * 3600 : ℤ) : ℚ) < 3600 := by push_cast; linarith
  rw [yf]
  have em : ⌊fl ((x - ((h * 3600 : ℤ) : ℚ)) / 60)⌋ = ⌊(x - ((h * 3600 : ℤ) : ℚ)) / 60⌋ := by
    have := floor_fl_div (n := 60) yf y0 (by norm_num at *; linarith) (by norm_num)
      (by norm_num at *; linarith)
    exact_mod_cast this
  rw [em]
  set m := ⌊(x - ((h * 3600 : ℤ) : ℚ)) / 60⌋ with hm
  have m0 : 0 ≤ m := Int.floor_nonneg.mpr (by positivity)
  have mlo : (m : ℚ) * 60 ≤ x - ((h * 3600 : ℤ) : ℚ) := by
    have := Int.floor_le ((x - ((h * 3600 : ℤ) : ℚ)) / 60)
    rw [← hm, le_div_iff₀ (by norm_num)] at this; exact this
  have mhi : x - ((h * 3600 : ℤ) : ℚ) < ((m : ℚ) + 1) * 60 := by
    have := Int.lt_floor_add_one ((x - ((h * 3600 : ℤ) : ℚ)) / 60)
    rw [← hm, div_lt_iff₀ (by norm_num)] at this; exact this
  have m60 : m < 60 := by
    rw [hm, Int.floor_lt, div_lt_iff₀ (by norm_num)]; push_cast at *; linarith
  have sf : IsF64 (x - ((h * 3600 : ℤ) : ℚ) - ((m * 60 : ℤ) : ℚ)) := isF64_sub_int yf (by omega)
    (by push_cast at *; exact mlo) (by norm_num at *; linarith)
  have fin : ∀ d h' : ℤ, d * 86400 + h' * 3600 = h * 3600 →
      secondsFromDhms d h' m (x - ((h * 3600 : ℤ) : ℚ) - ((m * 60 : ℤ) : ℚ)) = .ok x := by
    intro d h' e
    unfold secondsFromDhms
    simp only [lt_irrefl, if_false]
    rw [e, zero_mul, fl_zero, add_zero, fl_idem]
    push_cast
    rw [show (h : ℚ) * 3600 + m * 60 + (x - h * 3600 - m * 60) = x by ring, xf]
  by_cases h24 : h < 24
  · simp only [h24, if_true]
    rw [yf, sf]
    exact ⟨le_refl _, hh0, trivial, m0, m60, by push_cast at *; linarith, by push_cast at *; linarith,
      fin 0 h (by ring)⟩
  · simp only [h24, if_false]
    have zf : IsF64 (x - ((86400 : ℤ) : ℚ)) := isF64_sub_int xf (by omega) (by
      have : (24 : ℚ) ≤ h := by exact_mod_cast (by omega : 24 ≤ h)
      push_cast; linarith) (by norm_num; linarith)
    have e86 : x - (86400 : ℚ) = x - ((86400 : ℤ) : ℚ) := by norm_num
    rw [e86, zf, show x - ((86400 : ℤ) : ℚ) - (((h - 24) * 3600 : ℤ) : ℚ) = x - ((h * 3600 : ℤ) : ℚ) by
      push_cast; ring, yf, sf]
    exact ⟨by omega, by omega, by omega, m0, m60, by push_cast at *; linarith, by push_cast at *; linarith,
      fin 1 (h - 24) (by ring)⟩

/-- 86399.5 seconds in zone +3.5 is one day, 3 hours, 29 minutes and 59.5 seconds. -/
example : fl (86399.5 + fl (3.5 * 3600)) < 172800 ∧
    dhmsFromSeconds 86399.5 3.5 = (1, 3, 29, 59.5) := by decide +kernel

/-- C46 is false from two days on: hours reach 24, and beyond. -/
theorem C46_two_days_negation : dhmsFromSeconds 172800 = (1, 24, 0, 0) ∧
    dhmsFromSeconds 864000 = (1, 216, 0, 0) := by decide +kernel

/-- C46 is false for negative totals: hours are negative. -/
theorem C46_negative_negation : dhmsFromSeconds 0 (-3) = (0, -3, 0, 0) := by decide +kernel

/-! ## C47 -/

/-- C47 for the flags of `badi_date_from_jd`: any two flags together are refused, and at most one
flag is never refused by the flag check. Missing from the full property: all three flags
together, see below. -/
theorem C47_flags_partial (C : Cal) (jd lat lon : ℚ) (o : JdOpts) :
    ([o.fraction, o.us, o.rtd].count true = 2 →
      C.badiDateFromJd jd lat lon o = .error .assertion) ∧
    ([o.fraction, o.us, o.rtd].count true ≤ 1 → xorBoolean [o.fraction, o.us, o.rtd] = true) := by
  have hx : ∀ f u r : Bool, ([f, u, r].count true = 2 → xorBoolean [f, u, r] = false) ∧
      ([f, u, r].count true ≤ 1 → xorBoolean [f, u, r] = true) := by decide
  refine ⟨fun h => ?_, (hx _ _ _).2⟩
  unfold Cal.badiDateFromJd
  rw [(hx _ _ _).1 h]
  rfl

example : [true, true, false].count true = 2 := by decide

/-- The check in general: it accepts exactly an odd number of flags, or none. -/
theorem C47_check (bs : List Bool) :
    xorBoolean bs = true ↔ bs.count true = 0 ∨ bs.count true % 2 = 1 := by
  unfold xorBoolean
  simp only [Bool.or_eq_true, beq_iff_eq]
  exact or_comm

/-- C47 is false with three flags: the conversion is carried out, as if only `fraction` was set. -/
theorem C47_three_flags_negation :
    (Cal.init sixPm).badiDateFromJd 2460400.5 tehranLat tehranLon
      { fraction := true, us := true, rtd := true } =
    (Cal.init sixPm).badiDateFromJd 2460400.5 tehranLat tehranLon { fraction := true } ∧
    (Cal.init sixPm).badiDateFromJd 2460400.5 tehranLat tehranLon { fraction := true }
      ≠ .error .assertion := by
  decide +kernel

end Verif
