import Verif.Py.FloatLemmas
import Verif.Spec.Evening

/-!
# Helper lemmas: sunset times and JD conversions reduced to integers
-/

namespace Verif

theorem pow2_20 : pow2 20 = 1048576 := by rw [pow2_eq]; norm_num
theorem pow2_22 : pow2 22 = 4194304 := by rw [pow2_eq]; norm_num
theorem pow2_23 : pow2 23 = 8388608 := by rw [pow2_eq]; norm_num

/-- A multiple of `2^(e-52)` of size at most `2^(e+1)` is a float. -/
theorem fl_of_multiple {x : ℚ} {e : ℤ} (hm : ∃ k : ℤ, x = k * pow2 (e - 52))
    (h : |x| ≤ pow2 (e + 1)) : fl x = x := by
  obtain ⟨k, rfl⟩ := hm
  apply fl_dyadic
  have hp := pow2_pos (e - 52)
  have h53 : pow2 (e + 1) = 2 ^ 53 * pow2 (e - 52) := by
    rw [show e + 1 = (e - 52) + 53 by ring, pow2_add, mul_comm]
    have : pow2 53 = 2 ^ 53 := pow2_nat 53
    rw [this]
  rw [abs_mul, abs_of_pos hp, h53] at h
  have := le_of_mul_le_mul_right h hp
  have h2 : ((|k| : ℤ) : ℚ) ≤ ((2 ^ 53 : ℤ) : ℚ) := by push_cast; exact this
  exact_mod_cast h2

/-- Subtracting two floats of the JD range is exact. -/
theorem fl_sub_jd {x y : ℚ} (hx : IsF64 x) (hy : IsF64 y) (hx0 : 1048576 ≤ x)
    (hy0 : 1048576 ≤ y) (hd : |x - y| ≤ 2097152) : fl (x - y) = x - y := by
  obtain ⟨k, hk⟩ := isF64_multiple (e := 20) hx (by
    rw [pow2_20, abs_of_nonneg (by linarith)]; exact hx0)
  obtain ⟨l, hl⟩ := isF64_multiple (e := 20) hy (by
    rw [pow2_20, abs_of_nonneg (by linarith)]; exact hy0)
  apply fl_of_multiple (e := 20)
  · exact ⟨k - l, by rw [hk, hl]; push_cast; ring⟩
  · have : pow2 (20 + 1) = 2097152 := by rw [pow2_eq]; norm_num
    rw [this]; exact hd

/-- Subtracting a small natural number from a float of the JD range is exact. -/
theorem fl_sub_small {x : ℚ} (hx : IsF64 x) (k : ℤ) (hk0 : 0 ≤ k) (hk : k ≤ 1000)
    (hx0 : 1049600 ≤ x) (hx1 : x ≤ 4194304) : fl (x - k) = x - k := by
  have hkq : (k : ℚ) ≤ 1000 := by exact_mod_cast hk
  have hkq0 : (0 : ℚ) ≤ k := by exact_mod_cast hk0
  rcases lt_or_ge x 2097152 with h | h
  · obtain ⟨j, hj⟩ := isF64_multiple (e := 20) hx (by
      rw [pow2_20, abs_of_nonneg (by linarith)]; linarith)
    apply fl_of_multiple (e := 20)
    · refine ⟨j - k * 2 ^ 32, ?_⟩
      have : pow2 (20 - 52) = 1 / 2 ^ 32 := by rw [pow2_eq]; norm_num [zpow_neg]
      rw [hj, this]; push_cast; field_simp; norm_num; ring
    · have : pow2 (20 + 1) = 2097152 := by rw [pow2_eq]; norm_num
      rw [this, abs_of_nonneg (by linarith)]; linarith
  · obtain ⟨j, hj⟩ := isF64_multiple (e := 21) hx (by
      have : pow2 21 = 2097152 := by rw [pow2_eq]; norm_num
      rw [this, abs_of_nonneg (by linarith)]; linarith)
    apply fl_of_multiple (e := 21)
    · refine ⟨j - k * 2 ^ 31, ?_⟩
      have : pow2 (21 - 52) = 1 / 2 ^ 31 := by rw [pow2_eq]; norm_num [zpow_neg]
      rw [hj, this]; push_cast; field_simp; norm_num; ring
    · have : pow2 (21 + 1) = 4194304 := by rw [pow2_eq]; norm_num
      rw [this, abs_of_nonneg (by linarith)]; linarith

/-! ### Longitude of the reference point -/

/-- `lon / 360` at the reference point. -/
def lonFracT : ℚ := fl (tehranLon / 360)

theorem lonFracT_lo : 142468 / 1000000 ≤ lonFracT := by decide +kernel
theorem lonFracT_hi : lonFracT ≤ 142469 / 1000000 := by decide +kernel

/-! ### The civil day of an instant -/

/-- The day number used by `_sun_setting` and `badi_date_from_jd`. -/
def civilDay (x lf : ℚ) : ℤ := ⌊fl (fl (x + lf) + 1 / 2)⌋

/-- Away from local midnight the float computation of the civil day is exact. -/
theorem civilDay_eq {x lf : ℚ} {D : ℤ} (hx0 : 0 ≤ x) (hx : x ≤ 4000000) (hl : |lf| ≤ 1 / 2)
    (h1 : D + 1 / 100000000 ≤ x + lf + 1 / 2)
    (h2 : x + lf + 1 / 2 ≤ D + 1 - 1 / 100000000) : civilDay x lf = D := by
  unfold civilDay
  have ha := abs_le.mp hl
  have e1 := abs_le.mp (fl_err_le (x := x + lf) (B := 4194304)
    (abs_le.mpr ⟨by linarith, by linarith⟩))
  have e2 := abs_le.mp (fl_err_le (x := fl (x + lf) + 1 / 2) (B := 4194304 * 2)
    (abs_le.mpr ⟨by linarith, by linarith⟩))
  rw [Int.floor_eq_iff]
  constructor <;> linarith

/-! ### Sunset of a civil day -/

/-- The value of `_sun_setting` on civil day `D`. -/
def ssOf (A : Astro) (lat lon : ℚ) (D : ℤ) : ℚ :=
  pyRound (fl (localMidnight lon D + sunsetTime A lat lon D)) 12

theorem sunSetting_eq (A : Astro) (jd lat lon : ℚ) :
    sunSetting A jd lat lon = ssOf A lat lon (civilDay jd (fl (lon / 360))) := rfl

theorem ssOf_spec {A : Astro} {lat lon : ℚ} {D : ℤ} (hl : |fl (lon / 360)| ≤ 1 / 2)
    (hD0 : eraFirst ≤ D) (hD1 : D ≤ eraLast)
    (hm : 0 ≤ sunsetTime A lat lon D ∧ sunsetTime A lat lon D ≤ 1) :
    IsF64 (ssOf A lat lon D) ∧
    |ssOf A lat lon D - (D - 1 / 2 - fl (lon / 360) + sunsetTime A lat lon D)|
      ≤ 1 / 500000000 := by
  have hD0' : (1721000 : ℚ) ≤ D := by exact_mod_cast hD0
  have hD1' : (D : ℚ) ≤ 2820000 := by exact_mod_cast hD1
  have ha := abs_le.mp hl
  have hmid : fl ((D : ℚ) - 1 / 2) = D - 1 / 2 := by
    have : (D : ℚ) - 1 / 2 = ((2 * D - 1 : ℤ) : ℚ) / 2 := by push_cast; ring
    rw [this]; apply fl_half
    have : eraFirst = 1721000 := rfl
    have : eraLast = 2820000 := rfl
    rw [abs_le]; constructor <;> norm_num <;> omega
  have hlm : localMidnight lon D = fl (D - 1 / 2 - fl (lon / 360)) := by
    unfold localMidnight; rw [hmid]
  have e1 := abs_le.mp (fl_err_le (x := (D : ℚ) - 1 / 2 - fl (lon / 360)) (B := 4194304)
    (abs_le.mpr ⟨by linarith, by linarith⟩))
  rw [← hlm] at e1
  have e2 := abs_le.mp (fl_err_le (x := localMidnight lon D + sunsetTime A lat lon D)
    (B := 4194304) (abs_le.mpr ⟨by linarith, by linarith⟩))
  have hid : ssOf A lat lon D = fl (localMidnight lon D + sunsetTime A lat lon D) := by
    unfold ssOf
    apply pyRound12_id (isF64_fl _)
    rw [abs_of_nonneg (by linarith)]; linarith
  rw [hid]
  refine ⟨isF64_fl _, abs_le.mpr ⟨?_, ?_⟩⟩ <;> linarith

/-- The sunset of a civil day, in the evening: it belongs to that civil day. -/
theorem ssOf_civil {A : Astro} {lat lon : ℚ} {D : ℤ} (hl : |fl (lon / 360)| ≤ 1 / 2)
    (hD0 : eraFirst ≤ D) (hD1 : D ≤ eraLast) (hE : Evening A lat lon) :
    civilDay (ssOf A lat lon D) (fl (lon / 360)) = D := by
  have hm := hE D hD0 hD1
  have hD0' : (1721000 : ℚ) ≤ D := by exact_mod_cast hD0
  have hD1' : (D : ℚ) ≤ 2820000 := by exact_mod_cast hD1
  have ha := abs_le.mp hl
  obtain ⟨_, h⟩ := ssOf_spec hl hD0 hD1 ⟨by linarith [hm.1], by linarith [hm.2]⟩
  have h := abs_le.mp h
  apply civilDay_eq _ _ hl <;> linarith [hm.1, hm.2]

theorem lonT_abs : |fl (tehranLon / 360)| ≤ 1 / 2 := by
  have h1 := lonFracT_lo; have h2 := lonFracT_hi
  unfold lonFracT at h1 h2
  rw [abs_le]; constructor <;> linarith

/-- Sunset in Tehran, in UT, is shortly after noon UT of the civil day. -/
theorem ssOf_tehran {A : Astro} {D : ℤ} (hD0 : eraFirst ≤ D) (hD1 : D ≤ eraLast)
    (hE : TehranEvening A) :
    IsF64 (ssOf A tehranLat tehranLon D) ∧ D + 2 / 100 ≤ ssOf A tehranLat tehranLon D ∧
      ssOf A tehranLat tehranLon D ≤ D + 195 / 1000 := by
  have hm := hE D hD0 hD1
  obtain ⟨hf, h⟩ := ssOf_spec (A := A) (lat := tehranLat) lonT_abs hD0 hD1
    ⟨by linarith [hm.1], by linarith [hm.2]⟩
  have h := abs_le.mp h
  have h1 := lonFracT_lo; have h2 := lonFracT_hi
  unfold lonFracT at h1 h2
  refine ⟨hf, ?_, ?_⟩ <;> linarith [hm.1, hm.2]

/-! ### Integer versions of the JD conversion tables -/

/-- Lookup with integer thresholds: `x < K + 1/2` becomes `N ≤ K`. -/
def iLookup (N : ℤ) : List (ℤ × ℤ) → ℤ
  | [] => 2
  | (K, df) :: rest => if N ≤ K then df else iLookup N rest

/-- `meeusTable` with integer thresholds. -/
def iMeeusTable : List (ℤ × ℤ) :=
  [(1757641, 0), (1794165, 1), (1830689, 2), (1903738, 3),
   (1940262, 4), (1976786, 5), (2049835, 6), (2086359, 7),
   (2122883, 8), (2195932, 9), (2232456, 10), (2268980, 11),
   (2299148, 12)]

/-- `exactTable` with integer thresholds. -/
def iExactTable : List (ℤ × ℤ) :=
  [(1757641, 0), (1794166, 1), (1830691, 2), (1903741, 3),
   (1940266, 4), (1976791, 5), (2049841, 6), (2086366, 7),
   (2122891, 8), (2195941, 9), (2232466, 10), (2268991, 11),
   (2299160, 12)]

/-- Day numbers of the invalid historic days. -/
def iInvalid : List ℤ :=
  [1757642, 1794167, 1830692, 1903742, 1940267, 1976792, 2049842, 2086367, 2122892, 2195942,
   2232467, 2268992]

theorem lt_half_iff {x : ℚ} {N K : ℤ} {k : ℚ} (hk : k = K + 1 / 2) (h0 : (N : ℚ) ≤ x)
    (h1 : x < N + 1 / 2) : x < k ↔ N ≤ K := by
  constructor
  · intro h
    have h2 : ((N : ℤ) : ℚ) < ((K + 1 : ℤ) : ℚ) := by push_cast; linarith
    have := Int.cast_lt.mp h2; omega
  · intro h
    have : (N : ℚ) ≤ K := by exact_mod_cast h
    linarith

theorem lookup_int {x : ℚ} {N : ℤ} (h0 : (N : ℚ) ≤ x) (h1 : x < N + 1 / 2)
    (t : List (ℚ × ℤ)) (s : List (ℤ × ℤ)) (hts : t = s.map (fun p => ((p.1 : ℚ) + 1 / 2, p.2))) :
    lookupDiff x t = iLookup N s := by
  subst hts
  induction s with
  | nil => rfl
  | cons p r ih =>
    simp only [List.map_cons, lookupDiff, iLookup]
    rw [ih]
    by_cases h : N ≤ p.1
    · rw [if_pos h, if_pos ((lt_half_iff rfl h0 h1).mpr h)]
    · rw [if_neg h, if_neg (fun hh => h ((lt_half_iff rfl h0 h1).mp hh))]

theorem meeusTable_eq : meeusTable = iMeeusTable.map (fun p => ((p.1 : ℚ) + 1 / 2, p.2)) := by
  norm_num [meeusTable, iMeeusTable]

theorem exactTable_eq : exactTable = iExactTable.map (fun p => ((p.1 : ℚ) + 1 / 2, p.2)) := by
  norm_num [exactTable, iExactTable]

theorem invalidDays_eq :
    invalidDays = iInvalid.map (fun K : ℤ => ((K : ℚ) - 1 / 2, (K : ℚ) + 1 / 2)) := by
  norm_num [invalidDays, iInvalid]

theorem iLookup_bounds (N : ℤ) (s : List (ℤ × ℤ)) (h : ∀ p ∈ s, 0 ≤ p.2 ∧ p.2 ≤ 12) :
    0 ≤ iLookup N s ∧ iLookup N s ≤ 12 := by
  induction s with
  | nil => simp [iLookup]
  | cons p r ih =>
    simp only [iLookup]
    split_ifs
    · exact h p (by simp)
    · exact ih (fun q hq => h q (by simp [hq]))

theorem iMeeus_bounds (N : ℤ) : 0 ≤ iLookup N iMeeusTable ∧ iLookup N iMeeusTable ≤ 12 :=
  iLookup_bounds N _ (by decide)

theorem iExact_bounds (N : ℤ) : 0 ≤ iLookup N iExactTable ∧ iLookup N iExactTable ≤ 12 :=
  iLookup_bounds N _ (by decide)

/-- `_meeus_from_exact` in the first half of an interval `[N, N+1/2)`. -/
theorem meeus_int {x : ℚ} {N : ℤ} (h0 : (N : ℚ) ≤ x) (h1 : x < N + 1 / 2) :
    meeusFromExact x = if 2299149 ≤ N ∧ N ≤ 2299158 then .error .value
      else .ok (fl (x + iLookup N iMeeusTable)) := by
  unfold meeusFromExact
  rw [lookup_int h0 h1 _ _ meeusTable_eq]
  have a := lt_half_iff (k := 2299148.5) (K := 2299148) (by norm_num) h0 h1
  have b := lt_half_iff (k := 2299158.5) (K := 2299158) (by norm_num) h0 h1
  congr 1
  rw [← not_lt, a, b]
  apply propext
  constructor <;> intro h <;> constructor <;> omega

/-- `_exact_from_meeus` in the first half of an interval `[M, M+1/2)`. -/
theorem exact_int {x : ℚ} {M : ℤ} (h0 : (M : ℚ) ≤ x) (h1 : x < M + 1 / 2) :
    exactFromMeeus x = if M ∈ iInvalid then .error .value
      else .ok (fl (x - iLookup M iExactTable)) := by
  unfold exactFromMeeus
  rw [lookup_int h0 h1 _ _ exactTable_eq, invalidDays_eq]
  congr 1
  apply propext
  rw [List.any_eq_true]
  simp only [List.mem_map, decide_eq_true_eq]
  constructor
  · rintro ⟨se, ⟨K, hK, rfl⟩, h2, h3⟩
    have h3 := (lt_half_iff (K := K) rfl h0 h1).mp h3
    have h2 : ¬ x < (K : ℚ) - 1 / 2 := not_lt.mpr h2
    rw [lt_half_iff (K := K - 1) (by push_cast; ring) h0 h1] at h2
    have : M = K := by omega
    subst this; exact hK
  · intro h
    refine ⟨_, ⟨M, h, rfl⟩, ?_, ?_⟩
    · simp only; linarith
    · exact h1

end Verif
