import Verif.Lemmas.YearFromRd
import Verif.Spec.Gregorian
import Verif.Spec.Witness

/-!
# Properties C01, C02, C32, C36: years and day numbers
-/

namespace Verif

/-! ## C01 -/

/-- C01. Whatever the evening sunset times are, every supported year has a first day number `a`, its
successor has `b`, the difference is 365 or 366, and the year is reported leap exactly when it
is 366. -/
theorem C01_year_length (A : Astro) (hE : TehranEvening A) (y : ℤ) (h0 : -1843 ≤ y)
    (h1 : y ≤ 1161) :
    ∃ a b : ℤ, (Cal.init A).yearStart y = some a ∧ (Cal.init A).yearStart (y + 1) = some b ∧
      ((b = a + 365 ∧ (Cal.init A).isLeapYear y = .ok false) ∨
       (b = a + 366 ∧ (Cal.init A).isLeapYear y = .ok true)) := by
  refine ⟨ysInt y, ysInt (y + 1), ?_, ?_, ?_⟩
  · rw [init_yearStart hE, if_pos (by omega)]
  · rw [init_yearStart hE, if_pos (by omega)]
  · rw [init_isLeap hE h0 h1]
    rcases ysInt_step h0 h1 with h | h
    · left; refine ⟨by omega, ?_⟩; congr 1; rw [beq_eq_false_iff_ne]; omega
    · right; refine ⟨by omega, ?_⟩; congr 1; rw [beq_iff_eq]; omega

example : TehranEvening sixPm := sixPm_tehran
example : ∃ a, (Cal.init sixPm).yearStart 181 = some a ∧ (Cal.init sixPm).yearStart 182 = some (a + 365) := by
  refine ⟨ysInt 181, ?_, ?_⟩ <;> rw [init_yearStart sixPm_tehran, if_pos (by omega)]
  rfl

/-- C01. The years are contiguous: every day number from the first day of year -1843 up to the last
day of year 1161 lies in exactly one year. -/
theorem C01_contiguous (A : Astro) (hE : TehranEvening A) (first stop : ℤ)
    (hfirst : (Cal.init A).yearStart (-1843) = some first)
    (hstop : (Cal.init A).yearStart 1162 = some stop) (n : ℤ) (h0 : first ≤ n) (h1 : n < stop) :
    ∃! y : ℤ, ∃ a b : ℤ, (Cal.init A).yearStart y = some a ∧
      (Cal.init A).yearStart (y + 1) = some b ∧ a ≤ n ∧ n < b := by
  rw [init_yearStart hE, if_pos (by omega)] at hfirst hstop
  obtain rfl := Option.some.inj hfirst
  obtain rfl := Option.some.inj hstop
  obtain ⟨t, t0, t1, t2, t3⟩ := year_of_rd (a := -1843) (b := 1162) (by omega) h0 h1
  refine ⟨t, ⟨ysInt t, ysInt (t + 1), ?_, ?_, t2, t3⟩, ?_⟩
  · rw [init_yearStart hE, if_pos (by omega)]
  · rw [init_yearStart hE, if_pos (by omega)]
  · rintro u ⟨a, b, ha, hb, hab⟩
    rw [init_yearStart hE] at ha hb
    have hu0 : -1843 ≤ u ∧ u ≤ 1162 := by by_contra h; rw [if_neg h] at ha; cases ha
    have hu1 : -1843 ≤ u + 1 ∧ u + 1 ≤ 1162 := by by_contra h; rw [if_neg h] at hb; cases hb
    rw [if_pos hu0] at ha
    rw [if_pos hu1] at hb
    obtain rfl := Option.some.inj ha
    obtain rfl := Option.some.inj hb
    rcases lt_trichotomy u t with h | h | h
    · have := ysInt_mono (a := u + 1) (b := t) (by omega) (by omega) (by omega); omega
    · exact h
    · have := ysInt_mono (a := t + 1) (b := u) (by omega) (by omega) (by omega); omega

/-- C01. The table is fixed: it does not depend on the sunset times, its years are exactly
-1843..1162, and its two ends and the first year of the era have these day numbers. -/
theorem C01_table_fixed (A B : Astro) (hA : TehranEvening A) (hB : TehranEvening B) :
    (Cal.init A).yearStart = (Cal.init B).yearStart ∧
    (∀ y, ((Cal.init A).yearStart y).isSome ↔ -1843 ≤ y ∧ y ≤ 1162) ∧
    (Cal.init A).yearStart (-1843) = some (-287) ∧ (Cal.init A).yearStart 1 = some 673220 ∧
    (Cal.init A).yearStart 1162 = some 1097268 := by
  refine ⟨funext fun y => by rw [init_yearStart hA, init_yearStart hB], fun y => ?_, ?_, ?_, ?_⟩
  · rw [init_yearStart hA]; split_ifs with h <;> simp [h]
  · rw [init_yearStart hA, if_pos (by omega), ysInt_m1843]
  · rw [init_yearStart hA, if_pos (by omega)]; rfl
  · rw [init_yearStart hA, if_pos (by omega), ysInt_1162]

/-- C01 in terms of the public conversion: the Julian Period day on which `jd_from_badi_date` starts
a year and the one on which it starts the next year differ by 365 or 366, and by 366 exactly in
leap years. -/
theorem C01_naw_ruz_jd (A : Astro) (hE : TehranEvening A) (y : ℤ) (h0 : -1843 ≤ y)
    (h1 : y ≤ 1161) :
    ∃ j k : ℚ, (Cal.init A).jdFromBadiDateDefault ⟨y, 1, 1, []⟩ = .ok j ∧
      (Cal.init A).jdFromBadiDateDefault ⟨y + 1, 1, 1, []⟩ = .ok k ∧
      ((⌊k⌋ = ⌊j⌋ + 365 ∧ (Cal.init A).isLeapYear y = .ok false) ∨
       (⌊k⌋ = ⌊j⌋ + 366 ∧ (Cal.init A).isLeapYear y = .ok true)) := by
  have hC : TehranEvening (Cal.init A).astro := hE
  refine ⟨_, _, nr_jd hC h0 (by omega), nr_jd hC (by omega) (by omega), ?_⟩
  obtain ⟨-, a0, a1⟩ := nrJd_bounds hE h0 (by omega)
  obtain ⟨-, b0, b1⟩ := nrJd_bounds hE (y := y + 1) (by omega) (by omega)
  have fa : ⌊nrJd (Cal.init A).astro y⌋ = ysInt y + 1721423 := by
    rw [Int.floor_eq_iff]; exact ⟨by change _ ≤ nrJd A y; linarith, by change nrJd A y < _; linarith⟩
  have fb : ⌊nrJd (Cal.init A).astro (y + 1)⌋ = ysInt (y + 1) + 1721423 := by
    rw [Int.floor_eq_iff]
    exact ⟨by change _ ≤ nrJd A (y + 1); linarith, by change nrJd A (y + 1) < _; linarith⟩
  rw [fa, fb, init_isLeap hE h0 h1]
  rcases ysInt_step h0 h1 with h | h
  · left; refine ⟨by omega, ?_⟩; congr 1; rw [beq_eq_false_iff_ne]; omega
  · right; refine ⟨by omega, ?_⟩; congr 1; rw [beq_iff_eq]; omega

/-! ## C02 -/

/-- C02. A day number is accepted exactly from the first day of year -1843 to the first day of year
1161; the year answered is the one that contains it, and this year is unique. -/
theorem C02_year_of_day_number (A : Astro) (hE : TehranEvening A) (n : ℤ) :
    (∀ y, (Cal.init A).badiYearFromRd n = .ok y →
      ∃ a b : ℤ, (Cal.init A).yearStart y = some a ∧ (Cal.init A).yearStart (y + 1) = some b ∧
        a ≤ n ∧ n < b ∧
        ∀ z c d, (Cal.init A).yearStart z = some c → (Cal.init A).yearStart (z + 1) = some d →
          c ≤ n → n < d → z = y) ∧
    ((∃ y, (Cal.init A).badiYearFromRd n = .ok y) ↔
      ∃ first last : ℤ, (Cal.init A).yearStart (-1843) = some first ∧
        (Cal.init A).yearStart 1161 = some last ∧ first ≤ n ∧ n ≤ last) ∧
    ((¬ ∃ y, (Cal.init A).badiYearFromRd n = .ok y) →
      (Cal.init A).badiYearFromRd n = .error .assertion) := by
  have hs0 := init_yearStart hE (-1843)
  have hs1 := init_yearStart hE 1161
  rw [if_pos (by omega), ysInt_m1843] at hs0
  rw [if_pos (by omega), ysInt_1161] at hs1
  by_cases hn : -287 ≤ n ∧ n ≤ 1096902
  · obtain ⟨t, t0, t1, t2, t3⟩ := year_of_rd (n := n) (a := -1843) (b := 1162) (by omega)
      (by rw [ysInt_m1843]; omega) (by rw [ysInt_1162]; omega)
    have hok := badiYearFromRd_ok hE t0 (by omega) t2 t3 hn.2
    refine ⟨?_, ⟨fun _ => ⟨_, _, hs0, hs1, hn⟩, fun _ => ⟨t, hok⟩⟩, fun h => absurd ⟨t, hok⟩ h⟩
    intro y hy
    rw [hok] at hy
    obtain rfl : t = y := by injection hy
    have ea := init_yearStart hE t
    have eb := init_yearStart hE (t + 1)
    rw [if_pos (by omega)] at ea eb
    refine ⟨_, _, ea, eb, t2, t3, ?_⟩
    intro z c d hc hd h2 h3
    obtain ⟨u, -, hu⟩ := C01_contiguous A hE (-287) 1097268 hs0
      (by rw [init_yearStart hE, if_pos (by omega), ysInt_1162]) n hn.1 (by omega)
    rw [hu z ⟨c, d, hc, hd, h2, h3⟩, ← hu t ⟨_, _, ea, eb, t2, t3⟩]
  · have herr := badiYearFromRd_err hE (n := n) (by omega)
    refine ⟨fun y hy => ?_, ⟨?_, ?_⟩, fun _ => herr⟩
    · rw [herr] at hy; cases hy
    · rintro ⟨y, hy⟩; rw [herr] at hy; cases hy
    · rintro ⟨a, b, ha, hb, h⟩
      rw [hs0] at ha; rw [hs1] at hb
      obtain rfl := Option.some.inj ha
      obtain rfl := Option.some.inj hb
      omega

/-- The day before Naw-Rúz 182 is in year 181: the guess of the code is one too high there or
exact, and the answer is right in either case. -/
example : (Cal.init sixPm).badiYearFromRd (ysInt 182 - 1) = .ok 181 :=
  badiYearFromRd_ok sixPm_tehran (by omega) (by omega) (by decide +kernel) (by decide +kernel)
    (by decide +kernel)

/-! ## C32 -/

/-- C32, Gregorian rule. -/
theorem C32_days_in_years_400 (y : ℤ) :
    daysInYears 0 false = 0 ∧
    (SpecLeapGregorian y → daysInYears y false = daysInYears (y - 1) false + 366) ∧
    (¬ SpecLeapGregorian y → daysInYears y false = daysInYears (y - 1) false + 365) := by
  refine ⟨by decide, ?_, ?_⟩ <;> intro h <;> unfold SpecLeapGregorian at h <;>
    rw [daysInYears_eq, daysInYears_eq] <;> omega

/-- C32, 128 year rule. -/
theorem C32_days_in_years_128 (y : ℤ) :
    daysInYears 0 true = 0 ∧
    (SpecLeap128 y → daysInYears y true = daysInYears (y - 1) true + 366) ∧
    (¬ SpecLeap128 y → daysInYears y true = daysInYears (y - 1) true + 365) := by
  have e : ∀ z, daysInYears z true = 365 * z + (z / 4 - z / 128) := by
    intro z; unfold daysInYears; simp; ring
  refine ⟨by decide, ?_, ?_⟩ <;> intro h <;> unfold SpecLeap128 at h <;>
    rw [e, e] <;> omega

example : SpecLeapGregorian 400 ∧ ¬ SpecLeapGregorian 100 ∧ ¬ SpecLeap128 (-128) := by
  unfold SpecLeapGregorian SpecLeap128; omega

/-! ## C36 -/

/-- What a table of segments says about the years: correction of a year whose distance to the end
of the segment has remainder `r` modulo 4 (the documentation of each list in the code). -/
def specCoeff (table : Fin 7) (r : ℤ) : ℤ :=
  match table with
  | 0 => -1
  | 1 => if r = 0 ∨ r = 3 then -1 else 0
  | 2 => if r = 1 then 0 else -1
  | 3 => -2
  | 4 => if r = 0 then -2 else -1
  | 5 => if r = 0 ∨ r = 3 then -2 else -1
  | 6 => if r = 1 then -1 else -2

/-- The seven tables of the code. -/
def specTables : Fin 7 → List (ℤ × ℤ)
  | 0 => P1 | 1 => P1100 | 2 => P1110 | 3 => P2 | 4 => P2111 | 5 => P2211 | 6 => P2221

theorem seg_len : ∀ p ∈ allSegs, p.2.2 - p.2.1 < 100 := by decide +kernel

theorem segPattern_spec (k : Fin 7) (r : ℤ) (h0 : 0 < r) (h1 : r < 100) :
    segPattern k r = specCoeff k (r % 4) := by
  have hr : r % 4 = 0 ∨ r % 4 = 1 ∨ r % 4 = 2 ∨ r % 4 = 3 := by omega
  fin_cases k <;> rcases hr with h | h | h | h <;>
    simp [segPattern, specCoeff, processSegments, processSegment, segOn, h0, h1, h]

/-- C36. Every supported year lies in exactly one segment of exactly one of the seven tables, and
the correction is the one documented for this table; outside -1843..1161 there is no
correction. -/
theorem C36_correction_table (y : ℤ) :
    (-1843 ≤ y → y ≤ 1161 →
      (∃! q : Fin 7 × (ℤ × ℤ), q.2 ∈ specTables q.1 ∧ q.2.1 ≤ y ∧ y < q.2.2) ∧
      ∀ (t : Fin 7) (a b : ℤ), (a, b) ∈ specTables t → a ≤ y → y < b →
        getDayCoeff y = specCoeff t ((b - y) % 4)) ∧
    ((y < -1843 ∨ 1161 < y) →
      getDayCoeff y = 0 ∧ ∀ (t : Fin 7) (a b : ℤ), (a, b) ∈ specTables t → ¬ (a ≤ y ∧ y < b)) := by
  have et : specTables = segTable := by funext t; fin_cases t <;> rfl
  rw [et]
  constructor
  · intro h0 h1
    obtain ⟨p, hp, hh, hc⟩ := seg_exists h0 (show y < 1162 by omega)
    have key : ∀ (t : Fin 7) (q : ℤ × ℤ), q ∈ segTable t → q.1 ≤ y → y < q.2 → (t, q) = p := by
      intro t q hq ha hb
      have c := segCompat_hit hc hh t
      have e := c.1 q hq ⟨ha, hb⟩
      rw [e] at hq
      have := c.2.mp hq
      rw [e, this]
    refine ⟨⟨p, ⟨(segCompat_hit hc hh p.1).2.mpr rfl, hh⟩, ?_⟩, ?_⟩
    · rintro ⟨t, q⟩ ⟨hq, ha, hb⟩
      exact key t q hq ha hb
    · intro t a b hq ha hb
      have e := key t (a, b) hq ha hb
      have hl := seg_len p hp
      rw [← e] at hc hh hl
      rw [getDayCoeff_seg hc hh]
      simp only at hl ⊢
      exact segPattern_spec t _ (by omega) (by omega)
  · intro h
    refine ⟨getDayCoeff_out (by omega), ?_⟩
    intro t a b hq ⟨ha, hb⟩
    have hin : (t, (a, b)) ∈ allSegs := by
      have hj : t ∈ ([0, 1, 2, 3, 4, 5, 6] : List (Fin 7)) := by
        clear hq; revert t; decide
      have h1 := List.all_eq_true.mp allSegs_complete t hj
      simpa using List.all_eq_true.mp h1 _ hq
    have hall : ∀ p ∈ allSegs, -1843 ≤ p.2.1 ∧ p.2.2 ≤ 1162 := by decide +kernel
    have := hall _ hin
    simp only at this
    omega

example : (149, 185) ∈ specTables 5 ∧ getDayCoeff 181 = -2 := by decide +kernel

end Verif
