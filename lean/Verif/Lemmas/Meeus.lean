import Verif.Lemmas.GregorianFwd

/-!
# Meeus' conversions: lemmas
-/

namespace Verif

/-- The month term of Meeus' formula. -/
def mTab (mo : ℤ) : ℤ := ⌊fl (fl 30.6001 * (mo + 1))⌋

/-- Longest length of the months numbered 3 to 14. -/
def mLen (mo : ℤ) : ℤ :=
  if mo = 14 then 29 else if mo = 4 ∨ mo = 6 ∨ mo = 9 ∨ mo = 11 then 30 else 31

theorem mTab_facts : ∀ mo ∈ Finset.Icc (3 : ℤ) 14, ∀ d ∈ Finset.Icc (1 : ℤ) 31, d ≤ mLen mo →
    ⌊fl (((mTab mo + d : ℤ) : ℚ) / fl 30.6001)⌋ = mo + 1 ∧ 123 ≤ mTab mo + d ∧ mTab mo + d ≤ 488 ∧
    (mTab mo + d = 488 → mo = 14 ∧ d = 29) ∧
    (mo < 10 → mTab mo + d ≤ 340) ∧ (10 < mo → 351 ≤ mTab mo + d) ∧ (mo = 10 → mTab mo = 336) := by
  decide +kernel

theorem mTab_next : (∀ mo ∈ Finset.Icc (3 : ℤ) 13, mTab (mo + 1) = mTab mo + mLen mo) ∧
    mTab 3 = 122 ∧ mTab 14 = 459 := by
  decide +kernel

theorem fl_quarter (k : ℤ) (h : |k| ≤ 2 ^ 53) : fl ((k : ℚ) / 4) = k / 4 := by
  have := fl_grid k 2 h
  norm_num at this
  exact this

theorem floor_quarter (k : ℤ) : ⌊(k : ℚ) / 4⌋ = k / 4 := by
  rw [show (4 : ℚ) = ((4 : ℕ) : ℚ) by norm_num, Rat.floor_intCast_div_natCast]
  rfl

/-- The century term of Meeus' formula, for the shifted year. -/
def mB (reform : Prop) [Decidable reform] (Y : ℤ) : ℤ := if reform then 2 - Y / 100 + Y / 100 / 4 else 0

/-- Dates with shifted year and month, at or after the reform. -/
def Reform (Y mo d : ℤ) : Prop := 1582 < Y ∨ (Y = 1582 ∧ (10 < mo ∨ (mo = 10 ∧ 15 ≤ d)))

instance (Y mo d : ℤ) : Decidable (Reform Y mo d) := by unfold Reform; infer_instance

theorem floor_c {b : ℤ} (hb : |b| ≤ 400000000) :
    ⌊fl (fl ((b : ℚ) - fl 122.1) / 365.25)⌋ = (20 * b - 2442) / 7305 := by
  have hT := (by decide +kernel : |fl 122.1 - 122.1| ≤ 1 / 10000000000000)
  rw [abs_le] at hT hb
  set T := fl 122.1
  norm_num at hT
  have b0 : (-400000000 : ℚ) ≤ b := by exact_mod_cast hb.1
  have b1 : (b : ℚ) ≤ 400000000 := by exact_mod_cast hb.2
  have e1 := abs_le.mp (fl_err_le (x := (b : ℚ) - T) (B := 400000200) (by
    rw [abs_le]; constructor <;> linarith))
  set u := fl ((b : ℚ) - T)
  have e2 := abs_le.mp (fl_err_le (x := u / 365.25) (B := 1100000) (by
    norm_num
    rw [abs_le]; constructor <;> linarith))
  set v := fl (u / 365.25)
  norm_num at e2
  have hk : 7305 * ((20 * b - 2442) / 7305) + 1 ≤ 20 * b - 2442 ∧
      20 * b - 2442 ≤ 7305 * ((20 * b - 2442) / 7305) + 7304 := by omega
  set k := (20 * b - 2442) / 7305
  have k1 : (7305 * k + 1 : ℚ) ≤ 20 * b - 2442 := by exact_mod_cast hk.1
  have k2 : (20 * b - 2442 : ℚ) ≤ 7305 * k + 7304 := by exact_mod_cast hk.2
  rw [Int.floor_eq_iff]
  constructor <;> linarith

theorem alpha_aux {Y W : ℤ} (h1 : 123 ≤ W) (h2 : W ≤ 488)
    (g : W = 488 → (Y + 1) % 4 = 0 ∧ ((Y + 1) % 100 = 0 → (Y + 1) % 400 = 0)) :
    (4 * (1461 * Y / 4 + W + (2 - Y / 100 + Y / 100 / 4) + 1720995) - 7468865) / 146097
      = Y / 100 - 4 := by
  obtain ⟨A, r, s, q, r0, r1, s0, s1, eA, eY⟩ : ∃ A r s q : ℤ, 0 ≤ r ∧ r < 100 ∧ 0 ≤ s ∧ s < 4 ∧
      A = 4 * q + s ∧ Y = 100 * A + r :=
    ⟨Y / 100, Y % 100, Y / 100 % 4, Y / 100 / 4, by omega, by omega, by omega, by omega, by omega, by omega⟩
  have e1 : Y / 100 = A := by omega
  have e2 : A / 4 = q := by omega
  have e3 : 1461 * Y / 4 = 36525 * A + 1461 * r / 4 := by omega
  rw [e1, e2, e3]
  have g' : W = 488 → r % 4 = 3 ∧ (r = 99 → s = 3) := by
    intro h
    have := g h
    omega
  rw [Int.ediv_eq_iff_of_pos (by norm_num)]
  constructor
  · omega
  · by_cases hW : W = 488
    · have := g' hW
      omega
    · omega

/-- The day number of a date with shifted year and month. -/
def dayM (Y mo d : ℤ) : ℤ := 1461 * Y / 4 + mTab mo + d + mB (Reform Y mo d) Y

theorem meeus_back {Y mo d : ℤ} (h1 : 3 ≤ mo) (h2 : mo ≤ 14) (d1 : 1 ≤ d) (d2 : d ≤ mLen mo)
    (hY : |Y| ≤ 1000001) (hgap : ¬ (Y = 1582 ∧ mo = 10 ∧ 5 ≤ d ∧ d ≤ 14))
    (hleap : mo = 14 → d = 29 → (Y + 1) % 4 = 0 ∧
      (Reform Y mo d → (Y + 1) % 100 = 0 → (Y + 1) % 400 = 0)) :
    gregorianFromJdMeeus ((dayM Y mo d : ℚ) + 1720994.5) =
      ⟨if mo ≤ 12 then Y else Y + 1, if mo ≤ 12 then mo else mo - 12, d, []⟩ := by
  have d31 : d ≤ 31 := by unfold mLen at d2; split_ifs at d2 <;> omega
  obtain ⟨t1, t2, t3, t4, t5, t6, t7⟩ := mTab_facts mo (by simp; omega) d (by simp; omega) d2
  have hleap' : mTab mo + d = 488 → (Y + 1) % 4 = 0 ∧
      (Reform Y mo d → (Y + 1) % 100 = 0 → (Y + 1) % 400 = 0) := by
    intro h
    obtain ⟨a, b⟩ := t4 h
    exact hleap a b
  rw [abs_le] at hY
  set W := mTab mo + d with hW
  have hD : dayM Y mo d = 1461 * Y / 4 + W + mB (Reform Y mo d) Y := by
    unfold dayM; omega
  set z := dayM Y mo d + 1720995 with hz
  have hbig : -400000000 ≤ dayM Y mo d ∧ dayM Y mo d ≤ 390000000 := by
    rw [hD]; unfold mB; split_ifs <;> omega
  have ez : fl ((dayM Y mo d : ℚ) + 1720994.5 + 1 / 2) = (z : ℚ) := by
    rw [show (dayM Y mo d : ℚ) + 1720994.5 + 1 / 2 = (z : ℚ) by rw [hz]; push_cast; ring]
    exact fl_int _ (by rw [abs_le]; constructor <;> omega)
  have hreform : 2299161 ≤ z ↔ Reform Y mo d := by
    rw [hz, hD]
    unfold mB
    constructor
    · intro h
      by_contra hn
      rw [if_neg hn] at h
      unfold Reform at hn
      have hW' : Y = 1582 → W ≤ 340 := by intro; omega
      omega
    · intro h
      rw [if_pos h]
      unfold Reform at h
      have hW' : Y = 1582 → 351 ≤ W := by intro; omega
      omega
  have ha : (if 2299161 ≤ z then
      z + 1 + ⌊fl (fl ((z : ℚ) - 1867216.25) / 36524.25)⌋
        - ⌊fl ((⌊fl (fl ((z : ℚ) - 1867216.25) / 36524.25)⌋ : ℚ) / 4)⌋ else z)
      = 1461 * Y / 4 + W + 1720995 := by
    by_cases hr : Reform Y mo d
    · rw [if_pos (hreform.mpr hr)]
      have hz1 := hreform.mpr hr
      have eB : mB (Reform Y mo d) Y = 2 - Y / 100 + Y / 100 / 4 := by unfold mB; rw [if_pos hr]
      have e1 : fl ((z : ℚ) - 1867216.25) = ((4 * z - 7468865 : ℤ) : ℚ) / 4 := by
        rw [← fl_quarter _ (by rw [abs_le]; constructor <;> omega)]
        congr 1; push_cast; ring
      have e2 : ((4 * z - 7468865 : ℤ) : ℚ) / 4 / 36524.25 = ((4 * z - 7468865 : ℤ) : ℚ) / ((146097 : ℕ) : ℚ) := by
        push_cast; ring
      have q0 : (0 : ℚ) ≤ ((4 * z - 7468865 : ℤ) : ℚ) := by exact_mod_cast (by omega)
      have q1 : ((4 * z - 7468865 : ℤ) : ℚ) < 2 ^ 53 := by
        have : 4 * z - 7468865 < 2 ^ 53 := by omega
        exact_mod_cast this
      have e3 : ⌊fl (fl ((z : ℚ) - 1867216.25) / 36524.25)⌋ = (4 * z - 7468865) / 146097 := by
        rw [e1, e2, floor_fl_div (isF64_int (by rw [abs_le]; constructor <;> omega)) q0 q1 (by norm_num)
          ((div_le_self q0 (by norm_num)).trans_lt q1), Rat.floor_intCast_div_natCast]
        rfl
      rw [e3, fl_quarter _ (by rw [abs_le]; constructor <;> omega), floor_quarter]
      have al : (4 * z - 7468865) / 146097 = Y / 100 - 4 := by
        have g : W = 488 → (Y + 1) % 4 = 0 ∧ ((Y + 1) % 100 = 0 → (Y + 1) % 400 = 0) := by
          intro h
          exact ⟨(hleap' h).1, (hleap' h).2 hr⟩
        rw [hz, hD, eB]
        exact alpha_aux t2 t3 g
      rw [al, hz, hD, eB]
      omega
    · rw [if_neg (fun h => hr (hreform.mp h)), hz, hD]
      unfold mB
      rw [if_neg hr]
      omega
  unfold gregorianFromJdMeeus
  simp only
  rw [ez, Int.floor_intCast, pyMod1_int, ha]
  set b := 1461 * Y / 4 + W + 1720995 + 1524 with hb
  have hc : ⌊fl (fl ((b : ℚ) - fl 122.1) / 365.25)⌋ = Y + 4716 := by
    rw [floor_c (by rw [abs_le]; constructor <;> omega)]
    have g : W = 488 → (Y + 1) % 4 = 0 := fun h => (hleap' h).1
    clear_value W
    omega
  rw [hc]
  have hd : ⌊fl (365.25 * ((Y + 4716 : ℤ) : ℚ))⌋ = 1461 * (Y + 4716) / 4 := by
    rw [show (365.25 : ℚ) * ((Y + 4716 : ℤ) : ℚ) = ((1461 * (Y + 4716) : ℤ) : ℚ) / 4 by push_cast; ring,
      fl_quarter _ (by rw [abs_le]; constructor <;> omega), floor_quarter]
  rw [hd]
  have hbd : b - 1461 * (Y + 4716) / 4 = W := by omega
  rw [hbd, t1]
  have hmt : ⌊fl (fl 30.6001 * ((mo + 1 : ℤ) : ℚ))⌋ = mTab mo := by unfold mTab; push_cast; rfl
  rw [hmt, show W - mTab mo = d by omega, add_zero, fl_int _ (by rw [abs_le]; constructor <;> omega),
    pyRound_int _ _ (by rw [abs_le]; constructor <;> omega)]
  by_cases hm : mo ≤ 12
  · simp only [if_pos hm, if_neg (show ¬ 13 < mo + 1 by omega), if_pos (show 2 < mo + 1 - 1 by omega)]
    congr 1 <;> omega
  · simp only [if_neg hm, if_pos (show 13 < mo + 1 by omega), if_neg (show ¬ 2 < mo + 1 - 13 by omega)]
    congr 1 <;> omega

/-- The year from which Meeus counts: January and February belong to the year before. -/
def shY (y m : ℤ) : ℤ := if m ≤ 2 then y - 1 else y
/-- The month number used by Meeus, 3 to 14. -/
def shM (m : ℤ) : ℤ := if m ≤ 2 then m + 12 else m

/-- The day number of a date of the calendar in use. -/
def dayH (y m d : ℤ) : ℤ := dayM (shY y m) (shM m) d

theorem validH_len {y m d : ℤ} (hv : ValidH y m d) : d ≤ mLen (shM m) := by
  obtain ⟨m1, m2, d1, d2, -⟩ := hv
  unfold specMonthLen at d2
  unfold mLen shM
  split_ifs at d2 ⊢ <;> omega

theorem validH_leap {y d : ℤ} (hv : ValidH y 2 d) (h29 : d = 29) :
    y % 4 = 0 ∧ (1582 < y → y % 100 = 0 → y % 400 = 0) := by
  obtain ⟨m1, m2, d1, d2, -⟩ := hv
  unfold specMonthLen at d2
  rw [if_pos rfl] at d2
  have hl : SpecLeapHistorical y := by
    by_contra h
    rw [if_neg h] at d2
    omega
  unfold SpecLeapHistorical at hl
  split_ifs at hl with h
  · omega
  · unfold SpecLeapGregorian at hl
    omega

theorem meeus_back_date {y m d : ℤ} (hv : ValidH y m d) (hy : |y| ≤ 1000000) :
    gregorianFromJdMeeus ((dayH y m d : ℚ) + 1720994.5) = ⟨y, m, d, []⟩ := by
  have hl := validH_len hv
  have hv' := hv
  obtain ⟨m1, m2, d1, d2, hg⟩ := hv
  rw [abs_le] at hy
  unfold dayH
  rw [meeus_back (by unfold shM; split_ifs <;> omega) (by unfold shM; split_ifs <;> omega) d1 hl
    (by unfold shY; rw [abs_le]; split_ifs <;> constructor <;> omega)
    (by unfold shY shM; split_ifs <;> omega) ?_]
  · unfold shM shY
    split_ifs <;> first | rfl | (exfalso; omega) | (congr 1 <;> omega)
  · intro h14 h29
    have hm2 : m = 2 := by unfold shM at h14; split_ifs at h14 <;> omega
    subst hm2
    have := validH_leap hv' h29
    unfold Reform shY
    rw [if_pos (by norm_num)]
    refine ⟨by omega, ?_⟩
    intro hr h100
    have h2 : shM 2 = 14 := by decide
    rw [h2] at hr
    rw [sub_add_cancel] at h100 ⊢
    exact this.2 (by omega) h100

theorem century_step (y : ℤ) : 1461 * y / 4 + (2 - y / 100 + y / 100 / 4) =
    1461 * (y - 1) / 4 + (2 - (y - 1) / 100 + (y - 1) / 100 / 4) + 365 +
      (if y % 4 = 0 ∧ (y % 100 = 0 → y % 400 = 0) then 1 else 0) := by
  have f : ∀ z : ℤ, 1461 * z / 4 = 365 * z + z / 4 := by intro z; omega
  have h4 : 1461 * y / 4 = 1461 * (y - 1) / 4 + 365 + (if y % 4 = 0 then 1 else 0) := by
    rw [f, f]
    split_ifs <;> omega
  by_cases h100 : y % 100 = 0
  · have e1 : (y - 1) / 100 = y / 100 - 1 := by omega
    have e2 : (y / 100 - 1) / 4 = y / 100 / 4 - (if y % 400 = 0 then 1 else 0) := by
      split_ifs <;> omega
    have e4 : y % 4 = 0 := by omega
    rw [e1, e2, h4]
    by_cases h400 : y % 400 = 0
    · rw [if_pos e4, if_pos h400, if_pos ⟨e4, fun _ => h400⟩]; omega
    · rw [if_pos e4, if_neg h400, if_neg (fun h => h400 (h.2 h100))]; omega
  · have e1 : (y - 1) / 100 = y / 100 := by omega
    rw [e1, h4]
    by_cases e4 : y % 4 = 0
    · rw [if_pos e4, if_pos ⟨e4, fun h => absurd h h100⟩]; omega
    · rw [if_neg e4, if_neg (fun h => e4 h.1)]; omega

/-- The last day of February and the first of March. -/
theorem dayH_feb {y d : ℤ} (d2 : d ≤ specMonthLen (SpecLeapHistorical y) 2)
    (hd : ¬ d < specMonthLen (SpecLeapHistorical y) 2) : dayH y (2 + 1) 1 = dayH y 2 d + 1 := by
  obtain ⟨-, n2, n3⟩ := mTab_next
  unfold dayH dayM shY shM
  norm_num
  rw [n2, n3]
  unfold specMonthLen at d2 hd
  simp only [if_true] at d2 hd
  have hr : Reform (y - 1) 14 d ↔ 1582 < y := by unfold Reform; omega
  have hr' : Reform y 3 1 ↔ 1582 < y := by unfold Reform; omega
  unfold mB
  by_cases h : 1582 < y
  · rw [if_pos (hr.mpr h), if_pos (hr'.mpr h)]
    have hle : SpecLeapHistorical y ↔ (y % 4 = 0 ∧ (y % 100 = 0 → y % 400 = 0)) := by
      unfold SpecLeapHistorical SpecLeapGregorian
      rw [if_neg (by omega)]; omega
    have st := century_step y
    by_cases hs : SpecLeapHistorical y
    · rw [if_pos hs] at d2 hd
      rw [hle] at hs
      rw [if_pos hs] at st
      omega
    · rw [if_neg hs] at d2 hd
      rw [hle] at hs
      rw [if_neg hs] at st
      omega
  · rw [if_neg (fun g => h (hr.mp g)), if_neg (fun g => h (hr'.mp g))]
    have hle : SpecLeapHistorical y ↔ y % 4 = 0 := by
      unfold SpecLeapHistorical
      rw [if_pos (by omega)]; omega
    have f : ∀ z : ℤ, 1461 * z / 4 = 365 * z + z / 4 := by intro z; omega
    rw [f, f]
    clear f
    by_cases hs : SpecLeapHistorical y
    · rw [if_pos hs] at d2 hd
      rw [hle] at hs
      clear hle hr hr' h n2 n3
      omega
    · rw [if_neg hs] at d2 hd
      rw [hle] at hs
      clear hle hr hr' h n2 n3
      omega

theorem dayH_next {y m d : ℤ} (hv : ValidH y m d) :
    dayH (nextH y m d).1 (nextH y m d).2.1 (nextH y m d).2.2 = dayH y m d + 1 := by
  have hl := validH_len hv
  have hv' := hv
  obtain ⟨m1, m2, d1, d2, hg⟩ := hv
  obtain ⟨n1, n2, n3⟩ := mTab_next
  have t10 : mTab 10 = 336 := by decide +kernel
  unfold nextH
  by_cases hq : y = 1582 ∧ m = 10 ∧ d = 4
  · obtain ⟨rfl, rfl, rfl⟩ := hq
    decide +kernel
  rw [if_neg hq]
  by_cases hd : d < specMonthLen (SpecLeapHistorical y) m
  · rw [if_pos hd]
    simp only
    unfold dayH dayM
    have : Reform (shY y m) (shM m) (d + 1) ↔ Reform (shY y m) (shM m) d := by
      unfold Reform shY shM
      split_ifs <;> omega
    unfold mB
    by_cases hr : Reform (shY y m) (shM m) d
    · rw [if_pos hr, if_pos (this.mpr hr)]; omega
    · rw [if_neg hr, if_neg (fun h => hr (this.mp h))]; omega
  rw [if_neg hd]
  by_cases h2 : m = 2
  · subst h2
    rw [if_pos (by norm_num)]
    exact dayH_feb d2 hd
  · have dl : d = mLen (shM m) := by
      have a : specMonthLen (SpecLeapHistorical y) m = specMonthLen False m := by
        unfold specMonthLen; rw [if_neg h2, if_neg h2]
      have b : ∀ m ∈ Finset.Icc (1 : ℤ) 12, m ≠ 2 → specMonthLen False m = mLen (shM m) := by
        decide +kernel
      have := b m (by simp; omega) h2
      omega
    by_cases h12 : m < 12
    · rw [if_pos h12]
      simp only
      have eM : shM (m + 1) = shM m + 1 := by unfold shM; split_ifs <;> omega
      have eY : shY y (m + 1) = shY y m := by unfold shY; split_ifs <;> omega
      have r : 3 ≤ shM m ∧ shM m ≤ 13 := by unfold shM; split_ifs <;> omega
      unfold dayH dayM
      rw [eM, eY, n1 (shM m) (by simp; omega)]
      have : Reform (shY y m) (shM m + 1) 1 ↔ Reform (shY y m) (shM m) d := by
        have d31 : shM m = 10 → d = 31 := by
          intro h
          rw [dl, h]; decide
        unfold Reform
        omega
      unfold mB
      by_cases hr : Reform (shY y m) (shM m) d
      · rw [if_pos hr, if_pos (this.mpr hr)]; omega
      · rw [if_neg hr, if_neg (fun h => hr (this.mp h))]; omega
    · rw [if_neg h12]
      simp only
      have hm : m = 12 := by omega
      subst hm
      have e12 : shM 12 = 12 := by decide
      have e1 : shM 1 = 13 := by decide
      have y1 : shY (y + 1) 1 = y := by unfold shY; simp
      have y2 : shY y 12 = y := by unfold shY; simp
      have := n1 12 (by simp)
      norm_num at this
      unfold dayH dayM
      rw [e12, e1, y1, y2, this]
      rw [e12] at dl
      have hr : Reform y 13 1 ↔ Reform y 12 d := by unfold Reform; omega
      unfold mB
      by_cases h : Reform y 12 d
      · rw [if_pos h, if_pos (hr.mpr h)]; omega
      · rw [if_neg h, if_neg (fun g => h (hr.mp g))]; omega

theorem validH_next {y m d : ℤ} (hv : ValidH y m d) :
    ValidH (nextH y m d).1 (nextH y m d).2.1 (nextH y m d).2.2 := by
  obtain ⟨m1, m2, d1, d2, hg⟩ := hv
  have len1 : ∀ y' m' : ℤ, 1 ≤ specMonthLen (SpecLeapHistorical y') m' := by
    intro y' m'
    unfold specMonthLen
    split_ifs <;> omega
  unfold nextH
  split_ifs with h1 h2 h3
  · decide +kernel
  · exact ⟨m1, m2, by simp only; omega, by simp only; omega, by simp only; omega⟩
  · exact ⟨by simp only; omega, by simp only; omega, le_refl _, len1 _ _, by simp only; omega⟩
  · exact ⟨le_refl _, by norm_num, le_refl _, len1 _ _, by simp only; omega⟩

/-- The JD of a date accepted by the check. -/
theorem meeus_fwd {y m d : ℤ} (hv : ValidG y m d) (hy : |y| ≤ 1000000)
    (hg : ¬ (y = 1582 ∧ m = 10 ∧ 5 ≤ d ∧ d ≤ 14)) :
    jdFromGregorianMeeus ⟨y, m, d, []⟩ = .ok ((dayH y m d : ℚ) + 1720994.5) := by
  unfold jdFromGregorianMeeus
  rw [dateFromYmdhms_date hv, pyOk_bind]
  obtain ⟨m1, m2, d1, d2⟩ := hv
  have d31 : d ≤ 31 := by unfold specMonthLen at d2; split_ifs at d2 <;> omega
  have hmem : ¬ (y = 1582 ∧ m = 10 ∧ (d : ℚ) ∈ ([5, 6, 7, 8, 9, 10, 11, 12, 13, 14] : List ℚ)) := by
    rintro ⟨a, b, c⟩
    have e : ([5, 6, 7, 8, 9, 10, 11, 12, 13, 14] : List ℚ)
        = ([5, 6, 7, 8, 9, 10, 11, 12, 13, 14] : List ℤ).map (fun x : ℤ => (x : ℚ)) := by simp
    rw [e, List.mem_map] at c
    obtain ⟨x, hx, ex⟩ := c
    have : x = d := by exact_mod_cast ex
    subst this
    simp at hx
    omega
  simp only
  rw [if_neg hmem]
  have hsh : (if m ≤ 2 then (y - 1, m + 12) else (y, m)) = (shY y m, shM m) := by
    unfold shY shM; split_ifs <;> rfl
  rw [hsh]
  simp only
  rw [abs_le] at hy
  have yb : -1000001 ≤ shY y m ∧ shY y m ≤ 1000000 := by unfold shY; split_ifs <;> omega
  have mb : 3 ≤ shM m ∧ shM m ≤ 14 := by unfold shM; split_ifs <;> omega
  unfold dayH
  set Y := shY y m
  set mo := shM m
  have e1 : ⌊fl (365.25 * (Y : ℚ))⌋ = 1461 * Y / 4 := by
    rw [show (365.25 : ℚ) * (Y : ℚ) = ((1461 * Y : ℤ) : ℚ) / 4 by push_cast; ring,
      fl_quarter _ (by rw [abs_le]; constructor <;> omega), floor_quarter]
  have e2 : ⌊fl (fl 30.6001 * ((mo : ℚ) + 1))⌋ = mTab mo := rfl
  have hB : (if 1582 < Y ∨ (Y = 1582 ∧ (10 < mo ∨ (mo = 10 ∧ (15 : ℚ) ≤ d))) then
        2 - ⌊fl ((Y : ℚ) / 100)⌋ + ⌊fl ((⌊fl ((Y : ℚ) / 100)⌋ : ℚ) / 4)⌋ else 0)
      = mB (Reform Y mo d) Y := by
    have hc : (1582 < Y ∨ (Y = 1582 ∧ (10 < mo ∨ (mo = 10 ∧ (15 : ℚ) ≤ d)))) ↔ Reform Y mo d := by
      unfold Reform
      have : (15 : ℚ) ≤ d ↔ 15 ≤ d := by exact_mod_cast Iff.rfl
      rw [this]
    unfold mB
    by_cases h : Reform Y mo d
    · rw [if_pos h, if_pos (hc.mpr h)]
      have Y0 : 1582 ≤ Y := by unfold Reform at h; omega
      have q0 : (0 : ℚ) ≤ Y := by exact_mod_cast (by omega)
      have q1 : (Y : ℚ) < 2 ^ 53 := by
        have : Y < 2 ^ 53 := by omega
        exact_mod_cast this
      have e : ⌊fl ((Y : ℚ) / 100)⌋ = Y / 100 := by
        have := floor_fl_div (x := (Y : ℚ)) (n := 100)
          (isF64_int (by rw [abs_le]; constructor <;> omega)) q0 q1 (by norm_num)
          ((div_le_self q0 (by norm_num)).trans_lt q1)
        rw [Rat.floor_intCast_div_natCast] at this
        push_cast at this
        exact this
      rw [e, fl_quarter _ (by rw [abs_le]; constructor <;> omega), floor_quarter]
    · rw [if_neg h, if_neg (fun g => h (hc.mp g))]
  rw [e1, e2, hB]
  have mt : -1000 ≤ mTab mo ∧ mTab mo ≤ 1000 := by
    have : ∀ mo ∈ Finset.Icc (3 : ℤ) 14, -1000 ≤ mTab mo ∧ mTab mo ≤ 1000 := by decide +kernel
    exact this mo (by simp; omega)
  have Bb : -1000000 ≤ mB (Reform Y mo d) Y ∧ mB (Reform Y mo d) Y ≤ 1000000 := by
    unfold mB; split_ifs <;> omega
  have f1 : fl (((1461 * Y / 4 + mTab mo : ℤ) : ℚ) + d) = ((1461 * Y / 4 + mTab mo + d : ℤ) : ℚ) := by
    rw [← fl_int _ (show |1461 * Y / 4 + mTab mo + d| ≤ 2 ^ 53 by rw [abs_le]; constructor <;> omega)]
    congr 1; push_cast; ring
  have f2 : fl (((1461 * Y / 4 + mTab mo + d : ℤ) : ℚ) + mB (Reform Y mo d) Y) = ((dayM Y mo d : ℤ) : ℚ) := by
    unfold dayM
    rw [← fl_int _ (show |1461 * Y / 4 + mTab mo + d + mB (Reform Y mo d) Y| ≤ 2 ^ 53 by
      rw [abs_le]; constructor <;> omega)]
    congr 1; push_cast; ring
  rw [f1, f2]
  have hD : -400000000 ≤ dayM Y mo d ∧ dayM Y mo d ≤ 400000000 := by unfold dayM; omega
  have hb : |2 * dayM Y mo d + 3441989| ≤ 2 ^ 53 := by rw [abs_le]; constructor <;> omega
  rw [show (dayM Y mo d : ℚ) + 1720994.5 = ((2 * dayM Y mo d + 3441989 : ℤ) : ℚ) / 2 by push_cast; ring,
    fl_half _ hb, pyRound_half _ hb]

end Verif
