import Verif.Lemmas.SolarSun
import Verif.Lemmas.Meeus

/-!
# ΔT over the era
-/

namespace Verif.Solar

/-- Each whole day from the origin of the JD count is a date with a year near the mean one. -/
theorem jd_date (n : ℕ) (hn : n ≤ 300000000) :
    ∃ y m d, ValidH y m d ∧ dayH y m d + 1720995 = n ∧ gregorianFromJdMeeus ((n : ℚ) - 1 / 2) = ⟨y, m, d, []⟩ := by
  have key : ∀ n : ℕ, n ≤ 300000000 → ∃ y m d, ValidH y m d ∧ -4712 ≤ y ∧ dayH y m d + 1720995 = n := by
    intro n
    induction n with
    | zero => exact fun _ => ⟨-4712, 1, 1, by decide +kernel, le_refl _, by decide +kernel⟩
    | succ k ih =>
      intro hk
      obtain ⟨y, m, d, v, y0, e⟩ := ih (by omega)
      refine ⟨_, _, _, validH_next v, ?_, ?_⟩
      · unfold nextH
        split_ifs <;> simp only <;> omega
      · rw [dayH_next v]; push_cast; omega
  obtain ⟨y, m, d, v, y0, e⟩ := key n hn
  have hy : y < 1000000 := by
    by_contra hc
    obtain ⟨m1, m2, d1, -⟩ := v
    have mt : ∀ mo ∈ Finset.Icc (3 : ℤ) 14, -1000 ≤ mTab mo ∧ mTab mo ≤ 1000 := by decide +kernel
    have := mt (shM m) (by unfold shM; simp; split_ifs <;> omega)
    unfold dayH dayM mB at e
    have sy : y - 1 ≤ shY y m := by unfold shY; split_ifs <;> omega
    split_ifs at e <;> omega
  have eq1 : (n : ℚ) = ((dayH y m d + 1720995 : ℤ) : ℚ) := by rw [e]; push_cast; rfl
  refine ⟨y, m, d, v, e, ?_⟩
  rw [eq1, show ((dayH y m d + 1720995 : ℤ) : ℚ) - 1 / 2 = (dayH y m d : ℚ) + 1720994.5 by push_cast; ring]
  exact meeus_back_date v (by rw [abs_le]; omega)

/-- Year and month only depend on the day. -/
theorem meeus_day (jd : ℚ) (n : ℤ) (h0 : 0 ≤ n) (hn : n ≤ 300000000) (h : ⌊fl (jd + 1 / 2)⌋ = n) :
    (gregorianFromJdMeeus jd).y = (gregorianFromJdMeeus ((n : ℚ) - 1 / 2)).y ∧
      (gregorianFromJdMeeus jd).m = (gregorianFromJdMeeus ((n : ℚ) - 1 / 2)).m := by
  have e : ⌊fl ((n : ℚ) - 1 / 2 + 1 / 2)⌋ = n := by
    rw [sub_add_cancel, fl_int n (by rw [abs_le]; constructor <;> omega), Int.floor_intCast]
  unfold gregorianFromJdMeeus
  simp only [h, e]
  exact ⟨trivial, trivial⟩

theorem decimalYear_bounds {jd : ℚ} (h0 : 1720998 ≤ jd) (h1 : jd ≤ 2820002) :
    -10 ≤ decimalYear jd ∧ decimalYear jd ≤ 3016 := by
  have f0 : (1720998 : ℚ) ≤ fl (jd + 1 / 2) := by
    have := fl_mono (show (1720998 : ℚ) ≤ jd + 1 / 2 by linarith)
    rwa [show fl 1720998 = 1720998 by decide +kernel] at this
  have f1 : fl (jd + 1 / 2) ≤ (2820003 : ℚ) := by
    have := fl_mono (show jd + 1 / 2 ≤ (2820003 : ℚ) by linarith)
    rwa [show fl 2820003 = 2820003 by decide +kernel] at this
  have g0 : 1720998 ≤ ⌊fl (jd + 1 / 2)⌋ := Int.le_floor.mpr (by exact_mod_cast f0)
  have g1 : ⌊fl (jd + 1 / 2)⌋ ≤ 2820003 := by
    have := Int.floor_le (fl (jd + 1 / 2))
    exact_mod_cast this.trans f1
  obtain ⟨n, hn⟩ := Int.eq_ofNat_of_zero_le (show 0 ≤ ⌊fl (jd + 1 / 2)⌋ by omega)
  obtain ⟨y, m, d, v, e, eg⟩ := jd_date n (by omega)
  obtain ⟨ey, em⟩ := meeus_day jd n (by omega) (by omega) hn
  unfold decimalYear
  rw [ey, em]
  push_cast
  rw [eg]
  simp only
  obtain ⟨m1, m2, d1, d2, -⟩ := v
  have mt : ∀ mo ∈ Finset.Icc (3 : ℤ) 14, -1000 ≤ mTab mo ∧ mTab mo ≤ 1000 := by decide +kernel
  have := mt (shM m) (by unfold shM; simp; split_ifs <;> omega)
  have d3 : d ≤ 31 := by
    refine d2.trans ?_
    unfold specMonthLen
    split_ifs <;> omega
  have y01 : -8 ≤ y ∧ y ≤ 3014 := by
    unfold dayH dayM mB at e
    have sy : y - 1 ≤ shY y m ∧ shY y m ≤ y := by unfold shY; split_ifs <;> omega
    split_ifs at e <;> omega
  have a1 : (-8 : ℚ) ≤ y := by exact_mod_cast y01.1
  have a2 : (y : ℚ) ≤ 3014 := by exact_mod_cast y01.2
  have a3 : (1 : ℚ) ≤ m := by exact_mod_cast m1
  have a4 : (m : ℚ) ≤ 12 := by exact_mod_cast m2
  constructor <;> linarith

theorem polyQ_abs {x X : ℚ} (h : |x| ≤ X) (l : List ℚ) :
    |Verif.poly x l| ≤ Verif.poly X (l.map (fun a => |a|)) := by
  induction l with
  | nil => simp [Verif.poly]
  | cons a l ih =>
    simp only [Verif.poly, List.map_cons]
    refine (abs_add_le _ _).trans ?_
    rw [abs_mul]
    have := mul_le_mul h ih (abs_nonneg _) ((abs_nonneg _).trans h)
    linarith

theorem ite_abs {c : Prop} [Decidable c] {a b B : ℚ} (h1 : c → |a| ≤ B) (h2 : ¬ c → |b| ≤ B) :
    |if c then a else b| ≤ B := by
  split_ifs with h
  · exact h1 h
  · exact h2 h

theorem deltaTSeconds_abs {y : ℚ} (h0 : -10 ≤ y) (h1 : y ≤ 3016) : |deltaTSeconds y| ≤ 27000 := by
  unfold deltaTSeconds
  have sq : ∀ z : ℚ, |z| ≤ 20 → |-20 + 32 * z ^ 2| ≤ 12820 := by
    intro z hz
    have h2 : z ^ 2 ≤ 400 := by
      rw [← sq_abs]
      have := pow_le_pow_left₀ (abs_nonneg z) hz 2
      exact this.trans (by norm_num)
    have := sq_nonneg z
    rw [abs_le]
    constructor <;> linarith
  have range : ∀ {z X : ℚ}, -X ≤ z → z ≤ X → |z| ≤ X := fun a b => abs_le.mpr ⟨a, b⟩
  refine ite_abs (fun c => by linarith) (fun c1 => ?_)
  refine ite_abs (fun c => (polyQ_abs (X := 5) (range (by linarith) (by linarith)) _).trans (by decide +kernel)) (fun c1 => ?_)
  refine ite_abs (fun c => (polyQ_abs (X := 6) (range (by linarith) (by linarith)) _).trans (by decide +kernel)) (fun c1 => ?_)
  refine ite_abs (fun c => (polyQ_abs (X := 100) (range (by linarith) (by linarith)) _).trans (by decide +kernel)) (fun c1 => ?_)
  refine ite_abs (fun c => (polyQ_abs (X := 100) (range (by linarith) (by linarith)) _).trans (by decide +kernel)) (fun c1 => ?_)
  refine ite_abs (fun c => (polyQ_abs (X := 60) (range (by linarith) (by linarith)) _).trans (by decide +kernel)) (fun c1 => ?_)
  refine ite_abs (fun c => (polyQ_abs (X := 40) (range (by linarith) (by linarith)) _).trans (by decide +kernel)) (fun c1 => ?_)
  refine ite_abs (fun c => (polyQ_abs (X := 20) (range (by linarith) (by linarith)) _).trans (by decide +kernel)) (fun c1 => ?_)
  refine ite_abs (fun c => (polyQ_abs (X := 21) (range (by linarith) (by linarith)) _).trans (by decide +kernel)) (fun c1 => ?_)
  refine ite_abs (fun c => (polyQ_abs (X := 11) (range (by linarith) (by linarith)) _).trans (by decide +kernel)) (fun c1 => ?_)
  refine ite_abs (fun c => (polyQ_abs (X := 14) (range (by linarith) (by linarith)) _).trans (by decide +kernel)) (fun c1 => ?_)
  refine ite_abs (fun c => (polyQ_abs (X := 14) (range (by linarith) (by linarith)) _).trans (by decide +kernel)) (fun c1 => ?_)
  refine ite_abs (fun c => (polyQ_abs (X := 50) (range (by linarith) (by linarith)) _).trans (by decide +kernel)) (fun c1 => ?_)
  refine ite_abs (fun c => ?_) (fun c1 => (sq _ (range (by linarith) (by linarith))).trans (by norm_num))
  have := sq ((y - 1820) / 100) (range (by linarith) (by linarith))
  rw [abs_le] at this ⊢
  constructor <;> norm_num at * <;> linarith

theorem deltaT_abs {jd : ℚ} (h0 : 1720998 ≤ jd) (h1 : jd ≤ 2820002) : |((deltaT jd : ℚ) : ℝ)| ≤ 0.3125 := by
  have h : |deltaT jd| ≤ 0.3125 := by
    obtain ⟨a, b⟩ := decimalYear_bounds h0 h1
    have := deltaTSeconds_abs a b
    unfold deltaT
    rw [abs_div, abs_of_pos (show (0 : ℚ) < 86400 by norm_num), div_le_iff₀ (by norm_num)]
    exact this.trans (by norm_num)
  have h' : ((|deltaT jd| : ℚ) : ℝ) ≤ ((0.3125 : ℚ) : ℝ) := by exact_mod_cast h
  rw [Rat.cast_abs] at h'
  exact h'.trans (by norm_num)

end Verif.Solar
