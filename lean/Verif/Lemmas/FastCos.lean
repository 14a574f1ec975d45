import Verif.Lemmas.CosTable

/-!
# Cosines in natural numbers

The same values as `cosq`, but computed with the operations on natural numbers that the kernel does natively.
-/

namespace Verif.Solar

/-- `cosNum` and 0.000001 more, so that it is not negative. -/
def natNum (w : ℕ) : ℕ :=
  Nat.sub 36288036288000000000000000000000000000000000000000000000000000000000000000000000000000000000000000000000000000000000000000000000000000000000000000000000000000000000000
    (Nat.mul w (Nat.sub 181440000000000000000000000000000000000000000000000000000000000000000000000000000000000000000000000000000000000000000000000000000000000
      (Nat.mul w (Nat.sub 151200000000000000000000000000000000000000000000000000000000000000000000000000000000000000000000000000
        (Nat.mul w (Nat.sub 50400000000000000000000000000000000000000000000000000000000000000000
          (Nat.mul w (Nat.sub 9000000000000000000000000000000000 w))))))))

/-- `cosCore` and 1000 more. -/
def natCore (s : ℕ) : ℕ :=
  Nat.div (natNum (Nat.mul (Nat.mul s 174532925) (Nat.mul s 174532925))) 36288000000000000000000000000000000000000000000000000000000000000000000000000000000000000000000000000000000000000000000000000000000000000000000000000000000000

/-- `cosq` and 1000000000 more. -/
def cosN (z : ℕ) : ℕ :=
  let r := Nat.mod z 360000000
  let s := bif Nat.ble r 180000000 then r else Nat.sub 360000000 r
  bif Nat.ble s 90000000 then Nat.add 999999000 (natCore s) else Nat.sub 1000001000 (natCore (Nat.sub 180000000 s))

theorem cosNum_pos {s : ℤ} (h0 : 0 ≤ s) (h1 : s ≤ 90000000) : 0 ≤ cosNum s + 3628800 * 10 ^ 154 := by
  have a0 : (0 : ℝ) ≤ s := by exact_mod_cast h0
  have a1 : (s : ℝ) ≤ 90000000 := by exact_mod_cast h1
  set x : ℝ := s * 174532925 / 10 ^ 16 with hx
  have x0 : 0 ≤ x := by rw [hx]; positivity
  have x1 : x ≤ 1.57079633 := by rw [hx]; norm_num; linarith
  have x2 : x ≤ Real.pi / 2 := by
    have := Real.pi_gt_d20
    rw [hx]; norm_num; linarith
  have ty := cos_taylor x0 (x1.trans (by norm_num))
  have c0 : 0 ≤ Real.cos x := Real.cos_nonneg_of_mem_Icc ⟨by linarith [Real.pi_pos], x2⟩
  have e : 1 - x ^ 2 / 2 + x ^ 4 / 24 - x ^ 6 / 720 + x ^ 8 / 40320 - x ^ 10 / 3628800 =
      ((cosNum s : ℤ) : ℝ) / (3628800 * 10 ^ 160) := by
    rw [hx]
    unfold cosNum
    push_cast
    ring
  rw [e, abs_le] at ty
  have l : (-0.000001 : ℝ) ≤ ((cosNum s : ℤ) : ℝ) / (3628800 * 10 ^ 160) := by linarith [ty.1, ty.2]
  rw [le_div_iff₀ (by norm_num)] at l
  have : (0 : ℝ) ≤ ((cosNum s + 3628800 * 10 ^ 154 : ℤ) : ℝ) := by
    push_cast
    norm_num at l ⊢
    linarith
  exact_mod_cast this

theorem sub_cast {a b : ℕ} {A B : ℤ} (ha : (a : ℤ) = A) (hb : (b : ℤ) = B) (h : 0 ≤ A - B) : ((Nat.sub a b : ℕ) : ℤ) = A - B := by
  change ((a - b : ℕ) : ℤ) = _
  omega

theorem mul_cast {a b : ℕ} {A B : ℤ} (ha : (a : ℤ) = A) (hb : (b : ℤ) = B) : ((Nat.mul a b : ℕ) : ℤ) = A * B := by
  change ((a * b : ℕ) : ℤ) = _
  rw [← ha, ← hb, Nat.cast_mul]

theorem natNum_eq {w : ℕ} {s : ℤ} (hw : (w : ℤ) = (s * 174532925) * (s * 174532925)) (h0 : 0 ≤ s) (h1 : s ≤ 90000000) :
    ((natNum w : ℕ) : ℤ) = cosNum s + 3628800 * 10 ^ 154 := by
  have last := cosNum_pos h0 h1
  have w0 : (0 : ℤ) ≤ (s * 174532925) * (s * 174532925) := mul_self_nonneg _
  have h' : (s * 174532925) * (s * 174532925) ≤ 246741000000000000000000000000000 := by nlinarith
  unfold cosNum at last ⊢
  simp only at last ⊢
  generalize hW : (s * 174532925) * (s * 174532925) = W at *
  have b5 : 0 ≤ 90 * 10 ^ 32 - W := by norm_num at *; linarith
  have c5 : 90 * 10 ^ 32 - W ≤ 90 * 10 ^ 32 := by linarith
  have m5 := mul_le_mul h' c5 b5 (by norm_num)
  have n5 := mul_nonneg w0 b5
  have e5 := sub_cast (a := 9000000000000000000000000000000000) (A := 90 * 10 ^ 32) (by norm_num) hw b5
  have f5 := mul_cast hw e5
  generalize 90 * 10 ^ 32 - W = B5 at *
  have b4 : 0 ≤ 5040 * 10 ^ 64 - W * B5 := by norm_num at *; linarith
  have c4 : 5040 * 10 ^ 64 - W * B5 ≤ 5040 * 10 ^ 64 := by linarith
  have m4 := mul_le_mul h' c4 b4 (by norm_num)
  have n4 := mul_nonneg w0 b4
  have e4 := sub_cast (a := 50400000000000000000000000000000000000000000000000000000000000000000) (A := 5040 * 10 ^ 64) (by norm_num) f5 b4
  have f4 := mul_cast hw e4
  generalize 5040 * 10 ^ 64 - W * B5 = B4 at *
  have b3 : 0 ≤ 151200 * 10 ^ 96 - W * B4 := by norm_num at *; linarith
  have c3 : 151200 * 10 ^ 96 - W * B4 ≤ 151200 * 10 ^ 96 := by linarith
  have m3 := mul_le_mul h' c3 b3 (by norm_num)
  have n3 := mul_nonneg w0 b3
  have e3 := sub_cast (a := 151200000000000000000000000000000000000000000000000000000000000000000000000000000000000000000000000000) (A := 151200 * 10 ^ 96) (by norm_num) f4 b3
  have f3 := mul_cast hw e3
  generalize 151200 * 10 ^ 96 - W * B4 = B3 at *
  have b2 : 0 ≤ 1814400 * 10 ^ 128 - W * B3 := by norm_num at *; linarith
  have e2 := sub_cast (a := 181440000000000000000000000000000000000000000000000000000000000000000000000000000000000000000000000000000000000000000000000000000000000) (A := 1814400 * 10 ^ 128) (by norm_num) f3 b2
  have f2 := mul_cast hw e2
  generalize 1814400 * 10 ^ 128 - W * B3 = B2 at *
  have e1 := sub_cast (a := 36288036288000000000000000000000000000000000000000000000000000000000000000000000000000000000000000000000000000000000000000000000000000000000000000000000000000000000000) (A := 3628800 * 10 ^ 160 + 3628800 * 10 ^ 154) (by norm_num) f2
    (by linarith)
  unfold natNum
  rw [e1]
  ring

theorem natCore_eq {s : ℕ} (h : s ≤ 90000000) : ((natCore s : ℕ) : ℤ) = cosCore s + 1000 := by
  have hs := mul_cast (a := s) (b := 174532925) rfl rfl
  have hw := mul_cast hs hs
  have e := natNum_eq (s := s) (by rw [hw]; norm_num) (by omega) (by omega)
  unfold natCore cosCore
  change ((natNum _ / _ : ℕ) : ℤ) = _
  rw [Int.natCast_ediv, e, show (3628800 * 10 ^ 154 : ℤ) = 1000 * (3628800 * 10 ^ 151) by norm_num]
  rw [show ((36288000000000000000000000000000000000000000000000000000000000000000000000000000000000000000000000000000000000000000000000000000000000000000000000000000000000 : ℕ) : ℤ) = 3628800 * 10 ^ 151 by norm_num]
  rw [Int.add_mul_ediv_right _ _ (by norm_num)]

theorem natCore_le (s : ℕ) : natCore s ≤ 1000001000 := by
  unfold natCore natNum
  exact (Nat.div_le_div_right (Nat.sub_le _ _)).trans (by norm_num)

theorem cosN_eq (z : ℕ) : ((cosN z : ℕ) : ℤ) = cosq z + 1000000000 := by
  unfold cosN cosq
  simp only [cond_eq_ite, Nat.ble_eq]
  have er : ((Nat.mod z 360000000 : ℕ) : ℤ) = (z : ℤ) % 360000000 := by
    change ((z % 360000000 : ℕ) : ℤ) = _
    omega
  have r1 : Nat.mod z 360000000 < 360000000 := Nat.mod_lt _ (by norm_num)
  rw [← er]
  generalize Nat.mod z 360000000 = r at *
  have es : (((if r ≤ 180000000 then r else Nat.sub 360000000 r : ℕ) : ℕ) : ℤ) =
      if 180000000 < (r : ℤ) then 360000000 - (r : ℤ) else r := by
    split_ifs with h h' h'
    · omega
    · rfl
    · change ((360000000 - r : ℕ) : ℤ) = _
      omega
    · omega
  have s1 : (if r ≤ 180000000 then r else Nat.sub 360000000 r : ℕ) ≤ 180000000 := by
    split_ifs with h
    · exact h
    · change 360000000 - r ≤ _
      omega
  rw [← es]
  generalize (if r ≤ 180000000 then r else Nat.sub 360000000 r : ℕ) = s at *
  by_cases h : s ≤ 90000000
  · rw [if_pos h, if_neg (by omega)]
    have := natCore_eq h
    change ((999999000 + natCore s : ℕ) : ℤ) = _
    push_cast
    rw [this]
    ring
  · rw [if_neg h, if_pos (by omega)]
    have c : ((Nat.sub 180000000 s : ℕ) : ℤ) = 180000000 - s := by
      change ((180000000 - s : ℕ) : ℤ) = _
      omega
    have := natCore_eq (s := Nat.sub 180000000 s) (by change 180000000 - s ≤ _; omega)
    rw [c] at this
    have b := natCore_le (Nat.sub 180000000 s)
    change ((1000001000 - natCore (Nat.sub 180000000 s) : ℕ) : ℤ) = _
    omega

theorem cosN_le (z : ℕ) : cosN z ≤ 2000001000 := by
  unfold cosN
  simp only [cond_eq_ite, Nat.ble_eq]
  split_ifs
  · exact (Nat.add_le_add_left (natCore_le _) _).trans (by norm_num)
  · exact (Nat.sub_le _ _).trans (by norm_num)
  · exact (Nat.add_le_add_left (natCore_le _) _).trans (by norm_num)
  · exact (Nat.sub_le _ _).trans (by norm_num)

theorem cosN_spec (z : ℕ) : |cosDeg (z / 1000000) - ((cosN z : ℝ) / 1000000000 - 1)| ≤ 0.000001 := by
  have a := cosq_spec (z : ℤ)
  have e : ((cosq (z : ℤ) : ℤ) : ℝ) = (cosN z : ℝ) - 1000000000 := by
    have := cosN_eq z
    have : ((cosN z : ℕ) : ℝ) = ((cosq (z : ℤ) : ℤ) : ℝ) + 1000000000 := by exact_mod_cast this
    linarith
  rw [e] at a
  push_cast at a
  convert a using 3
  ring

/-- For an angle known up to whole turns. -/
theorem cosN_near {x : ℝ} {z : ℕ} (k : ℤ) (h : |x - 360 * k - z / 1000000| ≤ 0.00001) :
    |cosDeg x - ((cosN z : ℝ) / 1000000000 - 1)| ≤ 0.0000012 := by
  rw [← cosDeg_turn x k]
  have a := cosN_spec z
  have l := cosDeg_lip (x - 360 * k) ((z : ℝ) / 1000000)
  have c : |cosDeg (x - 360 * k) - cosDeg ((z : ℝ) / 1000000)| ≤ 0.0000002 :=
    l.trans ((mul_le_mul_of_nonneg_left h (by norm_num)).trans (by norm_num))
  rw [abs_le] at *
  constructor <;> linarith [a.1, a.2, c.1, c.2]

end Verif.Solar
