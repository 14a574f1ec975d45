import Verif.Lemmas.FastCos
import Verif.Lemmas.EquinoxDay

/-!
# Seasons and longitudes of the sun, computed fast

Rational numbers near the moments of the seasons and near the longitude of the sun at those moments. The cosines are computed
with natural numbers.
-/

namespace Verif.Solar

open Real

/-- The sine of an angle in units of 10^-12 degrees, in units of 10^-9 and 1000000000 more. -/
def sinI (v : ℤ) : ℕ := cosN (((90000000000000 - v) / 1000000) % 360000000).toNat

theorem sinI_near {x : ℝ} {v : ℤ} {e : ℝ} (h : |x - v / 1000000000000| ≤ e) :
    |sinDeg x - ((sinI v : ℝ) / 1000000000 - 1)| ≤ 0.0000012 + 0.0175 * e := by
  set z := (90000000000000 - v) / 1000000 with hz
  have g := div_floor (n := 90000000000000 - v) (d := 1000000) (by norm_num)
  rw [← hz] at g
  push_cast at g
  have r0 := Int.emod_nonneg z (show (360000000 : ℤ) ≠ 0 by norm_num)
  have ez : ((z % 360000000).toNat : ℤ) = z - 360000000 * (z / 360000000) := by
    rw [Int.toNat_of_nonneg r0]
    have := Int.mul_ediv_add_emod z 360000000
    omega
  have ez' : (((z % 360000000).toNat : ℕ) : ℝ) = (z : ℝ) - 360000000 * ((z / 360000000 : ℤ) : ℝ) := by exact_mod_cast ez
  have n := cosN_near (x := 90 - (v : ℝ) / 1000000000000) (z := (z % 360000000).toNat) (z / 360000000) (by
    rw [ez']
    rw [abs_le] at g ⊢
    constructor <;> linarith [g.1, g.2])
  have l := cosDeg_lip (90 - x) (90 - (v : ℝ) / 1000000000000)
  rw [show 90 - x - (90 - (v : ℝ) / 1000000000000) = -(x - v / 1000000000000) by ring, abs_neg] at l
  have l' : |cosDeg (90 - x) - cosDeg (90 - (v : ℝ) / 1000000000000)| ≤ 0.0175 * e := by
    have e0 := (abs_nonneg _).trans h
    calc _ ≤ _ := l
      _ ≤ 0.0174534 * e := mul_le_mul_of_nonneg_left h (by norm_num)
      _ ≤ 0.0175 * e := by linarith
  rw [sinDeg_eq]
  unfold sinI
  rw [← hz]
  rw [abs_le] at *
  constructor <;> linarith [n.1, n.2, l'.1, l'.2]

/-- `seasonTerms` for centuries from 10000 years earlier: the coefficient, the angle in millionths of a degree, and the speed in
thousandths. -/
def natTerms : List (ℕ × ℕ × ℕ) :=
  [(485, 231360000, 1934136), (203, 50530000, 32964467), (199, 123480000, 20186), (182, 276650000, 445267112),
   (156, 344540000, 45036886), (136, 127220000, 22518443), (77, 9140000, 65928934), (74, 286120000, 3034906),
   (70, 92280000, 9037513), (58, 65110000, 33718147), (52, 349370000, 150678), (50, 138420000, 2281226),
   (45, 331340000, 29929562), (44, 129550000, 31555956), (29, 319230000, 4443417), (18, 22320000, 67555328),
   (17, 163590000, 4562452), (16, 355140000, 62894029), (14, 27660000, 31436921), (12, 310590000, 14577848),
   (12, 311510000, 31931756), (12, 194910000, 34777259), (9, 56330000, 1222114), (8, 348050000, 16859074)]

def angleN (x b c : ℕ) : ℕ := Nat.add b (Nat.div (Nat.mul c x) 1000000000)

/-- The sum of the terms. -/
def sumN (x : ℕ) : List (ℕ × ℕ × ℕ) → ℕ
  | [] => 0
  | n :: l => Nat.add (Nat.mul n.1 (cosN (angleN x n.2.1 n.2.2))) (sumN x l)

/-- The term that a row of `natTerms` stands for. -/
def termBack (n : ℕ × ℕ × ℕ) : ℚ × ℚ × ℚ :=
  let b : ℚ := n.2.1 / 1000000 + n.2.2 / 10
  (n.1, b - 360 * ⌊b / 360⌋, n.2.2 / 1000)

theorem natTerms_eq : seasonTerms = natTerms.map termBack := by decide +kernel

theorem angle_near {T : ℝ} {x : ℕ} (hT : |T - (x / 1000000000000 - 100)| ≤ 0.000000000001) {b c : ℕ} (hc : c ≤ 500000000)
    (k : ℤ) : |cosDeg (b / 1000000 + c / 10 - 360 * k + c / 1000 * T) - ((cosN (angleN x b c) : ℝ) / 1000000000 - 1)| ≤ 0.0000012 := by
  apply cosN_near (-k)
  have e : ((angleN x b c : ℕ) : ℝ) = b + ((c * x / 1000000000 : ℕ) : ℝ) := by
    unfold angleN
    change ((b + c * x / 1000000000 : ℕ) : ℝ) = _
    push_cast
    rfl
  have d := div_floor (n := (c * x : ℕ)) (d := 1000000000) (by norm_num)
  have d' : |(c : ℝ) * x / 1000000000 - ((c * x / 1000000000 : ℕ) : ℝ)| ≤ 1 := by
    have q : (((((c * x : ℕ) : ℤ) / 1000000000 : ℤ) : ℤ) : ℝ) = ((c * x / 1000000000 : ℕ) : ℝ) := by norm_cast
    rw [q] at d
    push_cast at d
    exact d
  rw [e]
  have c1 : (c : ℝ) ≤ 500000000 := by exact_mod_cast hc
  have c0 : (0 : ℝ) ≤ c := by positivity
  have m : |(c : ℝ) / 1000 * (T - (x / 1000000000000 - 100))| ≤ 500000 * 0.000000000001 := by
    rw [abs_mul]
    refine mul_le_mul ?_ hT (abs_nonneg _) (by norm_num)
    rw [abs_of_nonneg (by positivity)]
    linarith
  have f : (b : ℝ) / 1000000 + c / 10 - 360 * k + c / 1000 * T - 360 * ((-k : ℤ) : ℝ) - (b + ((c * x / 1000000000 : ℕ) : ℝ)) / 1000000 =
      c / 1000 * (T - (x / 1000000000000 - 100)) + ((c : ℝ) * x / 1000000000 - ((c * x / 1000000000 : ℕ) : ℝ)) / 1000000 := by
    push_cast
    ring
  rw [f, abs_le]
  rw [abs_le] at m d'
  constructor <;> linarith [m.1, m.2, d'.1, d'.2]

theorem termBack_angle (n : ℕ × ℕ × ℕ) (T : ℝ) : (((termBack n).1 : ℚ) : ℝ) = n.1 ∧
    (((termBack n).2.1 : ℚ) : ℝ) + (((termBack n).2.2 : ℚ) : ℝ) * T =
      n.2.1 / 1000000 + n.2.2 / 10 - 360 * ((⌊((n.2.1 : ℚ) / 1000000 + n.2.2 / 10) / 360⌋ : ℤ) : ℝ) + n.2.2 / 1000 * T := by
  unfold termBack
  constructor <;> push_cast <;> ring

theorem term_near {T : ℝ} {x : ℕ} (hT : |T - (x / 1000000000000 - 100)| ≤ 0.000000000001) {n : ℕ × ℕ × ℕ}
    (hc : n.2.2 ≤ 500000000) : |(((termBack n).1 : ℚ) : ℝ) * cosDeg (((termBack n).2.1 : ℚ) + ((termBack n).2.2 : ℚ) * T) -
      n.1 * ((cosN (angleN x n.2.1 n.2.2) : ℝ) / 1000000000 - 1)| ≤ n.1 * 0.0000012 := by
  obtain ⟨e, f⟩ := termBack_angle n T
  rw [e, f, ← mul_sub, abs_mul, abs_of_nonneg (by positivity)]
  exact mul_le_mul_of_nonneg_left (angle_near hT hc _) (by positivity)

theorem sumN_cons (x : ℕ) (n : ℕ × ℕ × ℕ) (l : List (ℕ × ℕ × ℕ)) : ((sumN x (n :: l) : ℕ) : ℝ) =
    n.1 * (cosN (angleN x n.2.1 n.2.2) : ℝ) + (sumN x l : ℝ) := by
  rw [← Nat.cast_mul, ← Nat.cast_add]
  rfl

theorem sumN_key {T : ℝ} {x : ℕ} (hT : |T - (x / 1000000000000 - 100)| ≤ 0.000000000001) (l : List (ℕ × ℕ × ℕ))
    (hl : ∀ n ∈ l, n.2.2 ≤ 500000000) :
    |((l.map termBack).map (fun r => (r.1 : ℝ) * cosDeg (r.2.1 + r.2.2 * T))).sum -
      ((sumN x l : ℝ) / 1000000000 - (((l.map (·.1)).sum : ℕ) : ℝ))| ≤ 0.0000012 * (((l.map (·.1)).sum : ℕ) : ℝ) := by
  induction l with
  | nil => simp [sumN]
  | cons n l ih =>
    have a := ih (fun m hm => hl m (List.mem_cons_of_mem _ hm))
    have b := term_near hT (hl n List.mem_cons_self)
    rw [sumN_cons]
    simp only [List.map_cons, List.sum_cons]
    rw [Nat.cast_add]
    generalize (((termBack n).1 : ℚ) : ℝ) * cosDeg (((termBack n).2.1 : ℚ) + ((termBack n).2.2 : ℚ) * T) = p at *
    generalize ((l.map termBack).map (fun r => (r.1 : ℝ) * cosDeg (r.2.1 + r.2.2 * T))).sum = q at *
    generalize (((l.map (·.1)).sum : ℕ) : ℝ) = r at *
    generalize (sumN x l : ℝ) = u at *
    generalize (cosN (angleN x n.2.1 n.2.2) : ℝ) = v at *
    have e : (n.1 : ℝ) * (v / 1000000000 - 1) = n.1 * v / 1000000000 - n.1 := by ring
    rw [e] at b
    rw [abs_le] at *
    constructor <;> linarith [a.1, a.2, b.1, b.2]

theorem sumN_near {T : ℝ} {x : ℕ} (hT : |T - (x / 1000000000000 - 100)| ≤ 0.000000000001) :
    |seasonS T - ((sumN x natTerms : ℝ) / 1000000000 - 1978)| ≤ 0.0024 := by
  have h1 : ∀ n ∈ natTerms, n.2.2 ≤ 500000000 := by decide +kernel
  have h2 : (natTerms.map (·.1)).sum = 1978 := by decide +kernel
  have h3 : ((1978 : ℕ) : ℝ) = 1978 := by norm_num
  have := sumN_key hT natTerms h1
  rw [h2, ← natTerms_eq, h3] at this
  unfold seasonS
  generalize (sumN x natTerms : ℝ) = u at *
  exact this.trans (by norm_num)

/-- Evaluate the number before it is used. -/
def force : ℕ → (ℕ → Bool) → Bool
  | 0, f => f 0
  | Nat.succ n, f => f (Nat.succ n)

def forceZ : ℤ → (ℤ → Bool) → Bool
  | Int.ofNat n, f => force n (fun n => f (Int.ofNat n))
  | Int.negSucc n, f => force n (fun n => f (Int.negSucc n))

theorem force_eq (n : ℕ) (f : ℕ → Bool) : force n f = f n := by cases n <;> rfl

theorem forceZ_eq (z : ℤ) (f : ℤ → Bool) : forceZ z f = f z := by
  cases z <;> simp only [forceZ, force_eq]

/-- The polynomials of `approxSeason` in units of 10^-17. -/
def quartic (y a0 a1 a2 a3 a4 : ℤ) : ℤ :=
  (((a4 * y + a3 * 1000) * y + a2 * 1000000) * y + a1 * 1000000000) * y + a0 * 1000000000000

/-- `approxSeason` in units of 10^-17. -/
def approxI (g lam : ℤ) : ℤ :=
  if g ≤ 1000 then
    if lam = 0 then quartic g 172113929189 36524213740 6134 111 (-71)
    else if lam = 90 then quartic g 172123325401 36524172562 (-5323) 907 25
    else if lam = 180 then quartic g 172132570455 36524249558 (-11677) (-297) 74
    else quartic g 172141439987 36524288257 (-769) (-933) (-6)
  else
    if lam = 0 then quartic (g - 2000) 245162380984 36524237404 5169 (-411) (-57)
    else if lam = 90 then quartic (g - 2000) 245171656767 36524162603 325 888 (-30)
    else if lam = 180 then quartic (g - 2000) 245181021715 36524201767 (-11575) 337 78
    else quartic (g - 2000) 245190005952 36524274049 (-6223) (-823) 32

theorem approxI_eq (g lam : ℤ) : approxSeason g lam = (approxI g lam : ℚ) / 100000000000000000 := by
  unfold approxSeason approxI spring summer autumn quartic
  split_ifs <;> simp only [Verif.poly] <;> push_cast <;> ring

/-- The quotient of the code, from numbers near its parts. -/
theorem quot_near {S L s l : ℝ} (a : |S - s| ≤ 0.0024) (b : |S| ≤ 2000) (d0 : 0.9666 ≤ L) (e : |L - l| ≤ 0.0000001) :
    |0.00001 * S / L - 0.00001 * s / l| ≤ 0.0000001 := by
  have l0 : (0.96 : ℝ) ≤ l := by rw [abs_le] at e; linarith [e.1, e.2]
  have f : 0.00001 * S / L - 0.00001 * s / l = 0.00001 * ((S - s) / L + s * (l - L) / (L * l)) := by
    have : L ≠ 0 := by linarith
    have : l ≠ 0 := by linarith
    field_simp
    ring
  rw [f, abs_mul, abs_of_pos (show (0 : ℝ) < 0.00001 by norm_num)]
  have h1 : |(S - s) / L| ≤ 0.0024 / 0.9666 := by
    rw [abs_div, abs_of_pos (by linarith : 0 < L)]
    exact div_le_div₀ (by norm_num) a (by norm_num) d0
  have sb : |s| ≤ 2001 := by
    rw [abs_le] at a b ⊢
    constructor <;> linarith [a.1, a.2, b.1, b.2]
  have h2 : |s * (l - L) / (L * l)| ≤ 2001 * 0.0000001 / (0.9666 * 0.96) := by
    have : 0 < L * l := by apply mul_pos <;> linarith
    rw [abs_div, abs_mul, abs_of_pos this]
    refine div_le_div₀ (by norm_num) (mul_le_mul sb (by rw [abs_sub_comm]; exact e) (abs_nonneg _) (by norm_num)) (by norm_num)
      (mul_le_mul d0 l0 (by norm_num) (by linarith))
  have := abs_add_le ((S - s) / L) (s * (l - L) / (L * l))
  norm_num at *
  linarith

theorem dl_near {p q p' q' : ℝ} (c1 : |p| ≤ 1) (c2 : |q| ≤ 1) (w1 : |p - p'| ≤ 0.0000012) (w2 : |q - q'| ≤ 0.0000012) :
    |1 + 0.0334 * p * q - (1 + 0.0334 * p' * q')| ≤ 0.0000001 := by
  have f : 1 + 0.0334 * p * q - (1 + 0.0334 * p' * q') = 0.0334 * ((p - p') * q + p * (q - q') - (p - p') * (q - q')) := by
    ring
  rw [f, abs_mul, abs_of_pos (show (0 : ℝ) < 0.0334 by norm_num)]
  have g1 : |(p - p') * q| ≤ 0.0000012 * 1 := by rw [abs_mul]; exact mul_le_mul w1 c2 (abs_nonneg _) (by norm_num)
  have g2 : |p * (q - q')| ≤ 1 * 0.0000012 := by rw [abs_mul]; exact mul_le_mul c1 w2 (abs_nonneg _) (by norm_num)
  have g3 : |(p - p') * (q - q')| ≤ 0.0000012 * 0.0000012 := by
    rw [abs_mul]; exact mul_le_mul w1 w2 (abs_nonneg _) (by norm_num)
  have g : |(p - p') * q + p * (q - q') - (p - p') * (q - q')| ≤ 0.0000025 := by
    rw [abs_le] at g1 g2 g3 ⊢
    constructor <;> norm_num at * <;> linarith [g1.1, g1.2, g2.1, g2.2, g3.1, g3.2]
  linarith

/-- The moment of the season in units of 10^-12 centuries, from the approximate one, the sum and the two cosines. -/
def momentI (j s p q : ℤ) : ℤ :=
  (j - 245154500000000000000000) / 3652500000 +
    (s - 1978000000000) * 100000000000000000000 / (36525 * (10000000000000000000000 + 334 * ((p - 1000000000) * (q - 1000000000))))

theorem momentI_near {year lam : ℤ} {x : ℕ}
    (hx : |julianCenturies ((approxSeason year lam : ℚ) : ℝ) - (x / 1000000000000 - 100)| ≤ 0.000000000001) :
    |julianCenturies (seasonJde year lam) - (momentI (approxI year lam) (sumN x natTerms) (cosN (angleN x 60230700 35999373))
      (cosN (angleN x 120460000 71998746)) : ℝ) / 1000000000000| ≤ 0.000000000006 := by
  have a := sumN_near hx
  have b := seasonS_abs (julianCenturies ((approxSeason year lam : ℚ) : ℝ))
  obtain ⟨d0, d1⟩ := seasonDl_bounds (julianCenturies ((approxSeason year lam : ℚ) : ℝ))
  have w1 := angle_near hx (b := 60230700) (c := 35999373) (by norm_num) 10000
  have w2 := angle_near hx (b := 120460000) (c := 71998746) (by norm_num) 20000
  unfold seasonJde
  simp only
  have hj : ((approxSeason year lam : ℚ) : ℝ) = (approxI year lam : ℝ) / 100000000000000000 := by
    rw [approxI_eq]; push_cast; rfl
  generalize julianCenturies ((approxSeason year lam : ℚ) : ℝ) = T at *
  have e1 : (((60230700 : ℕ) : ℝ) / 1000000 + ((35999373 : ℕ) : ℝ) / 10 - 360 * ((10000 : ℤ) : ℝ) + ((35999373 : ℕ) : ℝ) / 1000 * T) =
      seasonW T + 0.0007 := by unfold seasonW; push_cast; ring
  have e2 : (((120460000 : ℕ) : ℝ) / 1000000 + ((71998746 : ℕ) : ℝ) / 10 - 360 * ((20000 : ℤ) : ℝ) + ((71998746 : ℕ) : ℝ) / 1000 * T) =
      2 * seasonW T := by unfold seasonW; push_cast; ring
  rw [e1] at w1
  rw [e2] at w2
  have dl := dl_near (abs_cosDeg _) (abs_cosDeg _) w1 w2
  change |seasonDl T - _| ≤ _ at dl
  have q := quot_near a b d0 dl
  generalize cosN (angleN x 60230700 35999373) = p at *
  generalize cosN (angleN x 120460000 71998746) = r at *
  generalize sumN x natTerms = s at *
  generalize approxI year lam = j at *
  rw [hj]
  generalize 0.00001 * seasonS T / seasonDl T = Q at *
  generalize seasonDl T = L at *
  clear hx a b w1 w2 e1 e2
  have f1 := div_floor (n := j - 245154500000000000000000) (d := 3652500000) (by norm_num)
  have D0 : (0 : ℝ) < 10000000000000000000000 + 334 * (((p : ℝ) - 1000000000) * ((r : ℝ) - 1000000000)) := by
    rw [abs_le] at dl
    have : 1 + 0.0334 * ((p : ℝ) / 1000000000 - 1) * ((r : ℝ) / 1000000000 - 1) =
      (10000000000000000000000 + 334 * (((p : ℝ) - 1000000000) * ((r : ℝ) - 1000000000))) / 10000000000000000000000 := by ring
    rw [this] at dl
    linarith [dl.1, dl.2]
  have D0' : (0 : ℤ) < 36525 * (10000000000000000000000 + 334 * (((p : ℤ) - 1000000000) * ((r : ℤ) - 1000000000))) := by
    have : (0 : ℤ) < 10000000000000000000000 + 334 * (((p : ℤ) - 1000000000) * ((r : ℤ) - 1000000000)) := by exact_mod_cast D0
    omega
  have f2 := div_floor (n := ((s : ℤ) - 1978000000000) * 100000000000000000000) D0'
  have e3 : (((((s : ℤ) - 1978000000000) * 100000000000000000000 : ℤ) : ℝ) /
      ((36525 * (10000000000000000000000 + 334 * (((p : ℤ) - 1000000000) * ((r : ℤ) - 1000000000))) : ℤ) : ℝ)) =
      (0.00001 * ((s : ℝ) / 1000000000 - 1978) / (1 + 0.0334 * ((p : ℝ) / 1000000000 - 1) * ((r : ℝ) / 1000000000 - 1))) / 36525 *
        1000000000000 := by
    have : 1 + 0.0334 * ((p : ℝ) / 1000000000 - 1) * ((r : ℝ) / 1000000000 - 1) =
      (10000000000000000000000 + 334 * (((p : ℝ) - 1000000000) * ((r : ℝ) - 1000000000))) / 10000000000000000000000 := by ring
    rw [this]
    push_cast
    generalize 10000000000000000000000 + 334 * (((p : ℝ) - 1000000000) * ((r : ℝ) - 1000000000)) = D at *
    have := D0.ne'
    field_simp
    ring
  rw [e3] at f2
  generalize 0.00001 * ((s : ℝ) / 1000000000 - 1978) / (1 + 0.0334 * ((p : ℝ) / 1000000000 - 1) * ((r : ℝ) / 1000000000 - 1)) = Q' at *
  unfold momentI julianCenturies
  generalize (((s : ℤ) - 1978000000000) * 100000000000000000000) /
    (36525 * (10000000000000000000000 + 334 * (((p : ℤ) - 1000000000) * ((r : ℤ) - 1000000000)))) = B2 at *
  generalize (j - 245154500000000000000000) / 3652500000 = B1 at *
  push_cast at f1 ⊢
  rw [abs_le] at *
  constructor <;> linarith [f1.1, f1.2, f2.1, f2.2, q.1, q.2]

/-- One step of the scheme of Horner, in units of 10^-12. -/
def stepI (c u t : ℤ) : ℤ := c + u * t / 1000000000000

theorem stepI_near {t : ℤ} {T U d e B C : ℝ} {c u : ℤ} (hT : |T| ≤ 20.1) (hd : |T - t / 1000000000000| ≤ d)
    (he : |U - u / 1000000000000| ≤ e) (hU : |U| ≤ B) (hc : (c : ℝ) = C * 1000000000000) (h1 : d ≤ 1) :
    |C + U * T - (stepI c u t : ℝ) / 1000000000000| ≤ 21.1 * e + B * d + 0.000000000001 := by
  have f := div_floor (n := u * t) (d := 1000000000000) (by norm_num)
  unfold stepI
  push_cast at f ⊢
  have g : C + U * T - ((c : ℝ) + ((u * t / 1000000000000 : ℤ) : ℝ)) / 1000000000000 =
      U * (T - t / 1000000000000) + (U - u / 1000000000000) * (t / 1000000000000) +
        ((u : ℝ) * t / 1000000000000 - ((u * t / 1000000000000 : ℤ) : ℝ)) / 1000000000000 := by
    rw [hc]
    ring
  have tb : |(t : ℝ) / 1000000000000| ≤ 21.1 := by
    rw [abs_le] at *
    constructor <;> linarith [hT.1, hT.2, hd.1, hd.2]
  have m1 : |U * (T - t / 1000000000000)| ≤ B * d := by
    rw [abs_mul]; exact mul_le_mul hU hd (abs_nonneg _) ((abs_nonneg _).trans hU)
  have m2 : |(U - u / 1000000000000) * (t / 1000000000000)| ≤ e * 21.1 := by
    rw [abs_mul]; exact mul_le_mul he tb (abs_nonneg _) ((abs_nonneg _).trans he)
  rw [g, abs_le]
  rw [abs_le] at m1 m2 f
  constructor <;> linarith [m1.1, m1.2, m2.1, m2.2, f.1, f.2]

/-- The same where the last coefficient is rounded. -/
theorem cubicI_near {t : ℤ} {T d B C0 C1 C2 C3 : ℝ} {c0 c1 c2 c3 : ℤ} (hT : |T| ≤ 20.1) (hd : |T - t / 1000000000000| ≤ d)
    (h0 : (c0 : ℝ) = C0 * 1000000000000) (h1 : (c1 : ℝ) = C1 * 1000000000000) (h2 : (c2 : ℝ) = C2 * 1000000000000)
    (h3 : |C3 - c3 / 1000000000000| ≤ 0.000000000001) (b3 : |C3| ≤ 0.00001) (b2 : |C2| ≤ 0.01) (b1 : |C1| + 1 ≤ B)
    (hd1 : d ≤ 0.001) :
    |C0 + (C1 + (C2 + C3 * T) * T) * T - (stepI c0 (stepI c1 (stepI c2 c3 t) t) t : ℝ) / 1000000000000| ≤
      (B + 1) * d + 0.00000001 := by
  have d0 := (abs_nonneg _).trans hd
  have s2 := stepI_near hT hd h3 b3 h2 (by linarith)
  have u2 : |C2 + C3 * T| ≤ 0.011 := by
    have : |C3 * T| ≤ 0.00001 * 20.1 := by rw [abs_mul]; exact mul_le_mul b3 hT (abs_nonneg _) (by norm_num)
    refine (abs_add_le _ _).trans ?_
    norm_num at *
    linarith
  have s1 := stepI_near hT hd s2 u2 h1 (by linarith)
  have u1 : |C1 + (C2 + C3 * T) * T| ≤ B := by
    have : |(C2 + C3 * T) * T| ≤ 0.011 * 20.1 := by rw [abs_mul]; exact mul_le_mul u2 hT (abs_nonneg _) (by norm_num)
    refine (abs_add_le _ _).trans ?_
    norm_num at *
    linarith
  have s0 := stepI_near hT hd s1 u1 h0 (by linarith)
  refine s0.trans ?_
  nlinarith

theorem node_sin (t : ℝ) : sinDeg (moonNode t) = sinDeg (poly t [125.04452, -1934.136261, 0.0020708, 1 / 450000]) := by
  unfold moonNode
  obtain ⟨k, e, -, -⟩ := coterminal_spec (poly t [125.04452, -1934.136261, 0.0020708, 1 / 450000])
  rw [e, sinDeg_turn]

/-- The parts of the longitude of the sun, in units of 10^-12 degrees. -/
def anomalyI (t : ℤ) : ℤ := stepI 357527720000000 (stepI 35999050340000000 (stepI (-160300000) (-3333333) t) t) t
def nodeI (t : ℤ) : ℤ := stepI 125044520000000 (stepI (-1934136261000000) (stepI 2070800000 2222222 t) t) t
def meanI (t : ℤ) : ℤ := stepI 280466460000000 (stepI 36000769830000000 303200000 t) t
def centerI (t : ℤ) : ℤ := stepI 1914602000000 (stepI (-4817000000) (-14000000) t) t
def centerI2 (t : ℤ) : ℤ := stepI 19993000000 (-101000000) t

/-- The sum of the terms with a sine, in units of 10^-21 degrees. -/
def sinesI (m o c1 c2 : ℤ) : ℤ :=
  c1 * (sinI m - 1000000000) + c2 * (sinI (2 * m) - 1000000000) + 290000000 * (sinI (3 * m) - 1000000000) -
    4780000000 * (sinI o - 1000000000)

theorem sunI_near {t : ℤ} {T : ℝ} (hT : |T| ≤ 20.1) (hd : |T - t / 1000000000000| ≤ 0.00000000011) :
    |fullLongitude T - ((meanI t : ℝ) / 1000000000000 +
      (sinesI (anomalyI t) (nodeI t) (centerI t) (centerI2 t) : ℝ) / 1000000000000000000000 - 0.00569)| ≤ 0.00002 := by
  have m : |rawAnomaly T - (anomalyI t : ℝ) / 1000000000000| ≤ 0.000004 := by
    have := cubicI_near (C0 := 357.52772) (C1 := 35999.05034) (C2 := -0.0001603) (C3 := -1 / 300000) (B := 36001)
      (c0 := 357527720000000) (c1 := 35999050340000000) (c2 := -160300000) (c3 := -3333333) hT hd
      (by norm_num) (by norm_num) (by norm_num) (by rw [abs_le]; constructor <;> norm_num) (by rw [abs_le]; constructor <;> norm_num)
      (by rw [abs_le]; constructor <;> norm_num) (by norm_num [abs_of_pos]) (by norm_num)
    have e : rawAnomaly T = 357.52772 + (35999.05034 + (-0.0001603 + -1 / 300000 * T) * T) * T := by
      unfold rawAnomaly
      simp only [poly]
      ring
    rw [e]
    exact this.trans (by norm_num)
  have o : |poly T [125.04452, -1934.136261, 0.0020708, 1 / 450000] - (nodeI t : ℝ) / 1000000000000| ≤ 0.000004 := by
    have := cubicI_near (C0 := 125.04452) (C1 := -1934.136261) (C2 := 0.0020708) (C3 := 1 / 450000) (B := 1936)
      (c0 := 125044520000000) (c1 := -1934136261000000) (c2 := 2070800000) (c3 := 2222222) hT hd
      (by norm_num) (by norm_num) (by norm_num) (by rw [abs_le]; constructor <;> norm_num) (by rw [abs_le]; constructor <;> norm_num)
      (by rw [abs_le]; constructor <;> norm_num) (by rw [abs_of_neg (by norm_num)]; norm_num) (by norm_num)
    have e : poly T [125.04452, -1934.136261, 0.0020708, 1 / 450000] =
        125.04452 + (-1934.136261 + (0.0020708 + 1 / 450000 * T) * T) * T := by
      simp only [poly]
      ring
    rw [e]
    exact this.trans (by norm_num)
  have T2 : |(0.0003032 : ℝ)| ≤ 0.001 := by rw [abs_le]; constructor <;> norm_num
  have l : |rawLongitude T - (meanI t : ℝ) / 1000000000000| ≤ 0.000005 := by
    have s1 := stepI_near (C := 36000.76983) (U := 0.0003032) (c := 36000769830000000) (u := 303200000) (e := 0) hT hd (by norm_num)
      T2 (by norm_num) (by norm_num)
    have u1 : |36000.76983 + 0.0003032 * T| ≤ 36002 := by
      rw [abs_le] at *
      constructor <;> norm_num at * <;> linarith [hT.1, hT.2]
    have s0 := stepI_near (C := 280.46646) (c := 280466460000000) hT hd s1 u1 (by norm_num) (by norm_num)
    have e : rawLongitude T = 280.46646 + (36000.76983 + 0.0003032 * T) * T := by unfold rawLongitude; ring
    rw [e]
    exact s0.trans (by norm_num)
  have c1 : |1.914602 - 0.004817 * T - 0.000014 * T ^ 2 - (centerI t : ℝ) / 1000000000000| ≤ 0.00000001 := by
    have s1 := stepI_near (C := -0.004817) (U := -0.000014) (c := -4817000000) (u := -14000000) (e := 0) (B := 0.001) hT hd
      (by norm_num) (by rw [abs_le]; constructor <;> norm_num) (by norm_num) (by norm_num)
    have u1 : |-0.004817 + -0.000014 * T| ≤ 0.01 := by
      rw [abs_le] at *
      constructor <;> norm_num at * <;> linarith [hT.1, hT.2]
    have s0 := stepI_near (C := 1.914602) (c := 1914602000000) hT hd s1 u1 (by norm_num) (by norm_num)
    have e : 1.914602 - 0.004817 * T - 0.000014 * T ^ 2 = 1.914602 + (-0.004817 + -0.000014 * T) * T := by ring
    rw [e]
    exact s0.trans (by norm_num)
  have c2 : |0.019993 - 0.000101 * T - (centerI2 t : ℝ) / 1000000000000| ≤ 0.00000001 := by
    have s1 := stepI_near (C := 0.019993) (U := -0.000101) (c := 19993000000) (u := -101000000) (e := 0) (B := 0.001) hT hd
      (by norm_num) (by rw [abs_le]; constructor <;> norm_num) (by norm_num) (by norm_num)
    have e : 0.019993 - 0.000101 * T = 0.019993 + -0.000101 * T := by ring
    rw [e]
    exact s1.trans (by norm_num)
  have s1 := sinI_near m
  have s4 := sinI_near o
  have s2 : |sinDeg (2 * rawAnomaly T) - ((sinI (2 * anomalyI t) : ℝ) / 1000000000 - 1)| ≤ 0.0000012 + 0.0175 * 0.000008 := by
    apply sinI_near
    push_cast
    rw [abs_le] at m ⊢
    constructor <;> linarith [m.1, m.2]
  have s3 : |sinDeg (3 * rawAnomaly T) - ((sinI (3 * anomalyI t) : ℝ) / 1000000000 - 1)| ≤ 0.0000012 + 0.0175 * 0.000012 := by
    apply sinI_near
    push_cast
    rw [abs_le] at m ⊢
    constructor <;> linarith [m.1, m.2]
  have p1 := mul_near (center_coefficient hT) c1 s1 (abs_sinDeg _) (by norm_num)
  have p2 := mul_near (center_coefficient2 hT) c2 s2 (abs_sinDeg _) (by norm_num)
  unfold fullLongitude sunShift equationOfCenter sinesI
  have n1 := anomaly_sin T 1
  have n2 := anomaly_sin T 2
  have n3 := anomaly_sin T 3
  rw [Int.cast_one, one_mul, one_mul] at n1
  rw [show ((2 : ℤ) : ℝ) = 2 by norm_num] at n2
  rw [show ((3 : ℤ) : ℝ) = 3 by norm_num] at n3
  rw [n1, n2, n3, node_sin]
  generalize sinDeg (rawAnomaly T) = S1 at *
  generalize sinDeg (2 * rawAnomaly T) = S2 at *
  generalize sinDeg (3 * rawAnomaly T) = S3 at *
  generalize sinDeg (poly T [125.04452, -1934.136261, 0.0020708, 1 / 450000]) = S4 at *
  generalize sinI (anomalyI t) = I1 at *
  generalize sinI (2 * anomalyI t) = I2 at *
  generalize sinI (3 * anomalyI t) = I3 at *
  generalize sinI (nodeI t) = I4 at *
  generalize (1.914602 - 0.004817 * T - 0.000014 * T ^ 2) * S1 = P1 at *
  generalize (0.019993 - 0.000101 * T) * S2 = P2 at *
  have e : (((centerI t * ((I1 : ℤ) - 1000000000) + centerI2 t * ((I2 : ℤ) - 1000000000) + 290000000 * ((I3 : ℤ) - 1000000000) -
      4780000000 * ((I4 : ℤ) - 1000000000) : ℤ) : ℝ) / 1000000000000000000000) =
      (centerI t : ℝ) / 1000000000000 * ((I1 : ℝ) / 1000000000 - 1) + (centerI2 t : ℝ) / 1000000000000 * ((I2 : ℝ) / 1000000000 - 1) +
        0.00029 * ((I3 : ℝ) / 1000000000 - 1) - 0.00478 * ((I4 : ℝ) / 1000000000 - 1) := by
    push_cast
    ring
  rw [e]
  generalize (centerI t : ℝ) / 1000000000000 * ((I1 : ℝ) / 1000000000 - 1) = Q1 at *
  generalize (centerI2 t : ℝ) / 1000000000000 * ((I2 : ℝ) / 1000000000 - 1) = Q2 at *
  generalize (I3 : ℝ) / 1000000000 - 1 = J3 at *
  generalize (I4 : ℝ) / 1000000000 - 1 = J4 at *
  generalize rawLongitude T = L at *
  generalize (meanI t : ℝ) / 1000000000000 = M at *
  obtain ⟨x1, x2⟩ := abs_le.mp l
  obtain ⟨x3, x4⟩ := abs_le.mp p1
  obtain ⟨x5, x6⟩ := abs_le.mp p2
  obtain ⟨x7, x8⟩ := abs_le.mp s3
  obtain ⟨x9, x10⟩ := abs_le.mp s4
  rw [abs_le]
  constructor <;> linarith only [x1, x2, x3, x4, x5, x6, x7, x8, x9, x10]

/-- The longitude of the sun is within 0.0101 degrees of `w`, in units of 10^-12 centuries and degrees. -/
def sunOk (t w : ℤ) : Bool :=
  forceZ (anomalyI t) fun m =>
  forceZ (nodeI t) fun o =>
  forceZ (centerI t) fun c1 =>
  forceZ (centerI2 t) fun c2 =>
  forceZ (sinesI m o c1 c2) fun s =>
  forceZ (meanI t) fun l =>
  forceZ ((l - 5690000000 - w) * 1000000000 + s) fun d =>
  Nat.ble d.natAbs 10100000000000000000

/-- The longitude of the sun at the moment of the season is what it should be. -/
def checkSeason (g lam : ℤ) : Bool :=
  forceZ (approxI g lam) fun j =>
  forceZ ((j + 120095500000000000000000) / 3652500000) fun x =>
  force (sumN x.toNat natTerms) fun s =>
  force (cosN (angleN x.toNat 60230700 35999373)) fun p =>
  force (cosN (angleN x.toNat 120460000 71998746)) fun q =>
  forceZ (momentI j s p q) fun t =>
  (Nat.ble 172110000000000000000000 j.toNat && Nat.ble j.toNat 281990000000000000000000) &&
    sunOk t ((360 * (g - 1999) + lam) * 1000000000000)

theorem seasonJde_near (year lam : ℤ) : |seasonJde year lam - (approxSeason year lam : ℚ)| ≤ 0.0207 := by
  unfold seasonJde
  simp only
  generalize julianCenturies ((approxSeason year lam : ℚ) : ℝ) = T
  have b := seasonS_abs T
  obtain ⟨d0, d1⟩ := seasonDl_bounds T
  rw [add_sub_cancel_left, abs_div, abs_mul, abs_of_pos (by linarith : 0 < seasonDl T), abs_of_pos (by norm_num : (0 : ℝ) < 0.00001),
    div_le_iff₀ (by linarith)]
  nlinarith

theorem checkSeason_sound {year lam : ℤ} (h : checkSeason year lam = true) {T : ℝ}
    (hT : |T - julianCenturies (seasonJde year lam)| ≤ 0.000000000102) :
    |fullLongitude T - 360 * (year - 1999) - lam| ≤ 0.01013 ∧ 1721100 ≤ approxSeason year lam ∧ approxSeason year lam ≤ 2819900 := by
  unfold checkSeason sunOk at h
  simp only [force_eq, forceZ_eq, Bool.and_eq_true, Nat.ble_eq] at h
  obtain ⟨⟨j0, j1⟩, hl⟩ := h
  have j0' : 172110000000000000000000 ≤ approxI year lam := by omega
  have j1' : approxI year lam ≤ 281990000000000000000000 := by omega
  have aj := approxI_eq year lam
  have q0 : (172110000000000000000000 : ℚ) ≤ approxI year lam := by exact_mod_cast j0'
  have q1 : (approxI year lam : ℚ) ≤ 281990000000000000000000 := by exact_mod_cast j1'
  have a0 : 1721100 ≤ approxSeason year lam := by rw [aj]; linarith
  have a1 : approxSeason year lam ≤ 2819900 := by rw [aj]; linarith
  refine ⟨?_, a0, a1⟩
  have n := seasonJde_near year lam
  have k0 : (1721100 : ℝ) ≤ (approxSeason year lam : ℚ) := by exact_mod_cast a0
  have k1 : ((approxSeason year lam : ℚ) : ℝ) ≤ 2819900 := by exact_mod_cast a1
  have hj : ((approxSeason year lam : ℚ) : ℝ) = (approxI year lam : ℝ) / 100000000000000000 := by
    rw [aj]; push_cast; rfl
  have hx : |julianCenturies ((approxSeason year lam : ℚ) : ℝ) -
      ((((approxI year lam + 120095500000000000000000) / 3652500000).toNat : ℕ) / 1000000000000 - 100)| ≤ 0.000000000001 := by
    have f := div_floor (n := approxI year lam + 120095500000000000000000) (d := 3652500000) (by norm_num)
    have f0 : 0 ≤ (approxI year lam + 120095500000000000000000) / 3652500000 := Int.ediv_nonneg (by omega) (by norm_num)
    have e : ((((approxI year lam + 120095500000000000000000) / 3652500000).toNat : ℕ) : ℝ) =
        (((approxI year lam + 120095500000000000000000) / 3652500000 : ℤ) : ℝ) := by exact_mod_cast Int.toNat_of_nonneg f0
    rw [e, hj]
    unfold julianCenturies
    push_cast at f
    rw [abs_le] at *
    constructor <;> linarith [f.1, f.2]
  have q := momentI_near hx
  generalize momentI _ _ _ _ = t at *
  have ht' : |T - (t : ℝ) / 1000000000000| ≤ 0.00000000011 := by
    rw [abs_le] at *
    constructor <;> linarith [hT.1, hT.2, q.1, q.2]
  have tb : |T| ≤ 20.1 := by
    unfold julianCenturies at hT
    rw [abs_le] at *
    constructor <;> linarith [hT.1, hT.2, n.1, n.2]
  have l := sunI_near tb ht'
  generalize sinesI _ _ _ _ = s at *
  generalize meanI t = M at *
  have hz : |(M - 5690000000 - (360 * (year - 1999) + lam) * 1000000000000) * 1000000000 + s| ≤ 10100000000000000000 := by
    rw [Int.abs_eq_natAbs]
    exact_mod_cast hl
  have hr : |((M : ℝ) - 5690000000 - (360 * ((year : ℝ) - 1999) + lam) * 1000000000000) * 1000000000 + s| ≤ 10100000000000000000 := by
    exact_mod_cast hz
  rw [abs_le] at *
  constructor <;> linarith [l.1, l.2, hr.1, hr.2]

/-- All four seasons of a year. -/
def checkSeasons (year : ℤ) : Bool :=
  checkSeason year spring && checkSeason year summer && checkSeason year autumn && checkSeason year winter

end Verif.Solar
