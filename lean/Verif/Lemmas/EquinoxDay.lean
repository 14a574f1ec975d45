import Verif.Lemmas.EquinoxCert

/-!
# The sunset near the equinox, bracketed by rational numbers
-/

namespace Verif.Solar

open Real

/-- The sine of an angle in degrees, to within 0.0000012. -/
def sinAt (x : ℚ) : ℚ := cosAt (90 - x)

/-- The longitude of the sun without the reduction to one turn, and without the two smallest terms. -/
def lonNear (T : ℚ) : ℚ :=
  let m := 357.52772 + T * (35999.05034 + T * (-0.0001603 + T * (-1 / 300000)))
  280.46646 + T * (36000.76983 + T * 0.0003032) + (1.914602 - 0.004817 * T - 0.000014 * T ^ 2) * sinAt m +
    (0.019993 - 0.000101 * T) * sinAt (2 * m) - 0.00569

theorem sinAt_near {x : ℝ} {y : ℚ} (h : |x - y| ≤ 0.00001) : |sinDeg x - (sinAt y : ℝ)| ≤ 0.0000012 := by
  rw [sinDeg_eq]
  apply cosAt_near
  push_cast
  rw [show 90 - x - (90 - (y : ℝ)) = -(x - y) by ring, abs_neg]
  exact h

theorem mul_near {a b s u A e f : ℝ} (ha : |a| ≤ A) (hab : |a - b| ≤ e) (hs : |s - u| ≤ f) (hs1 : |s| ≤ 1) (hf : f ≤ 1) :
    |a * s - b * u| ≤ A * f + 2 * e := by
  have e1 : a * s - b * u = a * (s - u) + (a - b) * u := by ring
  have u1 : |u| ≤ 2 := by
    rw [abs_le] at *
    constructor <;> linarith [hs.1, hs.2, hs1.1, hs1.2]
  have A0 := (abs_nonneg _).trans ha
  have e0 := (abs_nonneg _).trans hab
  rw [e1]
  refine (abs_add_le _ _).trans ?_
  rw [abs_mul, abs_mul]
  have m1 := mul_le_mul ha hs (abs_nonneg _) A0
  have m2 := mul_le_mul hab u1 (abs_nonneg _) e0
  linarith

theorem lonNear_spec {t : ℝ} {T : ℚ} (ht : |t| ≤ 20.1) (h : |t - T| ≤ 0.00000000003) :
    |fullLongitude t - (lonNear T : ℝ)| ≤ 0.0051 := by
  set e := t - (T : ℝ) with he
  have hT : (T : ℝ) = t - e := by rw [he]; ring
  have ht2 : t ^ 2 ≤ 20.1 ^ 2 := by
    rw [← sq_abs]
    exact pow_le_pow_left₀ (abs_nonneg _) ht 2
  have sq0 := sq_nonneg t
  have te : |t * e| ≤ 20.1 * 0.00000000003 := by rw [abs_mul]; exact mul_le_mul ht h (abs_nonneg _) (by norm_num)
  have ee : |e * e| ≤ 0.00000000003 * 0.00000000003 := by rw [abs_mul]; exact mul_le_mul h h (abs_nonneg _) (by norm_num)
  -- the mean anomaly
  have m : |rawAnomaly t - ((357.52772 + T * (35999.05034 + T * (-0.0001603 + T * (-1 / 300000))) : ℚ) : ℝ)| ≤ 0.000002 := by
    unfold rawAnomaly
    simp only [poly]
    push_cast
    rw [hT]
    have f : 357.52772 + t * (35999.05034 + t * (-0.0001603 + t * (-1 / 300000 + t * 0))) -
        (357.52772 + (t - e) * (35999.05034 + (t - e) * (-0.0001603 + (t - e) * (-1 / 300000)))) =
        e * (35999.05034 + (-0.0001603 * (2 * t - e) + (-1 / 300000) * (3 * t ^ 2 - 3 * (t * e) + e * e))) := by ring
    rw [f, abs_mul]
    have g : |35999.05034 + (-0.0001603 * (2 * t - e) + (-1 / 300000) * (3 * t ^ 2 - 3 * (t * e) + e * e))| ≤ 36001 := by
      rw [abs_le] at *
      constructor <;> norm_num at * <;> linarith
    exact (mul_le_mul h g (abs_nonneg _) (by norm_num)).trans (by norm_num)
  have l : |rawLongitude t - ((280.46646 + T * (36000.76983 + T * 0.0003032) : ℚ) : ℝ)| ≤ 0.000002 := by
    unfold rawLongitude
    push_cast
    rw [hT]
    have f : 280.46646 + t * (36000.76983 + t * 0.0003032) - (280.46646 + (t - e) * (36000.76983 + (t - e) * 0.0003032)) =
        e * (36000.76983 + 0.0003032 * (2 * t - e)) := by ring
    rw [f, abs_mul]
    have g : |36000.76983 + 0.0003032 * (2 * t - e)| ≤ 36001 := by
      rw [abs_le] at *
      constructor <;> norm_num at * <;> linarith
    exact (mul_le_mul h g (abs_nonneg _) (by norm_num)).trans (by norm_num)
  unfold fullLongitude sunShift equationOfCenter lonNear
  simp only
  have n1 := anomaly_sin t 1
  have n2 := anomaly_sin t 2
  rw [Int.cast_one, one_mul, one_mul] at n1
  rw [show ((2 : ℤ) : ℝ) = 2 by norm_num] at n2
  rw [n1, n2]
  have s1 := sinAt_near (m.trans (by norm_num))
  set mq := 357.52772 + T * (35999.05034 + T * (-0.0001603 + T * (-1 / 300000))) with hmq
  have s2 : |sinDeg (2 * rawAnomaly t) - (sinAt (2 * mq) : ℝ)| ≤ 0.0000012 := by
    apply sinAt_near
    rw [show ((2 * mq : ℚ) : ℝ) = 2 * (mq : ℝ) by push_cast; ring, ← mul_sub, abs_mul, abs_of_pos (by norm_num : (0 : ℝ) < 2)]
    linarith
  have c1 : |1.914602 - 0.004817 * t - 0.000014 * t ^ 2 - (1.914602 - 0.004817 * (T : ℝ) - 0.000014 * (T : ℝ) ^ 2)| ≤ 0.00000001 := by
    rw [hT]
    have f : 1.914602 - 0.004817 * t - 0.000014 * t ^ 2 - (1.914602 - 0.004817 * (t - e) - 0.000014 * (t - e) ^ 2) =
        -0.004817 * e - 0.000028 * (t * e) + 0.000014 * (e * e) := by ring
    rw [f]
    rw [abs_le] at *
    constructor <;> norm_num at * <;> linarith
  have c2 : |0.019993 - 0.000101 * t - (0.019993 - 0.000101 * (T : ℝ))| ≤ 0.00000001 := by
    rw [hT]
    rw [abs_le] at *
    constructor <;> norm_num at * <;> linarith
  have p1 := mul_near (center_coefficient ht) c1 s1 (abs_sinDeg _) (by norm_num)
  have p2 := mul_near (center_coefficient2 ht) c2 s2 (abs_sinDeg _) (by norm_num)
  have a3 := abs_sinDeg (3 * sunMeanAnomaly t)
  have a4 := abs_sinDeg (moonNode t)
  push_cast at l ⊢
  set P1 := (1.914602 - 0.004817 * t - 0.000014 * t ^ 2) * sinDeg (rawAnomaly t)
  set P2 := (0.019993 - 0.000101 * t) * sinDeg (2 * rawAnomaly t)
  set Q1 := (1.914602 - 0.004817 * (T : ℝ) - 0.000014 * (T : ℝ) ^ 2) * (sinAt mq : ℝ)
  set Q2 := (0.019993 - 0.000101 * (T : ℝ)) * (sinAt (2 * mq) : ℝ)
  set L := rawLongitude t
  set M := 280.46646 + (T : ℝ) * (36000.76983 + (T : ℝ) * 0.0003032)
  clear_value P1 P2 Q1 Q2 L M
  obtain ⟨x1, x2⟩ := abs_le.mp l
  obtain ⟨x3, x4⟩ := abs_le.mp p1
  obtain ⟨x5, x6⟩ := abs_le.mp p2
  obtain ⟨x7, x8⟩ := abs_le.mp a3
  obtain ⟨x9, x10⟩ := abs_le.mp a4
  rw [abs_le]
  constructor <;> linarith only [x1, x2, x3, x4, x5, x6, x7, x8, x9, x10]

/-- Days from the epoch of the sun's motion to the midnight at Tehran that begins the day `D`. -/
def dayPart (D : ℤ) : ℚ := D - 1 / 2 - 51.288701 / 360 - 2451545

/-- The longitude of the sun at that midnight, less `k` turns. -/
def lonDay (D k : ℤ) : ℚ := lonNear (dayPart D / 36525) - 360 * k

/-- How far the hour angle of the sun is past that of the sunset, at the part `n` of the day `D`. -/
def side (D k : ℤ) (x y z n : ℚ) : ℚ :=
  360.98564736629 * n + (100.46061837 + 0.98564736629 * dayPart D + 0.000387933 * (dayPart D / 36525) ^ 2) - 91.02605 -
    1.203252 * lagrange x y z n - 360 * k

theorem castAbs {q b : ℚ} {B : ℝ} (h : |q| ≤ b) (hb : (b : ℝ) = B) : |(q : ℝ)| ≤ B := by
  rw [← hb, ← Rat.cast_abs]
  exact Rat.cast_le.mpr h

theorem castLe {q b : ℚ} {B : ℝ} (h : q ≤ b) (hb : (b : ℝ) = B) : (q : ℝ) ≤ B := by
  rw [← hb]
  exact Rat.cast_le.mpr h

theorem castGe {q b : ℚ} {B : ℝ} (h : b ≤ q) (hb : (b : ℝ) = B) : B ≤ (q : ℝ) := by
  rw [← hb]
  exact Rat.cast_le.mpr h

theorem side_mono {x y z : ℚ} (hx : |x| ≤ 2.9) (hy : |y| ≤ 2.9) (hz : |z| ≤ 2.9) {m n : ℝ}
    (m0 : -1.5 ≤ m) (m1 : m ≤ 2.5) (n0 : -1.5 ≤ n) (n1 : n ≤ 2.5) (h : m ≤ n) :
    300 * (n - m) ≤ (360.98564736629 * n - 1.203252 * lagrange (x : ℝ) y z n) -
      (360.98564736629 * m - 1.203252 * lagrange (x : ℝ) y z m) ∧
    (360.98564736629 * n - 1.203252 * lagrange (x : ℝ) y z n) -
      (360.98564736629 * m - 1.203252 * lagrange (x : ℝ) y z m) ≤ 420 * (n - m) := by
  have e : (360.98564736629 * n - 1.203252 * lagrange (x : ℝ) y z n) -
      (360.98564736629 * m - 1.203252 * lagrange (x : ℝ) y z m) =
      (n - m) * (360.98564736629 - 1.203252 * (((z : ℝ) - x) / 2 + (n + m) / 2 * (z - 2 * y + x))) := by
    unfold lagrange
    ring
  have hx' : |(x : ℝ)| ≤ 2.9 := castAbs hx (by norm_num)
  have hy' : |(y : ℝ)| ≤ 2.9 := castAbs hy (by norm_num)
  have hz' : |(z : ℝ)| ≤ 2.9 := castAbs hz (by norm_num)
  rw [abs_le] at hx' hy' hz'
  have a2 : |(n + m) / 2 * ((z : ℝ) - 2 * y + x)| ≤ 2.5 * 11.6 := by
    rw [abs_mul]
    refine mul_le_mul ?_ ?_ (abs_nonneg _) (by norm_num)
    · rw [abs_le]; constructor <;> linarith
    · rw [abs_le]
      constructor <;> linarith [hx'.1, hx'.2, hy'.1, hy'.2, hz'.1, hz'.2]
  rw [abs_le] at a2
  rw [e]
  have nm : 0 ≤ n - m := by linarith
  set q := (n + m) / 2 * ((z : ℝ) - 2 * y + x)
  constructor
  · rw [mul_comm]
    exact mul_le_mul_of_nonneg_left (by norm_num at *; linarith [hx'.1, hx'.2, hz'.1, hz'.2, a2.1, a2.2]) nm
  · rw [mul_comm 420]
    exact mul_le_mul_of_nonneg_left (by norm_num at *; linarith [hx'.1, hx'.2, hz'.1, hz'.2, a2.1, a2.2]) nm

theorem side_near {x y z : ℚ} (hx : |x| ≤ 2.9) (hy : |y| ≤ 2.9) (hz : |z| ≤ 2.9) {t : ℝ} (t0 : 0.67 ≤ t) (t1 : t ≤ 0.84) :
    |(360.98564736629 * t - 1.203252 * lagrange (x : ℝ) y z t) -
      (360.98564736629 * 0.755 - 1.203252 * lagrange (x : ℝ) y z 0.755)| ≤ 40 := by
  rcases le_total t 0.755 with hh | hh
  · obtain ⟨u, v⟩ := side_mono hx hy hz (m := t) (n := 0.755) (by linarith) (by linarith) (by norm_num) (by norm_num) hh
    rw [abs_le]
    constructor <;> linarith
  · obtain ⟨u, v⟩ := side_mono hx hy hz (m := 0.755) (n := t) (by norm_num) (by norm_num) (by linarith) (by linarith) hh
    rw [abs_le]
    constructor <;> linarith

theorem square_near {jd : ℚ} {lon : ℝ} {D : ℤ} (h : AtMidnight jd lon D) (hlon : |lon - 51.288701| ≤ 0.000001) :
    |0.000387933 * ((D - 1 / 2 - lon / 360 - 2451545 : ℝ) / 36525) ^ 2 -
      0.000387933 * ((dayPart D : ℝ) / 36525) ^ 2| ≤ 0.00001 := by
  have hd : ((dayPart D : ℚ) : ℝ) = D - 1 / 2 - 51.288701 / 360 - 2451545 := by unfold dayPart; push_cast; ring
  obtain ⟨D0, D1, -, -⟩ := h
  have D0' : (1721000 : ℝ) ≤ D := by exact_mod_cast D0
  have D1' : (D : ℝ) ≤ 2820000 := by exact_mod_cast D1
  have f : 0.000387933 * ((D - 1 / 2 - lon / 360 - 2451545 : ℝ) / 36525) ^ 2 -
    0.000387933 * ((dayPart D : ℝ) / 36525) ^ 2 =
    -(0.000387933 / 36525 * ((lon - 51.288701) / 360)) * ((2 * dayPart D - (lon - 51.288701) / 360) / 36525) := by
    rw [hd]
    ring
  rw [f, abs_mul, abs_neg]
  obtain ⟨l0, l1⟩ := abs_le.mp hlon
  have f1 : |0.000387933 / 36525 * ((lon - 51.288701) / 360)| ≤ 0.0000001 := by
    rw [abs_le]
    constructor <;> norm_num at * <;> linarith
  have f2 : |(2 * (dayPart D : ℝ) - (lon - 51.288701) / 360) / 36525| ≤ 100 := by
    rw [hd, abs_le]
    constructor <;> norm_num at * <;> linarith
  exact (mul_le_mul f1 f2 (abs_nonneg _) (by norm_num)).trans (by norm_num)

/-- The equation of the sunset in rational numbers. -/
theorem sunset_side {jd : ℚ} {lat lon : ℝ} {D : ℤ} (h : AtMidnight jd lon D) (hl : |lat| ≤ 36) (hlt : LatTrig lat)
    (hlon : |lon - 51.288701| ≤ 0.000001) {k : ℤ}
    (bx : |lonDay (D - 1) k| ≤ 2.89) (bY : |lonDay D k| ≤ 2.89) (bz : |lonDay (D + 1) k| ≤ 2.89)
    (hm : |side D k (lonDay (D - 1) k) (lonDay D k) (lonDay (D + 1) k) 0.755| ≤ 60) :
    ∃ t : ℝ, |risingSetting jd lat lon sunOffset true - t| ≤ 1 / 36000 ∧ 0.67 ≤ t ∧ t ≤ 0.84 ∧
      |360.98564736629 * t + (100.46061837 + 0.98564736629 * (dayPart D : ℝ) + 0.000387933 * ((dayPart D : ℝ) / 36525) ^ 2) -
        91.02605 - 1.203252 * lagrange (lonDay (D - 1) k : ℝ) (lonDay D k) (lonDay (D + 1) k) t - 360 * k| ≤ 0.0419 := by
  obtain ⟨tc, -⟩ := midnight_tc h
  have hj := h.2.2.2
  have hd : ((dayPart D : ℚ) : ℝ) = D - 1 / 2 - 51.288701 / 360 - 2451545 := by unfold dayPart; push_cast; ring
  have near : ∀ i : ℤ, |i| ≤ 1 → |fullLongitude (julianCenturies jd + i / 36525) - (360 * k + (lonDay (D + i) k : ℝ))| ≤ 0.0051 := by
    intro i hi
    have hi' : |(i : ℝ)| ≤ 1 := by exact_mod_cast hi
    have q := lonNear_spec (t := julianCenturies jd + i / 36525) (T := dayPart (D + i) / 36525) (by
      rw [abs_le] at *
      constructor <;> norm_num at * <;> linarith [tc.1, tc.2]) (by
      have e : julianCenturies jd + i / 36525 - ((dayPart (D + i) / 36525 : ℚ) : ℝ) =
          (((jd : ℝ) - (D - 1 / 2 - lon / 360)) - (lon - 51.288701) / 360) / 36525 := by
        unfold julianCenturies dayPart
        push_cast
        ring
      rw [e, abs_div, abs_of_pos (by norm_num : (0 : ℝ) < 36525), div_le_iff₀ (by norm_num)]
      rw [abs_le] at hj hlon ⊢
      constructor <;> norm_num at * <;> linarith [hj.1, hj.2, hlon.1, hlon.2])
    unfold lonDay
    push_cast
    rw [show 360 * (k : ℝ) + ((lonNear (dayPart (D + i) / 36525) : ℝ) - 360 * k) = (lonNear (dayPart (D + i) / 36525) : ℝ) by ring]
    exact q
  have nx := near (-1) (by norm_num)
  have ny := near 0 (by norm_num)
  have nz := near 1 (by norm_num)
  rw [show D + -1 = D - 1 by ring, show julianCenturies jd + ((-1 : ℤ) : ℝ) / 36525 = julianCenturies jd - 1 / 36525 by push_cast; ring] at nx
  rw [add_zero, show julianCenturies jd + ((0 : ℤ) : ℝ) / 36525 = julianCenturies jd by push_cast; ring] at ny
  rw [show ((1 : ℤ) : ℝ) = 1 by norm_num] at nz
  have bx' : |((lonDay (D - 1) k : ℚ) : ℝ)| ≤ 2.89 := castAbs bx (by norm_num)
  have bY' : |((lonDay D k : ℚ) : ℝ)| ≤ 2.89 := castAbs bY (by norm_num)
  have bz' : |((lonDay (D + 1) k : ℚ) : ℝ)| ≤ 2.89 := castAbs bz (by norm_num)
  obtain ⟨x, hx⟩ : ∃ x, x = fullLongitude (julianCenturies jd - 1 / 36525) - 360 * k := ⟨_, rfl⟩
  obtain ⟨y, hy⟩ : ∃ y, y = fullLongitude (julianCenturies jd) - 360 * k := ⟨_, rfl⟩
  obtain ⟨z, hz⟩ : ∃ z, z = fullLongitude (julianCenturies jd + 1 / 36525) - 360 * k := ⟨_, rfl⟩
  have ex : |x - 1 * (lonDay (D - 1) k : ℝ)| ≤ 0.0051 := by rw [hx]; convert nx using 2; ring
  have ey : |y - 1 * (lonDay D k : ℝ)| ≤ 0.0051 := by rw [hy]; convert ny using 2; ring
  have ez : |z - 1 * (lonDay (D + 1) k : ℝ)| ≤ 0.0051 := by rw [hz]; convert nz using 2; ring
  have ax : |x| ≤ 2.9 := by rw [abs_le] at *; constructor <;> linarith [ex.1, ex.2, bx'.1, bx'.2]
  have ay : |y| ≤ 2.9 := by rw [abs_le] at *; constructor <;> linarith [ey.1, ey.2, bY'.1, bY'.2]
  have az : |z| ≤ 2.9 := by rw [abs_le] at *; constructor <;> linarith [ez.1, ez.2, bz'.1, bz'.2]
  obtain ⟨t, j, r, t0, t1, eq⟩ := sunset_line h hl hlt (k := k) (x := x) (y := y) (z := z) (by linarith) (by linarith)
    (by linarith) ax ay az
  obtain ⟨i, sd⟩ := sidereal_form h
  have le := lagrange_err (n := t) ex ey ez (by linarith) (by linarith)
  have sq := square_near h hlon
  -- the number of turns
  set F := fun n : ℝ => 360.98564736629 * n - 1.203252 * lagrange (lonDay (D - 1) k : ℝ) (lonDay D k) (lonDay (D + 1) k) n with hF
  have hm' : |F 0.755 + (100.46061837 + 0.98564736629 * (dayPart D : ℝ) + 0.000387933 * ((dayPart D : ℝ) / 36525) ^ 2) - 91.02605 -
      360 * k| ≤ 60 := by
    have : ((|side D k (lonDay (D - 1) k) (lonDay D k) (lonDay (D + 1) k) 0.755| : ℚ) : ℝ) ≤ 60 := by exact_mod_cast hm
    rw [Rat.cast_abs] at this
    have e : F 0.755 + (100.46061837 + 0.98564736629 * (dayPart D : ℝ) + 0.000387933 * ((dayPart D : ℝ) / 36525) ^ 2) - 91.02605 -
        360 * k = ((side D k (lonDay (D - 1) k) (lonDay D k) (lonDay (D + 1) k) 0.755 : ℚ) : ℝ) := by
      have ft : F 0.755 = 360.98564736629 * 0.755 -
        1.203252 * lagrange (lonDay (D - 1) k : ℝ) (lonDay D k) (lonDay (D + 1) k) 0.755 := rfl
      rw [ft]
      unfold side lagrange
      push_cast
      ring
    rw [e]
    exact this
  have fm : |F t - F 0.755| ≤ 40 := side_near (bx.trans (by norm_num)) (bY.trans (by norm_num)) (bz.trans (by norm_num)) t0 t1
  have tot : |F t + (100.46061837 + 0.98564736629 * (dayPart D : ℝ) + 0.000387933 * ((dayPart D : ℝ) / 36525) ^ 2) - 91.02605 -
      360 * ((j - i : ℤ) : ℝ)| ≤ 0.0419 := by
    push_cast
    have ft : F t = 360.98564736629 * t - 1.203252 * lagrange (lonDay (D - 1) k : ℝ) (lonDay D k) (lonDay (D + 1) k) t := rfl
    rw [ft]
    rw [one_mul] at le
    have hdl : (D : ℝ) - 1 / 2 - lon / 360 - 2451545 = dayPart D - (lon - 51.288701) / 360 := by rw [hd]; ring
    set A := 0.000387933 * (((D : ℝ) - 1 / 2 - lon / 360 - 2451545) / 36525) ^ 2
    set B := 0.000387933 * ((dayPart D : ℝ) / 36525) ^ 2
    rw [hdl] at sd
    set L1 := lagrange x y z t
    set L2 := lagrange (lonDay (D - 1) k : ℝ) (lonDay D k) (lonDay (D + 1) k) t
    set S := apparentSiderealTime (julianCenturies jd)
    set P := (dayPart D : ℝ)
    clear_value A B L1 L2 S P
    obtain ⟨x1, x2⟩ := abs_le.mp le
    obtain ⟨x3, x4⟩ := abs_le.mp sd
    obtain ⟨x5, x6⟩ := abs_le.mp eq
    obtain ⟨x7, x8⟩ := abs_le.mp sq
    obtain ⟨x9, x10⟩ := abs_le.mp hlon
    rw [abs_le]
    constructor <;> linarith only [x1, x2, x3, x4, x5, x6, x7, x8, x9, x10]
  have jk : j - i = k := by
    rw [abs_le] at hm' fm tot
    have u : (-1 : ℝ) < ((j - i : ℤ) : ℝ) - k := by linarith [hm'.1, hm'.2, fm.1, fm.2, tot.1, tot.2]
    have v : ((j - i : ℤ) : ℝ) - k < 1 := by linarith [hm'.1, hm'.2, fm.1, fm.2, tot.1, tot.2]
    have u' : -1 < (j - i) - k := by exact_mod_cast u
    have v' : (j - i) - k < 1 := by exact_mod_cast v
    omega
  rw [jk] at tot
  refine ⟨t, r, t0, t1, ?_⟩
  have ft : F t = 360.98564736629 * t - 1.203252 * lagrange (lonDay (D - 1) k : ℝ) (lonDay D k) (lonDay (D + 1) k) t := rfl
  rw [ft] at tot
  convert tot using 2
  ring

/-- The sunset is not after the part `n` of the day. -/
theorem sunset_before {jd : ℚ} {lat lon : ℝ} {D : ℤ} (h : AtMidnight jd lon D) (hl : |lat| ≤ 36) (hlt : LatTrig lat)
    (hlon : |lon - 51.288701| ≤ 0.000001) {k : ℤ}
    (bx : |lonDay (D - 1) k| ≤ 2.89) (bY : |lonDay D k| ≤ 2.89) (bz : |lonDay (D + 1) k| ≤ 2.89)
    (hm : |side D k (lonDay (D - 1) k) (lonDay D k) (lonDay (D + 1) k) 0.755| ≤ 60) {n : ℚ} (n0 : -1.5 ≤ n) (n1 : n ≤ 2.5)
    (hn : 0.042 ≤ side D k (lonDay (D - 1) k) (lonDay D k) (lonDay (D + 1) k) n) :
    risingSetting jd lat lon sunOffset true ≤ n + 1 / 36000 := by
  obtain ⟨t, r, t0, t1, e⟩ := sunset_side h hl hlt hlon bx bY bz hm
  have hn' : (0.042 : ℝ) ≤ ((side D k (lonDay (D - 1) k) (lonDay D k) (lonDay (D + 1) k) n : ℚ) : ℝ) := castGe hn (by norm_num)
  have n0' : (-1.5 : ℝ) ≤ n := castGe n0 (by norm_num)
  have n1' : (n : ℝ) ≤ 2.5 := castLe n1 (by norm_num)
  by_contra hc
  have tn : (n : ℝ) ≤ t := by rw [abs_le] at r; linarith [r.1, r.2]
  obtain ⟨u, v⟩ := side_mono (bx.trans (by norm_num)) (bY.trans (by norm_num)) (bz.trans (by norm_num)) n0' n1'
    (by linarith) (by linarith) tn
  have c : ((side D k (lonDay (D - 1) k) (lonDay D k) (lonDay (D + 1) k) n : ℚ) : ℝ) =
      360.98564736629 * n + (100.46061837 + 0.98564736629 * (dayPart D : ℝ) + 0.000387933 * ((dayPart D : ℝ) / 36525) ^ 2) -
        91.02605 - 1.203252 * lagrange (lonDay (D - 1) k : ℝ) (lonDay D k) (lonDay (D + 1) k) n - 360 * k := by
    unfold side lagrange
    push_cast
    ring
  rw [abs_le] at e
  linarith [e.1, e.2]

/-- The sunset is not before the part `n` of the day. -/
theorem sunset_after {jd : ℚ} {lat lon : ℝ} {D : ℤ} (h : AtMidnight jd lon D) (hl : |lat| ≤ 36) (hlt : LatTrig lat)
    (hlon : |lon - 51.288701| ≤ 0.000001) {k : ℤ}
    (bx : |lonDay (D - 1) k| ≤ 2.89) (bY : |lonDay D k| ≤ 2.89) (bz : |lonDay (D + 1) k| ≤ 2.89)
    (hm : |side D k (lonDay (D - 1) k) (lonDay D k) (lonDay (D + 1) k) 0.755| ≤ 60) {n : ℚ} (n0 : -1.5 ≤ n) (n1 : n ≤ 2.5)
    (hn : side D k (lonDay (D - 1) k) (lonDay D k) (lonDay (D + 1) k) n ≤ -0.042) :
    n - 1 / 36000 ≤ risingSetting jd lat lon sunOffset true := by
  obtain ⟨t, r, t0, t1, e⟩ := sunset_side h hl hlt hlon bx bY bz hm
  have hn' : ((side D k (lonDay (D - 1) k) (lonDay D k) (lonDay (D + 1) k) n : ℚ) : ℝ) ≤ -0.042 := castLe hn (by norm_num)
  have n0' : (-1.5 : ℝ) ≤ n := castGe n0 (by norm_num)
  have n1' : (n : ℝ) ≤ 2.5 := castLe n1 (by norm_num)
  by_contra hc
  have tn : t ≤ n := by rw [abs_le] at r; linarith [r.1, r.2]
  obtain ⟨u, v⟩ := side_mono (bx.trans (by norm_num)) (bY.trans (by norm_num)) (bz.trans (by norm_num)) (by linarith)
    (by linarith) n0' n1' tn
  have c : ((side D k (lonDay (D - 1) k) (lonDay D k) (lonDay (D + 1) k) n : ℚ) : ℝ) =
      360.98564736629 * n + (100.46061837 + 0.98564736629 * (dayPart D : ℝ) + 0.000387933 * ((dayPart D : ℝ) / 36525) ^ 2) -
        91.02605 - 1.203252 * lagrange (lonDay (D - 1) k : ℝ) (lonDay D k) (lonDay (D + 1) k) n - 360 * k := by
    unfold side lagrange
    push_cast
    ring
  rw [abs_le] at e
  linarith [e.1, e.2]

end Verif.Solar
