import Verif.Lemmas.EquinoxAngle

/-!
# The time of the sunset near the equinox

The equation of the sunset in which everything is linear but for the longitude of the sun, which is interpolated from three
days.
-/

namespace Verif.Solar

open Real

/-- The interpolation from three values a day apart. -/
def lagrange {K : Type} [Field K] (x y z n : K) : K := y + n / 2 * ((y - x) + (z - y) + n * ((z - y) - (y - x)))

theorem lagrange_err {a1 a2 a3 c x y z n B : ℝ} (h1 : |a1 - c * x| ≤ B) (h2 : |a2 - c * y| ≤ B) (h3 : |a3 - c * z| ≤ B)
    (n0 : 0 ≤ n) (n1 : n ≤ 1) : |lagrange a1 a2 a3 n - c * lagrange x y z n| ≤ 1.25 * B := by
  have e : lagrange a1 a2 a3 n - c * lagrange x y z n =
      -((a1 - c * x) * (n * (1 - n) / 2)) + (a2 - c * y) * (1 - n ^ 2) + (a3 - c * z) * (n * (1 + n) / 2) := by
    unfold lagrange
    ring
  have w1 : 0 ≤ n * (1 - n) / 2 := by have := mul_nonneg n0 (show 0 ≤ 1 - n by linarith); linarith
  have w2 : 0 ≤ 1 - n ^ 2 := by nlinarith
  have w3 : 0 ≤ n * (1 + n) / 2 := by positivity
  have b0 := (abs_nonneg _).trans h1
  rw [e]
  refine (abs_add_three _ _ _).trans ?_
  rw [abs_neg, abs_mul, abs_mul, abs_mul, abs_of_nonneg w1, abs_of_nonneg w2, abs_of_nonneg w3]
  have m1 := mul_le_mul_of_nonneg_right h1 w1
  have m2 := mul_le_mul_of_nonneg_right h2 w2
  have m3 := mul_le_mul_of_nonneg_right h3 w3
  have q : B * (n * (1 - n) / 2) + B * (1 - n ^ 2) + B * (n * (1 + n) / 2) = B * (1 + n * (1 - n)) := by ring
  have s : 1 + n * (1 - n) ≤ 1.25 := by nlinarith [sq_nonneg (n - 1 / 2)]
  have := mul_le_mul_of_nonneg_left s b0
  linarith

theorem lagrange_abs {x y z n B : ℝ} (h1 : |x| ≤ B) (h2 : |y| ≤ B) (h3 : |z| ≤ B) (n0 : 0 ≤ n) (n1 : n ≤ 1) :
    |lagrange x y z n| ≤ 1.25 * B := by
  have := lagrange_err (c := 0) (x := 0) (y := 0) (z := 0) (by simpa using h1) (by simpa using h2) (by simpa using h3) n0 n1
  simpa using this

theorem lagrange_shift {x y z n m : ℝ} (h1 : |x| ≤ 2.9) (h2 : |y| ≤ 2.9) (h3 : |z| ≤ 2.9) (n0 : 0 ≤ n) (n1 : n ≤ 1)
    (m0 : 0 ≤ m) (m1 : m ≤ 1) (h : |n - m| ≤ 0.000004) : |lagrange x y z n - lagrange x y z m| ≤ 0.00006 := by
  have e : lagrange x y z n - lagrange x y z m = (n - m) * ((z - x) / 2 + (n + m) / 2 * (z - 2 * y + x)) := by
    unfold lagrange
    ring
  rw [e, abs_mul]
  have b : |(z - x) / 2 + (n + m) / 2 * (z - 2 * y + x)| ≤ 14.5 := by
    refine (abs_add_le _ _).trans ?_
    have a1 : |(z - x) / 2| ≤ 2.9 := by
      rw [abs_le] at *
      constructor <;> linarith [h1.1, h1.2, h3.1, h3.2]
    have a2 : |(n + m) / 2 * (z - 2 * y + x)| ≤ 1 * 11.6 := by
      rw [abs_mul]
      refine mul_le_mul ?_ ?_ (abs_nonneg _) (by norm_num)
      · rw [abs_le]; constructor <;> linarith
      · rw [abs_le] at *
        constructor <;> linarith [h1.1, h1.2, h3.1, h3.2, h2.1, h2.2]
    linarith
  exact (mul_le_mul h b (abs_nonneg _) (by norm_num)).trans (by norm_num)

theorem localHourAngle_form (srt lon a : ℝ) : ∃ k : ℤ, localHourAngle srt lon a = srt + lon - a - 360 * k := by
  unfold localHourAngle
  obtain ⟨k, e, -, -⟩ := coterminal_spec (srt + lon - a)
  split_ifs
  · refine ⟨k + 1, ?_⟩
    rw [e]
    push_cast
    ring
  · exact ⟨k, e⟩

theorem normalized {u v x : ℝ} {j : ℤ} (hu0 : 0 ≤ u) (hu1 : u < 360) (hv0 : 0 ≤ v) (hv1 : v < 360) (e : v - u = x + 360 * j)
    (x0 : 0 < x) (x1 : x < 300) : v - u + (if v - u < 0 then 360 else 0) = x := by
  have q0 : (-2 : ℝ) < j := by linarith
  have q1 : (j : ℝ) < 1 := by linarith
  have q2 : -2 < j := by exact_mod_cast q0
  have q3 : j < 1 := by exact_mod_cast q1
  have q4 : j = 0 ∨ j = -1 := by omega
  rcases q4 with rfl | rfl
  · rw [if_neg (by rw [e]; push_cast; linarith), e]
    push_cast
    ring
  · rw [if_pos (by rw [e]; push_cast; linarith), e]
    push_cast
    ring

/-- The interpolated coordinates near the equinox. -/
theorem interpolated_near {t x y z n : ℝ} {k : ℤ} (ht : |t| ≤ 20.04) (hx : fullLongitude (t - 1 / 36525) = 360 * k + x)
    (hy : fullLongitude t = 360 * k + y) (hz : fullLongitude (t + 1 / 36525) = 360 * k + z) (bx : |x| ≤ 2.9) (bY : |y| ≤ 2.9)
    (bz : |z| ≤ 2.9) (n0 : 0 ≤ n) (n1 : n ≤ 1) :
    (∃ j : ℤ, |interpolatedAscension t n - 360 * j - 0.91747 * lagrange x y z n| ≤ 0.011) ∧
    |interpolatedDeclination t n - 0.39779 * lagrange x y z n| ≤ 0.01875 := by
  have ht' := abs_le.mp ht
  have hm : |t - 1 / 36525| ≤ 20.05 := by rw [abs_le]; constructor <;> norm_num at * <;> linarith
  have hp : |t + 1 / 36525| ≤ 20.05 := by rw [abs_le]; constructor <;> norm_num at * <;> linarith
  obtain ⟨a1, j1, e1, b1⟩ := ascension_near (by linarith) hx bx
  obtain ⟨a2, j2, e2, b2⟩ := ascension_near (by linarith) hy bY
  obtain ⟨a3, j3, e3, b3⟩ := ascension_near (by linarith) hz bz
  have d1 := declination_near (by linarith) hx bx
  have d2 := declination_near (by linarith) hy bY
  have d3 := declination_near (by linarith) hz bz
  have c1 := longitude_change (t := t - 1 / 36525) (h := 1 / 36525) hm (by rw [abs_of_pos (by norm_num)])
  have c2 := longitude_change (t := t) (h := 1 / 36525) (by linarith) (by rw [abs_of_pos (by norm_num)])
  rw [sub_add_cancel] at c1
  change |fullLongitude t - fullLongitude (t - 1 / 36525) - 36000.76983 * (1 / 36525)| ≤ 0.0461 at c1
  change |fullLongitude (t + 1 / 36525) - fullLongitude t - 36000.76983 * (1 / 36525)| ≤ 0.0461 at c2
  rw [hx, hy] at c1
  rw [hy, hz] at c2
  have c1' := abs_le.mp c1
  have c2' := abs_le.mp c2
  have b1' := abs_le.mp b1
  have b2' := abs_le.mp b2
  have b3' := abs_le.mp b3
  obtain ⟨-, -, p1, q1⟩ := ascension_eq (t - 1 / 36525)
  obtain ⟨-, -, p2, q2⟩ := ascension_eq t
  obtain ⟨-, -, p3, q3⟩ := ascension_eq (t + 1 / 36525)
  have na := normalized (x := a2 - a1) (j := j2 - j1) p1 q1 p2 q2 (by rw [e1, e2]; push_cast; ring)
    (by norm_num at *; linarith) (by norm_num at *; linarith)
  have nb := normalized (x := a3 - a2) (j := j3 - j2) p2 q2 p3 q3 (by rw [e2, e3]; push_cast; ring)
    (by norm_num at *; linarith) (by norm_num at *; linarith)
  constructor
  · refine ⟨j2, ?_⟩
    have f : interpolatedAscension t n = 360 * j2 + lagrange a1 a2 a3 n := by
      unfold interpolatedAscension interpolation lagrange
      simp only [if_true]
      rw [na, nb, e2]
      ring
    rw [f, add_sub_cancel_left]
    exact (lagrange_err b1 b2 b3 n0 n1).trans (by norm_num)
  · exact (lagrange_err d1 d2 d3 n0 n1).trans (by norm_num)

theorem altitude_sin {d lat H : ℝ} (h : altitude d lat H = -sunOffset) :
    sinDeg lat * sinDeg d + cosDeg lat * cosDeg d * cosDeg H = sinDeg (-sunOffset) := by
  unfold altitude at h
  have h2 := congrArg radians h
  rw [radians_degrees] at h2
  have h3 : radians (-sunOffset) = -0.8333 * (π / 180) := by
    unfold radians sunOffset
    ring
  have hpi := pi_pos
  set X := sinDeg lat * sinDeg d + cosDeg lat * cosDeg d * cosDeg H with hX
  have b0 : -(π / 2) < arcsin X := by rw [h2, h3]; linarith
  have b1 : arcsin X < π / 2 := by rw [h2, h3]; linarith
  rw [neg_pi_div_two_lt_arcsin] at b0
  rw [arcsin_lt_pi_div_two] at b1
  unfold sinDeg
  rw [← h2, sin_arcsin b0.le b1.le]

theorem sunset_line {jd : ℚ} {lat lon : ℝ} {D : ℤ} (h : AtMidnight jd lon D) (hl : |lat| ≤ 36) (hlt : LatTrig lat) {k : ℤ}
    {x y z : ℝ} (hx : fullLongitude (julianCenturies jd - 1 / 36525) = 360 * k + x)
    (hy : fullLongitude (julianCenturies jd) = 360 * k + y)
    (hz : fullLongitude (julianCenturies jd + 1 / 36525) = 360 * k + z) (bx : |x| ≤ 2.9) (bY : |y| ≤ 2.9) (bz : |z| ≤ 2.9) :
    ∃ t : ℝ, ∃ j : ℤ, |risingSetting jd lat lon sunOffset true - t| ≤ 1 / 36000 ∧ 0.67 ≤ t ∧ t ≤ 0.84 ∧
      |360.98564736629 * t + apparentSiderealTime (julianCenturies jd) + lon - 91.02605 - 1.203252 * lagrange x y z t -
        360 * j| ≤ 0.0277 := by
  obtain ⟨t, rt, al, g0, g1⟩ := risingSetting_root h hl true
  obtain ⟨s0, s1⟩ := setting_bounds h hl
  obtain ⟨tc, dt⟩ := midnight_tc h
  have ts := time_shift dt
  simp only [if_true, one_mul] at g0 g1
  have rt' := abs_le.mp rt
  have t0 : 0.67 ≤ t := by norm_num at *; linarith
  have t1 : t ≤ 0.84 := by norm_num at *; linarith
  have ts' := abs_le.mp ts
  set n := t + (deltaT jd : ℝ) / 86400 with hn
  obtain ⟨⟨j, ia⟩, id⟩ := interpolated_near (n := n) (by linarith) hx hy hz bx bY bz (by linarith) (by linarith)
  have lb := lagrange_abs (n := n) bx bY bz (by linarith) (by linarith)
  have ls := lagrange_shift (n := n) (m := t) bx bY bz (by linarith) (by linarith) (by linarith) (by linarith)
    (by rw [hn, add_sub_cancel_left]; exact ts)
  have db : |dayDeclination jd t| ≤ 1.6 := by
    change |interpolatedDeclination (julianCenturies jd) n| ≤ 1.6
    have := abs_le.mp id
    have := abs_le.mp lb
    rw [abs_le]
    constructor <;> norm_num at * <;> linarith
  have eq : sinDeg lat * sinDeg (dayDeclination jd t) + cosDeg lat * cosDeg (dayDeclination jd t) *
      cosDeg (dayHourAngle jd lon t) = sinDeg (-sunOffset) := by
    exact altitude_sin al
  have hh := hourAngle_near hlt db g0 g1 eq
  obtain ⟨i, hi⟩ := localHourAngle_form (apparentSiderealTime (julianCenturies jd) + 360.98564736629 * t) lon
    (interpolatedAscension (julianCenturies jd) n)
  have hd : dayHourAngle jd lon t = localHourAngle (apparentSiderealTime (julianCenturies jd) + 360.98564736629 * t) lon
    (interpolatedAscension (julianCenturies jd) n) := rfl
  rw [hd, hi] at hh
  change |interpolatedDeclination (julianCenturies jd) n - 0.39779 * lagrange x y z n| ≤ 0.01875 at id
  change |apparentSiderealTime (julianCenturies jd) + 360.98564736629 * t + lon -
    interpolatedAscension (julianCenturies jd) n - 360 * i -
    (91.02605 + 0.718423 * interpolatedDeclination (julianCenturies jd) n)| ≤ 0.003 at hh
  refine ⟨t, i + j, rt, t0, t1, ?_⟩
  rw [abs_le] at ia id lb ls hh ⊢
  obtain ⟨ia1, ia2⟩ := ia
  obtain ⟨id1, id2⟩ := id
  obtain ⟨lb1, lb2⟩ := lb
  obtain ⟨ls1, ls2⟩ := ls
  obtain ⟨hh1, hh2⟩ := hh
  push_cast
  constructor <;> linarith only [ia1, ia2, id1, id2, lb1, lb2, ls1, ls2, hh1, hh2]

/-- The sidereal time at local midnight of day `D`, up to whole turns. -/
theorem sidereal_form {jd : ℚ} {lon : ℝ} {D : ℤ} (h : AtMidnight jd lon D) : ∃ j : ℤ,
    |apparentSiderealTime (julianCenturies jd) + lon - (100.46061837 + 0.98564736629 * (D - 1 / 2 - lon / 360 - 2451545) +
      0.000387933 * ((D - 1 / 2 - lon / 360 - 2451545) / 36525) ^ 2) - 360 * j| ≤ 0.0063 := by
  obtain ⟨tc, -⟩ := midnight_tc h
  obtain ⟨D0, D1, hl, hj⟩ := h
  have hn := nutationLongitude_abs (tc := julianCenturies jd) (by linarith)
  have hc := abs_cosDeg (trueObliquity (julianCenturies jd))
  unfold apparentSiderealTime meanSiderealTime
  set T := julianCenturies (jd : ℝ) with hT
  obtain ⟨j1, e1, -, -⟩ := coterminal_spec (280.46061837 + 360.98564736629 * (T * 36525) + 0.000387933 * T ^ 2 -
    T ^ 3 / 38710000)
  obtain ⟨j2, e2, -, -⟩ := coterminal_spec (coterminal (280.46061837 + 360.98564736629 * (T * 36525) + 0.000387933 * T ^ 2 -
    T ^ 3 / 38710000) + nutationLongitude T * cosDeg (trueObliquity T))
  rw [e2, e1]
  have p : |nutationLongitude T * cosDeg (trueObliquity T)| ≤ 0.0056 := by
    rw [abs_mul]
    exact (mul_le_mul hn hc (abs_nonneg _) (by norm_num)).trans (by norm_num)
  set d := (D : ℝ) - 1 / 2 - lon / 360 - 2451545 with hd
  have jT : T * 36525 = d + ((jd : ℝ) - (D - 1 / 2 - lon / 360)) := by
    rw [hT, hd]
    unfold julianCenturies
    ring
  set r := (jd : ℝ) - (D - 1 / 2 - lon / 360) with hr
  have Td : T = d / 36525 + r / 36525 := by linarith
  have cube : |T ^ 3 / 38710000| ≤ 0.00021 := by
    rw [abs_div, abs_pow, abs_of_pos (show (0 : ℝ) < 38710000 by norm_num)]
    have := pow_le_pow_left₀ (abs_nonneg T) tc 3
    rw [div_le_iff₀ (by norm_num)]
    norm_num at *
    linarith
  have sq : |T ^ 2 - (d / 36525) ^ 2| ≤ 0.001 := by
    have e : T ^ 2 - (d / 36525) ^ 2 = r / 36525 * (2 * T - r / 36525) := by
      have : d / 36525 = T - r / 36525 := by linarith
      rw [this]
      ring
    rw [e, abs_mul]
    have a1 : |r / 36525| ≤ 0.000001 := by
      rw [abs_div, abs_of_pos (show (0 : ℝ) < 36525 by norm_num)]
      exact (div_le_self (abs_nonneg _) (by norm_num)).trans hj
    have a2 : |2 * T - r / 36525| ≤ 41 := by
      rw [abs_le] at *
      constructor <;> linarith [tc.1, tc.2, a1.1, a1.2]
    exact (mul_le_mul a1 a2 (abs_nonneg _) (by norm_num)).trans (by norm_num)
  refine ⟨D - 2451545 - j1 - j2, ?_⟩
  rw [jT]
  have lon_e : lon = 360 * ((D : ℝ) - 1 / 2 - 2451545 - d) := by rw [hd]; ring
  clear_value T d r
  rw [abs_le] at p hj cube sq ⊢
  push_cast
  constructor <;> linarith [p.1, p.2, hj.1, hj.2, cube.1, cube.2, sq.1, sq.2]

end Verif.Solar
