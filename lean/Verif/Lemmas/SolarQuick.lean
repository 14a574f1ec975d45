import Verif.Lemmas.SolarCross

/-!
# The corrections converge up to 60 degrees from the equator
-/

namespace Verif.Solar

open Real

/-- One correction of the hour angle `H`, with the declination `d`, towards the hour angle `K` and the declination `g` with
the sun on the horizon. -/
theorem newton_root {f g d K H o y E : ℝ} (f1 : 0.5 ≤ cos f) (f2 : |sin f| ≤ 0.8661) (d1 : 0.906 ≤ cos d)
    (horizon : sin f * sin g + cos f * cos g * cos K = sin (-o)) (o0 : 0 ≤ o) (o1 : o ≤ 0.0146) (hs : 0.51 ≤ sin H)
    (hy : |H - K - y| ≤ 0.0014 * |y|) (hd : |d - g| ≤ 0.0025 * |y|) (yE : |y| ≤ E) (hE : E ≤ 0.07) :
    |y + (arcsin (sin f * sin d + cos f * cos d * cos H) + o) / (cos d * cos f * sin H)| ≤
      (0.022 + 2 * (1.0014 * E + (0.0146 + 1.0061 * E) ^ 2)) * |y| := by
  set S := sin f * sin d + cos f * cos d * cos H with hS
  set P := sin f * (sin d - sin g) + cos f * (cos d - cos g) * cos K with hP
  have y0 := abs_nonneg y
  have hP1 : |P| ≤ 0.0046653 * |y| := by
    have q1 := (abs_sin_sub_sin_le d g).trans hd
    have q2 := (abs_cos_sub_cos_le d g).trans hd
    rw [hP]
    refine (abs_add_le _ _).trans ?_
    rw [abs_mul, abs_mul, abs_mul]
    have q4 := mul_le_mul f2 q1 (abs_nonneg _) (by norm_num)
    have q5 := mul_le_mul (abs_cos_le_one f) q2 (abs_nonneg _) (by norm_num)
    have q6 := mul_le_mul q5 (abs_cos_le_one K) (abs_nonneg _) (by positivity)
    linarith
  have HK : |H - K| ≤ 1.0014 * |y| := by
    have e : H - K = (H - K - y) + y := by ring
    rw [e]
    refine (abs_add_le _ _).trans ?_
    linarith
  obtain ⟨z, z0, z1, ez⟩ := cos_mean H K
  have zH : |sin H - sin z| ≤ 1.0014 * E := by
    have hz : |H - z| ≤ |H - K| := by
      rcases abs_cases (H - K) with ⟨h1, h2⟩ | ⟨h1, h2⟩ <;> rw [h1, abs_le] <;>
        rcases min_le_iff.mp z0 with g | g <;> rcases le_max_iff.mp z1 with g' | g' <;> constructor <;> linarith
    refine (abs_sin_sub_sin_le H z).trans (hz.trans (HK.trans ?_))
    linarith
  have eS : S - sin (-o) = P + cos f * cos d * (-sin z * (H - K)) := by
    rw [← ez, ← horizon, hS, hP]
    ring
  have hcc : |cos f * cos d| ≤ 1 := by
    rw [abs_mul]
    exact mul_le_one₀ (abs_cos_le_one f) (abs_nonneg _) (abs_cos_le_one d)
  have so : |sin (-o)| ≤ 0.0146 := by
    rw [sin_neg, abs_neg]
    exact (abs_sin_le_abs).trans (by rw [abs_of_nonneg o0]; exact o1)
  have hS1 : |S| ≤ 0.0146 + 1.0061 * E := by
    have q1 : |cos f * cos d * (-sin z * (H - K))| ≤ 1.0014 * |y| := by
      rw [abs_mul]
      have q2 : |-sin z * (H - K)| ≤ 1 * (1.0014 * |y|) := by
        rw [abs_mul, abs_neg]
        exact mul_le_mul (abs_sin_le_one z) HK (abs_nonneg _) (by norm_num)
      have := mul_le_mul hcc q2 (abs_nonneg _) (by norm_num)
      linarith
    have e : S = sin (-o) + (P + cos f * cos d * (-sin z * (H - K))) := by linarith
    rw [e]
    refine (abs_add_le _ _).trans ?_
    have := abs_add_le P (cos f * cos d * (-sin z * (H - K)))
    linarith
  set B := 0.0146 + 1.0061 * E with hB
  have B1 : B ≤ 0.0851 := by rw [hB]; linarith
  have hSr := abs_le.mp hS1
  have sA : sin (arcsin S) = S := sin_arcsin (by linarith) (by linarith)
  obtain ⟨x, x0, x1, ex⟩ := sin_mean (arcsin S) (-o)
  have pi3 := pi_gt_three
  obtain ⟨x2, x3, x4⟩ := sin_between (B := B) (neg_pi_div_two_le_arcsin S) (arcsin_le_pi_div_two S) (by linarith)
    (by linarith) x0 x1 (by rw [sA]; exact hS1) (so.trans (by rw [hB]; linarith))
  have cx := cos_near_zero_high x3 x4 (x2.trans (by linarith))
  have cx1 := cos_le_one x
  have cB : |cos x - 1| ≤ B ^ 2 := by
    have h3 := sin_sq_add_cos_sq x
    have h4 : sin x ^ 2 ≤ B ^ 2 := by
      rw [← sq_abs]
      exact pow_le_pow_left₀ (abs_nonneg _) x2 2
    have h5 : cos x * cos x ≤ cos x * 1 := mul_le_mul_of_nonneg_left cx1 (by linarith)
    have h6 : cos x ^ 2 = cos x * cos x := by ring
    rw [abs_of_nonpos (by linarith)]
    linarith
  rw [sA, eS] at ex
  rw [sub_neg_eq_add] at ex
  have W0 : 0.906 * 0.5 ≤ cos d * cos f := mul_le_mul d1 f1 (by norm_num) (by linarith)
  have V0 : 0.994 * 0.51 ≤ cos x * sin H := mul_le_mul cx hs (by norm_num) (by linarith)
  have Wpos : 0 < cos d * cos f := lt_of_lt_of_le (by norm_num) W0
  have Vpos : 0 < cos x * sin H := lt_of_lt_of_le (by norm_num) V0
  have Hpos : 0 < sin H := lt_of_lt_of_le (by norm_num) hs
  have cpos : 0 < cos x := lt_of_lt_of_le (by norm_num) cx
  have main : y + (arcsin S + o) / (cos d * cos f * sin H) =
      -(H - K - y) + P / ((cos d * cos f) * (cos x * sin H)) + ((H - K) * (cos x * sin H - sin z)) / (cos x * sin H) := by
    have e1 : arcsin S + o = (P + cos f * cos d * (-sin z * (H - K))) / cos x := by
      rw [eq_div_iff cpos.ne', ex]
      ring
    rw [e1]
    have := Wpos.ne'
    have := cpos.ne'
    have := Hpos.ne'
    have dne : cos d ≠ 0 := by intro g; rw [g] at d1; norm_num at d1
    have fne : cos f ≠ 0 := by intro g; rw [g] at f1; norm_num at f1
    field_simp
    ring
  have n1 : |P / ((cos d * cos f) * (cos x * sin H))| ≤ 0.0204 * |y| := by
    have q := mul_le_mul W0 V0 (by norm_num) Wpos.le
    rw [abs_div, abs_of_pos (mul_pos Wpos Vpos), div_le_iff₀ (mul_pos Wpos Vpos)]
    have := mul_le_mul_of_nonneg_left q (show 0 ≤ 0.0204 * |y| by positivity)
    linarith
  have F0 : 0 ≤ 1.0014 * E + B ^ 2 := by
    have : 0 ≤ E := y0.trans yE
    positivity
  have n2 : |((H - K) * (cos x * sin H - sin z)) / (cos x * sin H)| ≤ 1.976 * (1.0014 * E + B ^ 2) * |y| := by
    have q1 : |cos x * sin H - sin z| ≤ 1.0014 * E + B ^ 2 := by
      have e1 : cos x * sin H - sin z = (cos x - 1) * sin H + (sin H - sin z) := by ring
      rw [e1]
      refine (abs_add_le _ _).trans ?_
      rw [abs_mul]
      have := mul_le_mul cB (abs_sin_le_one H) (abs_nonneg _) (by positivity)
      linarith
    have q2 : |(H - K) * (cos x * sin H - sin z)| ≤ 1.0014 * |y| * (1.0014 * E + B ^ 2) := by
      rw [abs_mul]
      exact mul_le_mul HK q1 (abs_nonneg _) (by positivity)
    rw [abs_div, abs_of_pos Vpos, div_le_iff₀ Vpos]
    have := mul_le_mul_of_nonneg_left V0 (show 0 ≤ 1.976 * (1.0014 * E + B ^ 2) * |y| by positivity)
    have : 0 ≤ |y| * (1.0014 * E + B ^ 2) := by positivity
    linarith
  have n3 : |-(H - K - y)| ≤ 0.0014 * |y| := by rwa [abs_neg]
  rw [main]
  refine (abs_add_le _ _).trans ?_
  have := abs_add_le (-(H - K - y)) (P / ((cos d * cos f) * (cos x * sin H)))
  have : 0 ≤ (1.0014 * E + B ^ 2) * |y| := by positivity
  linarith

/-- `interpolation_change` for more of the day. -/
theorem interpolation_change_high {a b n k : ℝ} (n0 : 0 ≤ n) (n1 : n ≤ 0.94) (k0 : 0 ≤ k) (k1 : k ≤ 0.94) (c B : ℝ)
    (ha : |a - c| ≤ B) (hb : |b - c| ≤ B) :
    |n / 2 * (a + b + n * (b - a)) - k / 2 * (a + b + k * (b - a)) - c * (n - k)| ≤ 1.88 * B * |n - k| := by
  have e : n / 2 * (a + b + n * (b - a)) - k / 2 * (a + b + k * (b - a)) - c * (n - k) =
      ((a - c) * (1 / 2 - (n + k) / 2) + (b - c) * (1 / 2 + (n + k) / 2)) * (n - k) := by ring
  rw [e, abs_mul]
  apply mul_le_mul_of_nonneg_right _ (abs_nonneg _)
  refine (abs_add_le _ _).trans ?_
  rw [abs_mul, abs_mul]
  have w0 : |1 / 2 - (n + k) / 2| + |1 / 2 + (n + k) / 2| ≤ 1.88 := by
    rw [abs_of_nonneg (show 0 ≤ 1 / 2 + (n + k) / 2 by linarith)]
    rcases abs_cases (1 / 2 - (n + k) / 2) with ⟨h, -⟩ | ⟨h, -⟩ <;> rw [h] <;> norm_num at * <;> linarith
  have := mul_le_mul_of_nonneg_right ha (abs_nonneg (1 / 2 - (n + k) / 2))
  have := mul_le_mul_of_nonneg_right hb (abs_nonneg (1 / 2 + (n + k) / 2))
  have hB : 0 ≤ B := (abs_nonneg _).trans ha
  nlinarith

/-- How the hour angle changes. -/
theorem hourAngle_change {jd : ℚ} {lon : ℝ} {D : ℤ} (h : AtMidnight jd lon D) {m k : ℝ}
    (m0 : 0.05 ≤ m) (m1 : m ≤ 0.93) (u0 : -179 ≤ 360 * (m - transit jd lon)) (u1 : 360 * (m - transit jd lon) ≤ 179)
    (k0 : 0.05 ≤ k) (k1 : k ≤ 0.93) (v0 : -179 ≤ 360 * (k - transit jd lon)) (v1 : 360 * (k - transit jd lon) ≤ 179) :
    |dayHourAngle jd lon m - dayHourAngle jd lon k - 360 * (m - k)| ≤ 0.0014 * (360 * |m - k|) ∧
    |dayDeclination jd m - dayDeclination jd k| ≤ 0.0025 * (360 * |m - k|) := by
  obtain ⟨ht, hd⟩ := midnight_tc h
  obtain ⟨E, x, j, -, -, bx, e⟩ := transit_eq h
  have dd := time_shift hd
  rw [abs_le] at dd bx
  obtain ⟨a, b, a0, a1, b0, b1, form⟩ := interpolatedAscension_form (t := julianCenturies jd) (by linarith)
  obtain ⟨p, q, hp, hq, dform⟩ := interpolatedDeclination_form (t := julianCenturies jd) (by linarith)
  have key : ∀ m : ℝ, 0.05 ≤ m → m ≤ 0.93 → -179 ≤ 360 * (m - transit jd lon) → 360 * (m - transit jd lon) ≤ 179 →
      dayHourAngle jd lon m = 360 * (m - transit jd lon) + (x + 0.98564736629 * m - (m + (deltaT jd : ℝ) / 86400) / 2 *
        (a + b + (m + (deltaT jd : ℝ) / 86400) * (b - a))) := by
    intro m m0 m1 u0 u1
    obtain ⟨y, ey, y0, y1⟩ := interpolatedAscension_eq (t := julianCenturies jd) (n := m + (deltaT jd : ℝ) / 86400)
      (by linarith) (by norm_num at *; linarith) (by norm_num at *; linarith)
    have ey' : (m + (deltaT jd : ℝ) / 86400) / 2 * (a + b + (m + (deltaT jd : ℝ) / 86400) * (b - a)) = y := by
      have := form (m + (deltaT jd : ℝ) / 86400)
      rw [ey] at this
      linarith
    rw [ey']
    have b : |x + 0.98564736629 * m - y| ≤ 0.72 := by
      rw [abs_le]
      constructor <;> norm_num at * <;> linarith
    have b' := abs_le.mp b
    unfold dayHourAngle hourAngleAt
    apply localHourAngle_eq (k := j)
    · rw [ey]
      linear_combination e
    · norm_num at *
      linarith
    · norm_num at *
      linarith
  have e1 := key m m0 m1 u0 u1
  have e2 := key k k0 k1 v0 v1
  set n := m + (deltaT jd : ℝ) / 86400 with hn
  set l := k + (deltaT jd : ℝ) / 86400 with hl
  have nl : n - l = m - k := by rw [hn, hl]; ring
  have n0 : 0 ≤ n := by norm_num at *; linarith
  have n1 : n ≤ 0.94 := by norm_num at *; linarith
  have l0 : 0 ≤ l := by norm_num at *; linarith
  have l1 : l ≤ 0.94 := by norm_num at *; linarith
  have mk := abs_nonneg (m - k)
  constructor
  · have ic := interpolation_change_high (a := a) (b := b) n0 n1 l0 l1 1.05 0.22 (by
      rw [abs_le]; constructor <;> norm_num at * <;> linarith) (by
      rw [abs_le]; constructor <;> norm_num at * <;> linarith)
    have e3 : dayHourAngle jd lon m - dayHourAngle jd lon k - 360 * (m - k) =
        -0.06435263371 * (m - k) - (n / 2 * (a + b + n * (b - a)) - l / 2 * (a + b + l * (b - a)) - 1.05 * (n - l)) := by
      rw [e1, e2, nl]
      ring
    rw [e3]
    refine (abs_sub _ _).trans ?_
    rw [abs_mul, nl] at *
    rw [abs_of_neg (show (-0.06435263371 : ℝ) < 0 by norm_num)]
    linarith
  · have ic := interpolation_change_high (a := p) (b := q) n0 n1 l0 l1 0 0.4711 (by rwa [sub_zero]) (by rwa [sub_zero])
    have e3 : dayDeclination jd m - dayDeclination jd k =
        n / 2 * (p + q + n * (q - p)) - l / 2 * (p + q + l * (q - p)) - 0 * (n - l) := by
      unfold dayDeclination
      rw [dform, dform]
      ring
    rw [e3]
    refine ic.trans ?_
    rw [nl]
    linarith

/-- One correction, towards a time `t` with the sun on the horizon. -/
theorem correction_root {jd : ℚ} {lat lon : ℝ} {D : ℤ} (h : AtMidnight jd lon D) (hl : |lat| ≤ 60) {s : ℝ}
    (hs : s = 1 ∨ s = -1) {m t E : ℝ} (hm : NearHigh jd lat lon s m) (ht : NearHigh jd lat lon s t)
    (root : sinDeg lat * sinDeg (dayDeclination jd t) + cosDeg lat * cosDeg (dayDeclination jd t) *
      cosDeg (dayHourAngle jd lon t) = sinDeg (-sunOffset))
    (hE : radians (360 * |m - t|) ≤ E) (E1 : E ≤ 0.07) :
    |m + correction jd lat lon m - t| ≤ (0.022 + 2 * (1.0014 * E + (0.0146 + 1.0061 * E) ^ 2)) * |m - t| := by
  obtain ⟨l0, l1⟩ := lat_trig_high hl
  obtain ⟨o0, o1, -, -⟩ := offset_bounds
  obtain ⟨-, -, hsin, -, dcos, corr⟩ := near_point_high h hl hs hm
  obtain ⟨m0, m1, u0, u1⟩ := near_time_high h hl hs hm
  obtain ⟨t0, t1, v0, v1⟩ := near_time_high h hl hs ht
  obtain ⟨H1, D1⟩ := hourAngle_change h m0 m1 u0 u1 t0 t1 v0 v1
  have sabs : |s| = 1 := by rcases hs with rfl | rfl <;> norm_num
  set y := radians (s * (360 * (m - t))) with hy
  have ym : |y| = radians (360 * |m - t|) := by
    rw [hy, radians_abs, abs_mul, sabs, one_mul, abs_mul, abs_of_pos (show (0 : ℝ) < 360 by norm_num)]
  have rs : ∀ c : ℝ, radians (c * (360 * |m - t|)) = c * |y| := by
    intro c
    rw [ym]
    unfold radians
    ring
  have cos_s : cosDeg (dayHourAngle jd lon t) = cosDeg (s * dayHourAngle jd lon t) := by
    rcases hs with rfl | rfl
    · rw [one_mul]
    · unfold cosDeg
      rw [neg_one_mul, radians_neg, cos_neg]
  rw [cos_s] at root
  have step := newton_root (f := radians lat) (g := radians (dayDeclination jd t)) (d := radians (dayDeclination jd m))
    (K := radians (s * dayHourAngle jd lon t)) (H := radians (s * dayHourAngle jd lon m)) (o := radians sunOffset) (y := y)
    (E := E) l0 l1 dcos
    (by
      rw [← radians_neg]
      exact root)
    (by norm_num at *; linarith) o1 hsin
    (by
      rw [hy, ← radians_sub, ← radians_sub, radians_abs, ← mul_sub, ← mul_sub, abs_mul, sabs, one_mul, ← hy, ← rs]
      exact radians_le H1)
    (by
      rw [← radians_sub, radians_abs, ← rs]
      exact radians_le D1)
    (by rw [ym]; exact hE) E1
  set F := 0.022 + 2 * (1.0014 * E + (0.0146 + 1.0061 * E) ^ 2) with hF
  have key : |s * (360 * (m - t)) + s * (360 * correction jd lat lon m)| ≤ F * (360 * |m - t|) := by
    rw [corr]
    have e1 : s * (360 * (m - t)) = degrees y := (degrees_radians _).symm
    rw [e1, ← degrees_add, degrees_abs, degrees_le_iff, rs]
    exact step
  have e2 : s * (360 * (m - t)) + s * (360 * correction jd lat lon m) = s * (360 * (m + correction jd lat lon m - t)) := by ring
  rw [e2, abs_mul, sabs, one_mul, abs_mul, abs_of_pos (show (0 : ℝ) < 360 by norm_num)] at key
  linarith

/-- A correction of a time within four degrees of the first estimate, by how far that time is from the crossing. -/
theorem quick_step {jd : ℚ} {lat lon : ℝ} {D : ℤ} (h : AtMidnight jd lon D) (hl : |lat| ≤ 60) {s : ℝ}
    (hs : s = 1 ∨ s = -1) {m t : ℝ} (hm : NearHigh jd lat lon s m) (ht : NearHigh jd lat lon s t)
    (root : sinDeg lat * sinDeg (dayDeclination jd t) + cosDeg lat * cosDeg (dayDeclination jd t) *
      cosDeg (dayHourAngle jd lon t) = sinDeg (-sunOffset)) :
    (|m - t| ≤ 0.01112 → |m + correction jd lat lon m - t| ≤ 0.17667 * |m - t|) ∧
    (|m - t| ≤ 0.001965 → |m + correction jd lat lon m - t| ≤ 0.0483 * |m - t|) ∧
    (|m - t| ≤ 0.0001215 → |m + correction jd lat lon m - t| ≤ 0.0241 * |m - t|) := by
  have rad : ∀ c : ℝ, |m - t| ≤ c → radians (360 * |m - t|) ≤ 6.2832 * c := by
    intro c hc
    have e : radians (360 * |m - t|) = 2 * π * |m - t| := by
      unfold radians
      ring
    rw [e]
    have p := pi_lt_d4
    have q := pi_pos
    have : 2 * π * |m - t| ≤ 2 * 3.1416 * c :=
      mul_le_mul (by linarith) hc (abs_nonneg _) (by norm_num)
    linarith
  have a0 := abs_nonneg (m - t)
  refine ⟨fun b => ?_, fun b => ?_, fun b => ?_⟩
  · refine (correction_root h hl hs hm ht root ((rad _ b).trans (by norm_num : _ ≤ (0.07 : ℝ))) le_rfl).trans ?_
    exact mul_le_mul_of_nonneg_right (by norm_num) a0
  · refine (correction_root h hl hs hm ht root ((rad _ b).trans (by norm_num : _ ≤ (0.01235 : ℝ))) (by norm_num)).trans ?_
    exact mul_le_mul_of_nonneg_right (by norm_num) a0
  · refine (correction_root h hl hs hm ht root ((rad _ b).trans (by norm_num : _ ≤ (0.000764 : ℝ))) (by norm_num)).trans ?_
    exact mul_le_mul_of_nonneg_right (by norm_num) a0

/-- Three corrections, or fewer when one is less than 0.0001 of a day, end within 0.3 seconds of the crossing. -/
theorem refine_root_high {jd : ℚ} {lat lon : ℝ} {D : ℤ} (h : AtMidnight jd lon D) (hl : |lat| ≤ 60) {s : ℝ}
    (hs : s = 1 ∨ s = -1) {m t : ℝ} (hm : NearHigh jd lat lon s m) (ht : NearHigh jd lat lon s t)
    (root : sinDeg lat * sinDeg (dayDeclination jd t) + cosDeg lat * cosDeg (dayDeclination jd t) *
      cosDeg (dayHourAngle jd lon t) = sinDeg (-sunOffset)) (b : |m - t| ≤ 4 / 360) :
    |refineTime (julianCenturies jd) (apparentSiderealTime (julianCenturies jd)) (deltaT jd : ℝ) lat lon sunOffset 3 m - t| ≤
      0.3 / 86400 := by
  have exit : ∀ m : ℝ, NearHigh jd lat lon s m → |m - t| ≤ 0.01112 → |correction jd lat lon m| < 0.0001 →
      |m + correction jd lat lon m - t| ≤ 0.3 / 86400 := by
    intro m hm b c
    obtain ⟨q1, -, q3⟩ := quick_step h hl hs hm ht root
    have r := q1 b
    have e : m - t = (m + correction jd lat lon m - t) - correction jd lat lon m := by ring
    have r2 : |m - t| ≤ |m + correction jd lat lon m - t| + |correction jd lat lon m| := by
      conv_lhs => rw [e]
      exact abs_sub _ _
    have r3 : |m - t| ≤ 0.0001215 := by
      norm_num at *
      linarith
    have := q3 r3
    norm_num at *
    linarith
  have n1 := correction_step_high h hl hs hm
  have n2 := correction_step_high h hl hs n1
  have b0 : |m - t| ≤ 0.01112 := b.trans (by norm_num)
  have s1 := (quick_step h hl hs hm ht root).1 b0
  have b1 : |m + correction jd lat lon m - t| ≤ 0.001965 := s1.trans (by linarith)
  have s2 := (quick_step h hl hs n1 ht root).2.1 b1
  have b2 : |m + correction jd lat lon m + correction jd lat lon (m + correction jd lat lon m) - t| ≤ 0.0001215 :=
    s2.trans (by linarith)
  have s3 := (quick_step h hl hs n2 ht root).2.2 b2
  have E0 := exit m hm b0
  have E1 := exit _ n1 (b1.trans (by norm_num))
  change |(if |correction jd lat lon m| < 0.0001 then m + correction jd lat lon m else
    if |correction jd lat lon (m + correction jd lat lon m)| < 0.0001 then
      m + correction jd lat lon m + correction jd lat lon (m + correction jd lat lon m) else
    if |correction jd lat lon (m + correction jd lat lon m + correction jd lat lon (m + correction jd lat lon m))| < 0.0001 then
      m + correction jd lat lon m + correction jd lat lon (m + correction jd lat lon m) +
        correction jd lat lon (m + correction jd lat lon m + correction jd lat lon (m + correction jd lat lon m)) else
      m + correction jd lat lon m + correction jd lat lon (m + correction jd lat lon m) +
        correction jd lat lon (m + correction jd lat lon m + correction jd lat lon (m + correction jd lat lon m))) - t| ≤ _
  split_ifs with c1 c2
  · exact E0 c1
  · exact E1 c2
  · exact s3.trans (by linarith)
  · exact s3.trans (by linarith)

end Verif.Solar
