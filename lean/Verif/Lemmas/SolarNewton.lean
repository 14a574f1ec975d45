import Verif.Lemmas.SolarAngle
import Verif.Lemmas.SolarDelta

/-!
# One step towards the rising or setting
-/

namespace Verif.Solar

open Real

theorem cos_near_zero {x : ℝ} (h0 : -(π / 2) ≤ x) (h1 : x ≤ π / 2) (h : |sin x| ≤ 0.067) : 0.997 ≤ cos x := by
  have h2 := cos_nonneg_of_neg_pi_div_two_le_of_le h0 h1
  have h3 := sin_sq_add_cos_sq x
  have h4 : sin x ^ 2 ≤ 0.067 ^ 2 := by
    rw [← sq_abs]
    exact pow_le_pow_left₀ (abs_nonneg _) h 2
  nlinarith

theorem sin_between {a b t B : ℝ} (a0 : -(π / 2) ≤ a) (a1 : a ≤ π / 2) (b0 : -(π / 2) ≤ b) (b1 : b ≤ π / 2)
    (t0 : min a b ≤ t) (t1 : t ≤ max a b) (ha : |sin a| ≤ B) (hb : |sin b| ≤ B) :
    |sin t| ≤ B ∧ -(π / 2) ≤ t ∧ t ≤ π / 2 := by
  have y0 : -(π / 2) ≤ t := le_trans (le_min a0 b0) t0
  have y1 : t ≤ π / 2 := le_trans t1 (max_le a1 b1)
  refine ⟨?_, y0, y1⟩
  rw [abs_le] at ha hb ⊢
  constructor
  · rcases min_le_iff.mp t0 with g | g
    · exact le_trans ha.1 (sin_le_sin_of_le_of_le_pi_div_two a0 y1 g)
    · exact le_trans hb.1 (sin_le_sin_of_le_of_le_pi_div_two b0 y1 g)
  · rcases le_max_iff.mp t1 with g | g
    · exact le_trans (sin_le_sin_of_le_of_le_pi_div_two y0 a1 g) ha.2
    · exact le_trans (sin_le_sin_of_le_of_le_pi_div_two y0 b1 g) hb.2

/-- The sine of the altitude is near that of the horizon. -/
theorem newton_base {f e d k H o : ℝ} (f2 : |sin f| ≤ 0.588) (e1 : |sin e| ≤ 0.4053)
    (de : |d - e| ≤ 0.007) (k1 : |cos k| ≤ 0.3421)
    (horizon : sin f * sin e + cos f * cos e * cos k = sin (-o)) (o0 : 0 ≤ o) (o1 : o ≤ 0.0146)
    (hk : |H - k| ≤ 0.0472) :
    |sin f * sin d + cos f * cos d * cos H - sin (-o)| ≤ 0.0524 ∧ |sin f * sin d + cos f * cos d * cos H| ≤ 0.067 ∧
    |sin (-o)| ≤ 0.0146 := by
  set S := sin f * sin d + cos f * cos d * cos H with hS
  set P := sin f * (sin d - sin e) + cos f * (cos d - cos e) * cos k with hP
  have hP1 : |P| ≤ 0.0052 := by
    have q1 : |sin d - sin e| ≤ 0.007 := by
      obtain ⟨t, -, -, q⟩ := sin_mean d e
      rw [q, abs_mul]
      have := mul_le_mul (abs_cos_le_one t) de (abs_nonneg _) (by norm_num)
      linarith
    have q2 : |cos d - cos e| ≤ 0.00289 := by
      obtain ⟨t, t0, t1, q⟩ := cos_mean d e
      have te : |t - e| ≤ 0.007 := by
        rw [abs_le] at de ⊢
        rcases min_le_iff.mp t0 with g | g <;> rcases le_max_iff.mp t1 with g' | g' <;> constructor <;> linarith
      have st : |sin t| ≤ 0.4123 := by
        obtain ⟨u, -, -, q'⟩ := sin_mean t e
        have q3 : |sin t - sin e| ≤ 0.007 := by
          rw [q', abs_mul]
          have := mul_le_mul (abs_cos_le_one u) te (abs_nonneg _) (by norm_num)
          linarith
        rw [abs_le] at q3 e1 ⊢
        constructor <;> norm_num at * <;> linarith
      rw [q, abs_mul, abs_neg]
      have := mul_le_mul st de (abs_nonneg _) (by norm_num)
      norm_num at *
      linarith
    rw [hP]
    refine (abs_add_le _ _).trans ?_
    rw [abs_mul, abs_mul, abs_mul]
    have q4 := mul_le_mul f2 q1 (abs_nonneg _) (by norm_num)
    have q5 := mul_le_mul (abs_cos_le_one f) q2 (abs_nonneg _) (by norm_num)
    have q6 := mul_le_mul q5 k1 (abs_nonneg _) (by norm_num)
    norm_num at *
    linarith
  obtain ⟨z, z0, z1, ez⟩ := cos_mean H k
  have eS : S - sin (-o) = P + cos f * cos d * (-sin z * (H - k)) := by
    rw [← ez, ← horizon, hS, hP]
    ring
  have hcc : |cos f * cos d| ≤ 1 := by
    rw [abs_mul]
    exact mul_le_one₀ (abs_cos_le_one f) (abs_nonneg _) (abs_cos_le_one d)
  have so : |sin (-o)| ≤ 0.0146 := by
    rw [sin_neg, abs_neg]
    exact (abs_sin_le_abs).trans (by rw [abs_of_nonneg o0]; exact o1)
  have hS1 : |S - sin (-o)| ≤ 0.0524 := by
    have q1 : |cos f * cos d * (-sin z * (H - k))| ≤ 0.0472 := by
      rw [abs_mul]
      have q2 : |-sin z * (H - k)| ≤ 0.0472 := by
        rw [abs_mul, abs_neg]
        have := mul_le_mul (abs_sin_le_one z) hk (abs_nonneg _) (by norm_num)
        linarith
      have := mul_le_mul hcc q2 (abs_nonneg _) (by norm_num)
      linarith
    rw [eS]
    refine (abs_add_le _ _).trans ?_
    norm_num at *
    linarith
  refine ⟨hS1, ?_, so⟩
  rw [abs_le] at hS1 so ⊢
  constructor <;> norm_num at * <;> linarith

/-- One correction of the hour angle, in radians. `f` is the latitude, `e` the declination at the start of the day with the
hour angle `k` of the horizon, `d` the declination now, `H` the hour angle now. -/
theorem newton_step {f e d k H o : ℝ} (f1 : 0.809 ≤ cos f) (f2 : |sin f| ≤ 0.588) (e1 : |sin e| ≤ 0.4053)
    (d1 : 0.9 ≤ cos d) (de : |d - e| ≤ 0.007) (k1 : |cos k| ≤ 0.3421)
    (horizon : sin f * sin e + cos f * cos e * cos k = sin (-o)) (o0 : 0 ≤ o) (o1 : o ≤ 0.0146)
    (hk : |H - k| ≤ 0.0472) (hs : 0.92 ≤ sin H) :
    |H + (arcsin (sin f * sin d + cos f * cos d * cos H) + o) / (cos d * cos f * sin H) - k| ≤ 0.0125 := by
  set S := sin f * sin d + cos f * cos d * cos H with hS
  set P := sin f * (sin d - sin e) + cos f * (cos d - cos e) * cos k with hP
  have f3 : cos f ≤ 1 := cos_le_one f
  have d3 : cos d ≤ 1 := cos_le_one d
  have hP1 : |P| ≤ 0.0052 := by
    have q1 : |sin d - sin e| ≤ 0.007 := by
      obtain ⟨t, -, -, q⟩ := sin_mean d e
      rw [q, abs_mul]
      have := mul_le_mul (abs_cos_le_one t) de (abs_nonneg _) (by norm_num)
      linarith
    have q2 : |cos d - cos e| ≤ 0.00289 := by
      obtain ⟨t, t0, t1, q⟩ := cos_mean d e
      have te : |t - e| ≤ 0.007 := by
        rw [abs_le] at de ⊢
        rcases min_le_iff.mp t0 with g | g <;> rcases le_max_iff.mp t1 with g' | g' <;> constructor <;> linarith
      have st : |sin t| ≤ 0.4123 := by
        obtain ⟨u, -, -, q'⟩ := sin_mean t e
        have q3 : |sin t - sin e| ≤ 0.007 := by
          rw [q', abs_mul]
          have := mul_le_mul (abs_cos_le_one u) te (abs_nonneg _) (by norm_num)
          linarith
        rw [abs_le] at q3 e1 ⊢
        constructor <;> norm_num at * <;> linarith
      rw [q, abs_mul, abs_neg]
      have := mul_le_mul st de (abs_nonneg _) (by norm_num)
      norm_num at *
      linarith
    rw [hP]
    refine (abs_add_le _ _).trans ?_
    rw [abs_mul, abs_mul, abs_mul]
    have q4 := mul_le_mul f2 q1 (abs_nonneg _) (by norm_num)
    have q5 := mul_le_mul (abs_cos_le_one f) q2 (abs_nonneg _) (by norm_num)
    have q6 := mul_le_mul q5 k1 (abs_nonneg _) (by norm_num)
    norm_num at *
    linarith
  obtain ⟨z, z0, z1, ez⟩ := cos_mean H k
  have zH : |sin H - sin z| ≤ 0.0472 := by
    obtain ⟨u, -, -, q'⟩ := sin_mean H z
    have hz : |H - z| ≤ 0.0472 := by
      rw [abs_le] at hk ⊢
      rcases min_le_iff.mp z0 with g | g <;> rcases le_max_iff.mp z1 with g' | g' <;> constructor <;> linarith
    rw [q', abs_mul]
    have := mul_le_mul (abs_cos_le_one u) hz (abs_nonneg _) (by norm_num)
    linarith
  have eS : S - sin (-o) = P + cos f * cos d * (-sin z * (H - k)) := by
    rw [← ez, ← horizon, hS, hP]
    ring
  have hcc : |cos f * cos d| ≤ 1 := by
    rw [abs_mul]
    exact mul_le_one₀ (abs_cos_le_one f) (abs_nonneg _) (abs_cos_le_one d)
  have so : |sin (-o)| ≤ 0.0146 := by
    rw [sin_neg, abs_neg]
    exact (abs_sin_le_abs).trans (by rw [abs_of_nonneg o0]; exact o1)
  have hS1 : |S| ≤ 0.067 := by
    have q1 : |cos f * cos d * (-sin z * (H - k))| ≤ 0.0472 := by
      rw [abs_mul]
      have q2 : |-sin z * (H - k)| ≤ 0.0472 := by
        rw [abs_mul, abs_neg]
        have := mul_le_mul (abs_sin_le_one z) hk (abs_nonneg _) (by norm_num)
        linarith
      have := mul_le_mul hcc q2 (abs_nonneg _) (by norm_num)
      linarith
    rw [abs_le] at *
    constructor <;> norm_num at * <;> linarith
  have hSr := abs_le.mp hS1
  have sA : sin (arcsin S) = S := sin_arcsin (by norm_num at *; linarith) (by norm_num at *; linarith)
  obtain ⟨x, x0, x1, ex⟩ := sin_mean (arcsin S) (-o)
  have pi3 := pi_gt_three
  obtain ⟨x2, x3, x4⟩ := sin_between (B := 0.067) (neg_pi_div_two_le_arcsin S) (arcsin_le_pi_div_two S) (by norm_num at *; linarith)
    (by linarith) x0 x1 (by rw [sA]; exact hS1) (so.trans (by norm_num))
  have cx := cos_near_zero x3 x4 x2
  have cx1 := cos_le_one x
  rw [sA, eS] at ex
  rw [sub_neg_eq_add] at ex
  have Q0 : 0.6698 ≤ cos d * cos f * sin H := by
    have q1 := mul_le_mul d1 f1 (by norm_num) (by linarith)
    have q2 := mul_le_mul q1 hs (by norm_num) (by positivity)
    norm_num at *
    linarith
  have cQ : 0.6677 ≤ cos x * (cos d * cos f * sin H) := by
    have q1 := mul_le_mul cx Q0 (by norm_num) (by linarith)
    norm_num at *
    linarith
  have Qne : cos d * cos f * sin H ≠ 0 := by
    intro h
    rw [h] at Q0
    norm_num at Q0
  have cne : cos x ≠ 0 := by
    intro h
    rw [h] at cx
    norm_num at cx
  have main : H + (arcsin S + o) / (cos d * cos f * sin H) - k =
      (P + cos f * cos d * ((H - k) * (cos x * sin H - sin z))) / (cos x * (cos d * cos f * sin H)) := by
    rw [eq_div_iff (mul_ne_zero cne Qne)]
    have : (H + (arcsin S + o) / (cos d * cos f * sin H) - k) * (cos x * (cos d * cos f * sin H)) =
        (H - k) * (cos x * (cos d * cos f * sin H)) + cos x * (arcsin S + o) := by
      field_simp
      ring
    rw [this, ← ex]
    ring
  have num : |P + cos f * cos d * ((H - k) * (cos x * sin H - sin z))| ≤ 0.0076 := by
    have q1 : |cos x * sin H - sin z| ≤ 0.0502 := by
      have e1 : cos x * sin H - sin z = (cos x - 1) * sin H + (sin H - sin z) := by ring
      rw [e1]
      refine (abs_add_le _ _).trans ?_
      rw [abs_mul]
      have q2 : |cos x - 1| ≤ 0.003 := by
        rw [abs_le]
        constructor <;> norm_num at * <;> linarith
      have := mul_le_mul q2 (abs_sin_le_one H) (abs_nonneg _) (by norm_num)
      norm_num at *
      linarith
    have q2 : |(H - k) * (cos x * sin H - sin z)| ≤ 0.0472 * 0.0502 := by
      rw [abs_mul]
      exact mul_le_mul hk q1 (abs_nonneg _) (by norm_num)
    have q3 : |cos f * cos d * ((H - k) * (cos x * sin H - sin z))| ≤ 1 * (0.0472 * 0.0502) := by
      rw [abs_mul]
      exact mul_le_mul hcc q2 (abs_nonneg _) (by norm_num)
    refine (abs_add_le _ _).trans ?_
    norm_num at *
    linarith
  rw [main, abs_div, abs_of_pos (show 0 < cos x * (cos d * cos f * sin H) by norm_num at *; linarith),
    div_le_iff₀ (by norm_num at *; linarith)]
  norm_num at *
  linarith

/-- The difference of the altitude from that of the horizon. -/
theorem altitude_small {f e d k H o : ℝ} (f2 : |sin f| ≤ 0.588) (e1 : |sin e| ≤ 0.4053)
    (de : |d - e| ≤ 0.007) (k1 : |cos k| ≤ 0.3421)
    (horizon : sin f * sin e + cos f * cos e * cos k = sin (-o)) (o0 : 0 ≤ o) (o1 : o ≤ 0.0146)
    (hk : |H - k| ≤ 0.0472) :
    |arcsin (sin f * sin d + cos f * cos d * cos H) + o| ≤ 0.0526 := by
  obtain ⟨h1, h2, so⟩ := newton_base f2 e1 de k1 horizon o0 o1 hk
  set S := sin f * sin d + cos f * cos d * cos H with hS
  have hSr := abs_le.mp h2
  have sA : sin (arcsin S) = S := sin_arcsin (by norm_num at *; linarith) (by norm_num at *; linarith)
  obtain ⟨x, x0, x1, ex⟩ := sin_mean (arcsin S) (-o)
  have pi3 := pi_gt_three
  obtain ⟨x2, x3, x4⟩ := sin_between (B := 0.067) (neg_pi_div_two_le_arcsin S) (arcsin_le_pi_div_two S) (by norm_num at *; linarith)
    (by linarith) x0 x1 (by rw [sA]; exact h2) (so.trans (by norm_num))
  have cx := cos_near_zero x3 x4 x2
  rw [sA, sub_neg_eq_add] at ex
  rw [ex, abs_mul, abs_of_pos (by norm_num at *; linarith)] at h1
  have := abs_nonneg (arcsin S + o)
  norm_num at *
  nlinarith

set_option maxHeartbeats 1000000 in
/-- Two points near the horizon come together by the correction. -/
theorem newton_contract {f e d d' k H H' o y : ℝ} (f1 : 0.809 ≤ cos f) (f2 : |sin f| ≤ 0.588) (e1 : |sin e| ≤ 0.4053)
    (d1 : 0.9 ≤ cos d) (d1' : 0.9 ≤ cos d') (de : |d - e| ≤ 0.007) (de' : |d' - e| ≤ 0.007) (k1 : |cos k| ≤ 0.3421)
    (horizon : sin f * sin e + cos f * cos e * cos k = sin (-o)) (o0 : 0 ≤ o) (o1 : o ≤ 0.0146)
    (hk : |H - k| ≤ 0.0472) (hk' : |H' - k| ≤ 0.0472) (hs : 0.92 ≤ sin H) (hs' : 0.92 ≤ sin H')
    (hy : |H - H' - y| ≤ 0.0013 * |y|) (dd : |d - d'| ≤ 0.0023 * |y|) :
    |y + (arcsin (sin f * sin d + cos f * cos d * cos H) + o) / (cos d * cos f * sin H) -
      (arcsin (sin f * sin d' + cos f * cos d' * cos H') + o) / (cos d' * cos f * sin H')| ≤ 0.12 * |y| := by
  obtain ⟨-, hS1, -⟩ := newton_base f2 e1 de k1 horizon o0 o1 hk
  obtain ⟨-, hS1', -⟩ := newton_base f2 e1 de' k1 horizon o0 o1 hk'
  have hG' := altitude_small f2 e1 de' k1 horizon o0 o1 hk'
  set S := sin f * sin d + cos f * cos d * cos H with hS
  set S' := sin f * sin d' + cos f * cos d' * cos H' with hS'
  have y0 := abs_nonneg y
  have hSr := abs_le.mp hS1
  have hSr' := abs_le.mp hS1'
  have sA : sin (arcsin S) = S := sin_arcsin (by linarith) (by linarith)
  have sA' : sin (arcsin S') = S' := sin_arcsin (by linarith) (by linarith)
  obtain ⟨x, x0, x1, ex⟩ := sin_mean (arcsin S) (arcsin S')
  obtain ⟨x2, x3, x4⟩ := sin_between (B := 0.067) (neg_pi_div_two_le_arcsin S) (arcsin_le_pi_div_two S)
    (neg_pi_div_two_le_arcsin S') (arcsin_le_pi_div_two S') x0 x1 (by rw [sA]; exact hS1) (by rw [sA']; exact hS1')
  have cx := cos_near_zero x3 x4 x2
  have cx1 := cos_le_one x
  rw [sA, sA'] at ex
  -- the hour angles
  have near : ∀ t, min H H' ≤ t → t ≤ max H H' → |cos t| ≤ 0.3893 := by
    intro t t0 t1
    have tk : |t - k| ≤ 0.0472 := by
      rw [abs_le] at hk hk' ⊢
      rcases min_le_iff.mp t0 with g | g <;> rcases le_max_iff.mp t1 with g' | g' <;> constructor <;> linarith
    have := (abs_cos_sub_cos_le t k).trans tk
    rw [abs_le] at *
    constructor <;> linarith
  have yb : |H - H'| ≤ 1.0013 * |y| := by
    have : H - H' = (H - H' - y) + y := by ring
    rw [this]
    refine (abs_add_le _ _).trans ?_
    linarith
  obtain ⟨z, z0, z1, ez⟩ := cos_mean H H'
  have zH : |sin H - sin z| ≤ 0.0368 := by
    obtain ⟨t, t0, t1, q⟩ := sin_mean H z
    have hz : |H - z| ≤ 0.0944 := by
      rw [abs_le] at hk hk' ⊢
      rcases min_le_iff.mp z0 with g | g <;> rcases le_max_iff.mp z1 with g' | g' <;> constructor <;> linarith
    have ct := near t (le_trans (le_min (min_le_left _ _) z0) t0) (le_trans t1 (max_le (le_max_left _ _) z1))
    rw [q, abs_mul]
    have := mul_le_mul ct hz (abs_nonneg _) (by norm_num)
    linarith
  have sH : |sin H - sin H'| ≤ 0.3899 * |y| := by
    obtain ⟨t, t0, t1, q⟩ := sin_mean H H'
    rw [q, abs_mul]
    have := mul_le_mul (near t t0 t1) yb (abs_nonneg _) (by norm_num)
    linarith
  have sd : |sin d - sin d'| ≤ 0.0023 * |y| := (abs_sin_sub_sin_le d d').trans dd
  have cd : |cos d - cos d'| ≤ 0.0023 * |y| := (abs_cos_sub_cos_le d d').trans dd
  set p := sin f * (sin d - sin d') + cos f * (cos d - cos d') * cos H' with hp
  have bp : |p| ≤ 0.0037 * |y| := by
    rw [hp]
    refine (abs_add_le _ _).trans ?_
    rw [abs_mul, abs_mul, abs_mul]
    have q4 := mul_le_mul f2 sd (abs_nonneg _) (by norm_num)
    have q5 := mul_le_mul (abs_cos_le_one f) cd (abs_nonneg _) (by norm_num)
    have q6 := mul_le_mul q5 (abs_cos_le_one H') (abs_nonneg _) (by positivity)
    linarith
  have eS : S - S' = p + cos f * cos d * (-sin z * (H - H')) := by
    rw [← ez, hS, hS', hp]
    ring
  rw [eS] at ex
  have Q0 : ∀ {c h : ℝ}, 0.9 ≤ c → 0.92 ≤ h → 0.6698 ≤ c * cos f * h := by
    intro c h hc hh
    have q1 := mul_le_mul hc f1 (by norm_num) (by linarith)
    have q2 := mul_le_mul q1 hh (by norm_num) (mul_nonneg (by linarith) (by linarith))
    linarith
  have Q1 := Q0 d1 hs
  have Q2 := Q0 d1' hs'
  have cQ : 0.6677 ≤ cos x * (cos d * cos f * sin H) := by
    have q1 := mul_le_mul cx Q1 (by norm_num) (by linarith)
    linarith
  set Q := cos d * cos f * sin H with hQ
  set Q' := cos d' * cos f * sin H' with hQ'
  have Qne : Q ≠ 0 := by
    intro h
    rw [h] at Q1
    norm_num at Q1
  have Qne' : Q' ≠ 0 := by
    intro h
    rw [h] at Q2
    norm_num at Q2
  have cne : cos x ≠ 0 := by
    intro h
    rw [h] at cx
    norm_num at cx
  have hcc : |cos f * cos d| ≤ 1 := by
    rw [abs_mul]
    exact mul_le_one₀ (abs_cos_le_one f) (abs_nonneg _) (abs_cos_le_one d)
  have main : y + (arcsin S + o) / Q - (arcsin S' + o) / Q' =
      (p + cos f * cos d * (-sin z * (H - H' - y)) + cos f * cos d * (y * (cos x * sin H - sin z))) / (cos x * Q) +
      (arcsin S' + o) * (Q' - Q) / (Q * Q') := by
    have a1 : (p + cos f * cos d * (-sin z * (H - H' - y)) + cos f * cos d * (y * (cos x * sin H - sin z))) =
        cos x * (arcsin S - arcsin S') + cos x * Q * y := by
      rw [← ex, hQ]
      ring
    rw [a1]
    field_simp
    ring
  have n1 : |cos x * sin H - sin z| ≤ 0.0398 := by
    have e1 : cos x * sin H - sin z = (cos x - 1) * sin H + (sin H - sin z) := by ring
    rw [e1]
    refine (abs_add_le _ _).trans ?_
    rw [abs_mul]
    have q2 : |cos x - 1| ≤ 0.003 := by
      rw [abs_le]
      constructor <;> linarith
    have := mul_le_mul q2 (abs_sin_le_one H) (abs_nonneg _) (by norm_num)
    linarith
  have n2 : |cos f * cos d * (y * (cos x * sin H - sin z))| ≤ 0.0398 * |y| := by
    rw [abs_mul, abs_mul y]
    have q1 := mul_le_mul_of_nonneg_left n1 y0
    have := mul_le_mul hcc q1 (by positivity) (by norm_num)
    linarith
  have n3 : |cos f * cos d * (-sin z * (H - H' - y))| ≤ 0.0013 * |y| := by
    rw [abs_mul, abs_mul (-sin z), abs_neg]
    have q1 := mul_le_mul (abs_sin_le_one z) hy (abs_nonneg _) (by norm_num)
    have := mul_le_mul hcc q1 (by positivity) (by norm_num)
    linarith
  have n4 : |p + cos f * cos d * (-sin z * (H - H' - y)) + cos f * cos d * (y * (cos x * sin H - sin z))| ≤ 0.0448 * |y| := by
    refine (abs_add_le _ _).trans ?_
    have := abs_add_le p (cos f * cos d * (-sin z * (H - H' - y)))
    linarith
  have n5 : |(p + cos f * cos d * (-sin z * (H - H' - y)) + cos f * cos d * (y * (cos x * sin H - sin z))) / (cos x * Q)| ≤
      0.0672 * |y| := by
    rw [abs_div, abs_of_pos (show 0 < cos x * Q by linarith), div_le_iff₀ (by linarith)]
    have := mul_le_mul_of_nonneg_left cQ (show 0 ≤ 0.0672 * |y| by positivity)
    linarith
  have n6 : |Q' - Q| ≤ 0.3923 * |y| := by
    have e1 : Q' - Q = cos f * (-(cos d - cos d') * sin H' + -(cos d * (sin H - sin H'))) := by
      rw [hQ, hQ']
      ring
    rw [e1, abs_mul]
    have q1 : |-(cos d - cos d') * sin H' + -(cos d * (sin H - sin H'))| ≤ 0.3923 * |y| := by
      refine (abs_add_le _ _).trans ?_
      rw [abs_mul, abs_neg, abs_neg, abs_mul]
      have := mul_le_mul cd (abs_sin_le_one H') (abs_nonneg _) (by positivity)
      have := mul_le_mul (abs_cos_le_one d) sH (abs_nonneg _) (by norm_num)
      linarith
    have := mul_le_mul (abs_cos_le_one f) q1 (abs_nonneg _) (by norm_num)
    linarith
  have n7 : |(arcsin S' + o) * (Q' - Q) / (Q * Q')| ≤ 0.0461 * |y| := by
    have QQ : 0.4486 ≤ Q * Q' := by
      have := mul_le_mul Q1 Q2 (by norm_num) (by linarith)
      linarith
    rw [abs_div, abs_mul, abs_of_pos (show 0 < Q * Q' by linarith), div_le_iff₀ (by linarith)]
    have q1 := mul_le_mul hG' n6 (abs_nonneg _) (by norm_num)
    have := mul_le_mul_of_nonneg_left QQ (show 0 ≤ 0.0461 * |y| by positivity)
    linarith
  rw [main]
  refine (abs_add_le _ _).trans ?_
  linarith

end Verif.Solar
