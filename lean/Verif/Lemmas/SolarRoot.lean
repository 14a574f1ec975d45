import Mathlib.Topology.MetricSpace.Contracting
import Verif.Lemmas.SolarDay

/-!
# The corrections converge to the moment on the horizon
-/

namespace Verif.Solar

open Real

/-- Two times near the horizon come together by the correction. -/
theorem correction_contract {jd : ℚ} {lat lon : ℝ} {D : ℤ} (h : AtMidnight jd lon D) (hl : |lat| ≤ 36) {s : ℝ}
    (hs : s = 1 ∨ s = -1) {m m' : ℝ} (hm : Near jd lat lon s m) (hm' : Near jd lat lon s m') :
    |m + correction jd lat lon m - (m' + correction jd lat lon m')| ≤ 0.12 * |m - m'| := by
  obtain ⟨ht, hd⟩ := midnight_tc h
  obtain ⟨a0, a1, a2⟩ := hourAngle_bounds (tc := julianCenturies jd) (lat := lat) (by linarith) hl
  obtain ⟨c0, c1, c2⟩ := cosH0_bounds (tc := julianCenturies jd) (lat := lat) (by linarith) hl
  obtain ⟨l0, l1⟩ := lat_trig hl
  obtain ⟨d0, d1⟩ := declination_bounds (t := julianCenturies jd) (by linarith)
  obtain ⟨o0, o1, -, -⟩ := offset_bounds
  obtain ⟨-, sHk, hsin, ddr, dcos, corr⟩ := near_point h hl hs hm
  obtain ⟨-, sHk', hsin', ddr', dcos', corr'⟩ := near_point h hl hs hm'
  obtain ⟨m0, m1, u0, u1⟩ := near_time h hl hs hm
  obtain ⟨m0', m1', u0', u1'⟩ := near_time h hl hs hm'
  obtain ⟨x, a, b, a3, a4, b3, b4, form⟩ := hourAngleAt_form h
  obtain ⟨p, q, hp, hq, dform⟩ := interpolatedDeclination_form (t := julianCenturies jd) (by linarith)
  have dd := time_shift hd
  rw [abs_le] at dd
  have s2 : s * s = 1 := by rcases hs with rfl | rfl <;> norm_num
  have sabs : |s| = 1 := by rcases hs with rfl | rfl <;> norm_num
  set n := m + (deltaT jd : ℝ) / 86400 with hn
  set n' := m' + (deltaT jd : ℝ) / 86400 with hn'
  have nm : n - n' = m - m' := by rw [hn, hn']; ring
  have n0 : 0 ≤ n := by norm_num at *; linarith
  have n1 : n ≤ 0.85 := by norm_num at *; linarith
  have n0' : 0 ≤ n' := by norm_num at *; linarith
  have n1' : n' ≤ 0.85 := by norm_num at *; linarith
  set y := radians (s * (360 * (m - m'))) with hy
  have ym : |y| = radians (360 * |m - m'|) := by
    rw [hy, radians_abs, abs_mul, sabs, one_mul, abs_mul, abs_of_pos (show (0 : ℝ) < 360 by norm_num)]
  have mm := abs_nonneg (m - m')
  have H1 : |dayHourAngle jd lon m - dayHourAngle jd lon m' - 360 * (m - m')| ≤ 0.0013 * (360 * |m - m'|) := by
    have e1 := (form m m0 m1 u0 u1).1
    have e2 := (form m' m0' m1' u0' u1').1
    have ic := interpolation_change (a := a) (b := b) n0 n1 n0' n1' 1.05 0.22 (by
      rw [abs_le]; constructor <;> norm_num at * <;> linarith) (by
      rw [abs_le]; constructor <;> norm_num at * <;> linarith)
    have e3 : dayHourAngle jd lon m - dayHourAngle jd lon m' - 360 * (m - m') =
        -0.06435263371 * (m - m') - (n / 2 * (a + b + n * (b - a)) - n' / 2 * (a + b + n' * (b - a)) - 1.05 * (n - n')) := by
      unfold dayHourAngle
      rw [e1, e2, nm]
      ring
    rw [e3]
    refine (abs_sub _ _).trans ?_
    rw [abs_mul, nm] at *
    rw [abs_of_neg (show (-0.06435263371 : ℝ) < 0 by norm_num)]
    linarith
  have D1 : |dayDeclination jd m - dayDeclination jd m'| ≤ 0.0023 * (360 * |m - m'|) := by
    have ic := interpolation_change (a := p) (b := q) n0 n1 n0' n1' 0 0.4711 (by rwa [sub_zero]) (by rwa [sub_zero])
    have e3 : dayDeclination jd m - dayDeclination jd m' =
        n / 2 * (p + q + n * (q - p)) - n' / 2 * (p + q + n' * (q - p)) - 0 * (n - n') := by
      unfold dayDeclination
      rw [dform, dform]
      ring
    rw [e3]
    refine ic.trans ?_
    rw [nm]
    linarith
  have rs : ∀ c : ℝ, radians (c * (360 * |m - m'|)) = c * |y| := by
    intro c
    rw [ym]
    unfold radians
    ring
  have step := newton_contract (f := radians lat) (e := radians (declination (julianCenturies jd)))
    (d := radians (dayDeclination jd m)) (d' := radians (dayDeclination jd m'))
    (k := radians (approxHourAngle (julianCenturies jd) lat sunOffset))
    (H := radians (s * dayHourAngle jd lon m)) (H' := radians (s * dayHourAngle jd lon m'))
    (o := radians sunOffset) (y := y) l0 l1 d0 dcos dcos' ddr ddr'
    (by
      change |cosDeg _| ≤ _
      rw [a2, abs_le]
      constructor <;> norm_num at * <;> linarith)
    (by
      rw [← radians_neg]
      change _ + _ * cosDeg _ = _
      rw [a2]
      exact c2)
    (by norm_num at *; linarith) o1
    (by
      rw [← radians_sub]
      exact (radians_bound sHk).trans (by norm_num))
    (by
      rw [← radians_sub]
      exact (radians_bound sHk').trans (by norm_num))
    hsin hsin'
    (by
      rw [hy, ← radians_sub, ← radians_sub, radians_abs, ← mul_sub, ← mul_sub, abs_mul, sabs, one_mul, ← hy, ← rs]
      exact radians_le H1)
    (by
      rw [← radians_sub, radians_abs, ← rs]
      exact radians_le D1)
  have key : |s * (360 * (m - m')) + s * (360 * correction jd lat lon m) - s * (360 * correction jd lat lon m')| ≤
      0.12 * (360 * |m - m'|) := by
    rw [corr, corr']
    have e1 : s * (360 * (m - m')) = degrees y := (degrees_radians _).symm
    rw [e1, ← degrees_add, ← degrees_sub, degrees_abs, degrees_le_iff, rs]
    exact step
  have e2 : s * (360 * (m - m')) + s * (360 * correction jd lat lon m) - s * (360 * correction jd lat lon m') =
      s * (360 * (m + correction jd lat lon m - (m' + correction jd lat lon m'))) := by ring
  rw [e2, abs_mul, sabs, one_mul, abs_mul, abs_of_pos (show (0 : ℝ) < 360 by norm_num)] at key
  linarith

/-- The correction is at most four and a half degrees. -/
theorem correction_small {jd : ℚ} {lat lon : ℝ} {D : ℤ} (h : AtMidnight jd lon D) (hl : |lat| ≤ 36) {s : ℝ}
    (hs : s = 1 ∨ s = -1) {m : ℝ} (hm : Near jd lat lon s m) : |correction jd lat lon m| ≤ 4 / 360 := by
  have h1 := correction_step h hl hs hm
  unfold Near at h1 hm
  have sabs : |s| = 1 := by rcases hs with rfl | rfl <;> norm_num
  have e : s * (360 * correction jd lat lon m) =
      (s * (360 * (m + correction jd lat lon m - transit jd lon)) - approxHourAngle (julianCenturies jd) lat sunOffset) -
      (s * (360 * (m - transit jd lon)) - approxHourAngle (julianCenturies jd) lat sunOffset) := by ring
  have e2 : |s * (360 * correction jd lat lon m)| ≤ 4 := by
    rw [e]
    refine (abs_sub _ _).trans ?_
    linarith
  rw [abs_mul, sabs, one_mul, abs_mul, abs_of_pos (show (0 : ℝ) < 360 by norm_num)] at e2
  rw [le_div_iff₀ (by norm_num)]
  linarith

theorem correction_next {jd : ℚ} {lat lon : ℝ} {D : ℤ} (h : AtMidnight jd lon D) (hl : |lat| ≤ 36) {s : ℝ}
    (hs : s = 1 ∨ s = -1) {m : ℝ} (hm : Near jd lat lon s m) :
    |correction jd lat lon (m + correction jd lat lon m)| ≤ 0.12 * |correction jd lat lon m| := by
  have := correction_contract h hl hs (correction_step h hl hs hm) hm
  rwa [add_sub_cancel_left, add_sub_cancel_left] at this

/-- After the rounds the correction is small. -/
theorem refine_residual {jd : ℚ} {lat lon : ℝ} {D : ℤ} (h : AtMidnight jd lon D) (hl : |lat| ≤ 36) {s : ℝ}
    (hs : s = 1 ∨ s = -1) {m : ℝ} (hm : Near jd lat lon s m) :
    |correction jd lat lon (refineTime (julianCenturies jd) (apparentSiderealTime (julianCenturies jd)) (deltaT jd : ℝ) lat
      lon sunOffset 3 m)| ≤ 0.00002 := by
  have key : ∀ (n : ℕ) (m : ℝ), Near jd lat lon s m → |correction jd lat lon m| ≤ 4 / 360 * 0.12 ^ (3 - n) → n ≤ 3 →
      |correction jd lat lon (refineTime (julianCenturies jd) (apparentSiderealTime (julianCenturies jd)) (deltaT jd : ℝ) lat
        lon sunOffset n m)| ≤ 0.00002 := by
    intro n
    induction n with
    | zero =>
      intro m _ hb _
      refine hb.trans ?_
      norm_num
    | succ n ih =>
      intro m hm hb hn
      have nx := correction_next h hl hs hm
      unfold refineTime
      simp only
      change |correction jd lat lon (if |correction jd lat lon m| < _ then m + correction jd lat lon m else _)| ≤ _
      split_ifs with hc
      · refine nx.trans ?_
        norm_num at *
        linarith
      · apply ih _ (correction_step h hl hs hm) _ (by omega)
        refine nx.trans ?_
        have e : 3 - n = (3 - (n + 1)) + 1 := by omega
        rw [e, pow_succ]
        linarith
  exact key 3 m hm (by rw [Nat.sub_self, pow_zero, mul_one]; exact correction_small h hl hs hm) (le_refl _)

/-- A time near the horizon where the correction vanishes. -/
theorem exists_root {jd : ℚ} {lat lon : ℝ} {D : ℤ} (h : AtMidnight jd lon D) (hl : |lat| ≤ 36) {s : ℝ}
    (hs : s = 1 ∨ s = -1) {m : ℝ} (hm : Near jd lat lon s m) :
    ∃ t, Near jd lat lon s t ∧ correction jd lat lon t = 0 ∧ |m - t| ≤ |correction jd lat lon m| / 0.88 := by
  set S : Set ℝ := {t | Near jd lat lon s t} with hS
  have closed : IsClosed S := by
    have : S = {t | |s * (360 * (t - transit jd lon)) - approxHourAngle (julianCenturies jd) lat sunOffset| ≤ 2} := rfl
    rw [this]
    apply isClosed_le _ continuous_const
    fun_prop
  have maps : Set.MapsTo (fun t => t + correction jd lat lon t) S S := fun t ht => correction_step h hl hs ht
  have contr : ContractingWith 0.12 (maps.restrict (fun t => t + correction jd lat lon t) S S) := by
    refine ⟨?_, ?_⟩
    · rw [← NNReal.coe_lt_coe]
      norm_num
    · apply LipschitzWith.of_dist_le_mul
      rintro ⟨t, ht⟩ ⟨u, hu⟩
      change dist (t + correction jd lat lon t) (u + correction jd lat lon u) ≤ _ * dist t u
      rw [Real.dist_eq, Real.dist_eq]
      refine (correction_contract h hl hs ht hu).trans (le_of_eq ?_)
      norm_num
  obtain ⟨t, ht, fix, -, -⟩ := contr.exists_fixedPoint' closed.isComplete maps (x := m) hm (edist_ne_top _ _)
  have z : correction jd lat lon t = 0 := by
    have : t + correction jd lat lon t = t := fix
    linarith
  refine ⟨t, ht, z, ?_⟩
  have c := correction_contract h hl hs hm ht
  rw [z, add_zero] at c
  rw [le_div_iff₀ (by norm_num)]
  have : |m - t| ≤ |m + correction jd lat lon m - t| + |correction jd lat lon m| := by
    have e : m - t = (m + correction jd lat lon m - t) - correction jd lat lon m := by ring
    calc |m - t| = |(m + correction jd lat lon m - t) - correction jd lat lon m| := by rw [← e]
      _ ≤ _ := abs_sub _ _
  linarith

/-- Where the correction vanishes the sun is on the horizon. -/
theorem root_altitude {jd : ℚ} {lat lon : ℝ} {D : ℤ} (h : AtMidnight jd lon D) (hl : |lat| ≤ 36) {s : ℝ}
    (hs : s = 1 ∨ s = -1) {t : ℝ} (ht : Near jd lat lon s t) (hz : correction jd lat lon t = 0) :
    altitude (dayDeclination jd t) lat (dayHourAngle jd lon t) = -sunOffset := by
  obtain ⟨l0, -⟩ := lat_trig hl
  obtain ⟨-, -, hsin, -, dcos, -⟩ := near_point h hl hs ht
  have e : correction jd lat lon t = (altitude (dayDeclination jd t) lat (dayHourAngle jd lon t) + sunOffset) /
      (360 * cosDeg (dayDeclination jd t) * cosDeg lat * sinDeg (dayHourAngle jd lon t)) := rfl
  rw [e, div_eq_zero_iff] at hz
  rcases hz with hz | hz
  · linarith
  · exfalso
    have n1 : sinDeg (dayHourAngle jd lon t) ≠ 0 := by
      intro g
      have : sinDeg (s * dayHourAngle jd lon t) = 0 := by
        rcases hs with rfl | rfl
        · rw [one_mul, g]
        · unfold sinDeg at *
          rw [neg_one_mul, radians_neg, sin_neg, g, neg_zero]
      rw [this] at hsin
      norm_num at hsin
    have n2 : cosDeg (dayDeclination jd t) ≠ 0 := by
      intro g
      rw [g] at dcos
      norm_num at dcos
    have n3 : cosDeg lat ≠ 0 := by
      intro g
      rw [g] at l0
      norm_num at l0
    simp [n1, n2, n3] at hz

/-- The hour angle at such a time is that of the evening or of the morning. -/
theorem near_side {jd : ℚ} {lat lon : ℝ} {D : ℤ} (h : AtMidnight jd lon D) (hl : |lat| ≤ 36) {s : ℝ}
    (hs : s = 1 ∨ s = -1) {t : ℝ} (ht : Near jd lat lon s t) :
    69 ≤ s * dayHourAngle jd lon t ∧ s * dayHourAngle jd lon t ≤ 113 := by
  obtain ⟨htc, -⟩ := midnight_tc h
  obtain ⟨a0, a1, -⟩ := hourAngle_bounds (tc := julianCenturies jd) (lat := lat) (by linarith) hl
  obtain ⟨-, sHk, -, -, -, -⟩ := near_point h hl hs ht
  rw [abs_le] at sHk
  constructor <;> norm_num at * <;> linarith

/-- The first estimate is near itself. -/
theorem near_first (jd : ℚ) (lat lon : ℝ) {s : ℝ} (hs : s = 1 ∨ s = -1) :
    Near jd lat lon s (transit jd lon + s * (approxHourAngle (julianCenturies jd) lat sunOffset / 360)) := by
  unfold Near
  have : s * (360 * (transit jd lon + s * (approxHourAngle (julianCenturies jd) lat sunOffset / 360) - transit jd lon)) -
      approxHourAngle (julianCenturies jd) lat sunOffset = 0 := by
    rcases hs with rfl | rfl <;> ring
  rw [this, abs_zero]
  norm_num

/-- The time returned is near a moment with the sun on the horizon. -/
theorem risingSetting_root {jd : ℚ} {lat lon : ℝ} {D : ℤ} (h : AtMidnight jd lon D) (hl : |lat| ≤ 36) (b : Bool) :
    ∃ t, |risingSetting jd lat lon sunOffset b - t| ≤ 1 / 36000 ∧
      altitude (dayDeclination jd t) lat (dayHourAngle jd lon t) = -sunOffset ∧
      69 ≤ (if b then 1 else -1) * dayHourAngle jd lon t ∧ (if b then 1 else -1) * dayHourAngle jd lon t ≤ 113 := by
  set s : ℝ := if b then 1 else -1 with hs'
  have hs : s = 1 ∨ s = -1 := by cases b <;> simp [hs']
  have n1 := near_first jd lat lon hs
  have n2 := refine_near h hl hs 3 _ n1
  have res := refine_residual h hl hs n1
  have e : risingSetting jd lat lon sunOffset b = mod1 (refineTime (julianCenturies jd)
      (apparentSiderealTime (julianCenturies jd)) (deltaT jd : ℝ) lat lon sunOffset 3
      (transit jd lon + s * (approxHourAngle (julianCenturies jd) lat sunOffset / 360))) := by
    unfold risingSetting
    simp only
    cases b
    · simp only [hs', Bool.false_eq_true, if_false]
      rw [neg_one_mul, ← sub_eq_add_neg]
    · simp only [hs', if_true, one_mul]
  rw [e]
  generalize refineTime _ _ _ _ _ _ _ _ = r at n2 res ⊢
  obtain ⟨r0, r1, -, -⟩ := near_time h hl hs n2
  rw [mod1_eq (y := r) (k := 0) (by simp) (by norm_num at *; linarith) (by norm_num at *; linarith)]
  obtain ⟨t, ht, hz, hd⟩ := exists_root h hl hs n2
  refine ⟨t, hd.trans ?_, root_altitude h hl hs ht hz, near_side h hl hs ht⟩
  rw [div_le_iff₀ (by norm_num)]
  refine res.trans ?_
  norm_num

end Verif.Solar
