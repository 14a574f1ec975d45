import Verif.Props.Seasons

/-!
# C80 and C81: the dates of the seasons, and the formula of Meeus
-/

namespace Verif

/-- The first and the last possible day of a season: 19 to 21 March, 19 to 22 June, 21 to 24 September, 20 to 23 December. -/
def seasonMonth (lam : ℤ) : ℤ := if lam = 0 then 3 else if lam = 90 then 6 else if lam = 180 then 9 else 12
def seasonFrom (lam : ℤ) : ℤ := if lam = 0 then 19 else if lam = 90 then 19 else if lam = 180 then 21 else 20
def seasonTo (lam : ℤ) : ℤ := if lam = 0 then 21 else if lam = 90 then 22 else if lam = 180 then 24 else 23

namespace Solar

/-- The number of the day `d` of the month that starts `c` days after the first of March, less one, for years after the reform. -/
def monthDay (g c d : ℤ) : ℤ := 1461 * g / 4 + c + d + (2 - g / 100 + g / 400)

def dateOk (g lam c a b : ℤ) : Bool :=
  decide ((monthDay g c a + 1720994) * 100000000000000000 + 52100000000000000 ≤ approxI g lam) &&
    decide (approxI g lam < (monthDay g c (b + 1) + 1720994) * 100000000000000000 + 47900000000000000)

def datesOk (g : ℤ) : Bool :=
  dateOk g 0 122 19 21 && dateOk g 90 214 19 22 && dateOk g 180 306 21 24 && dateOk g 270 397 20 23

set_option maxRecDepth 20000 in
theorem dates_table : (List.range 1422).all (fun i => datesOk (1583 + (i : ℤ))) = true := by decide +kernel

theorem dates_all {g : ℤ} (h0 : 1583 ≤ g) (h1 : g ≤ 3004) : datesOk g = true := by
  have h := dates_table
  rw [List.all_eq_true] at h
  have := h (g - 1583).toNat (by rw [List.mem_range]; omega)
  rwa [show 1583 + (((g - 1583).toNat : ℕ) : ℤ) = g by omega] at this

theorem monthDay_eq {g m c d : ℤ} (h : 1583 ≤ g) (hm : 2 < m) (hc : mTab m = c) : dayH g m d = monthDay g c d := by
  unfold dayH dayM shY shM mB monthDay
  rw [if_neg (by omega), if_neg (by omega), hc, if_pos (by unfold Reform; omega)]
  omega

end Solar

/-- C80: in the years 1583 to 3004 spring begins on 19, 20 or 21 March, summer on 19 to 22 June, autumn on 21 to 24 September and
winter on 20 to 23 December, Universal Time. -/
theorem C80_dates {g lam : ℤ} (h0 : 1583 ≤ g) (h1 : g ≤ 3004)
    (hl : lam = Solar.spring ∨ lam = Solar.summer ∨ lam = Solar.autumn ∨ lam = Solar.winter) {e : ℝ} (s : IsSeason g lam e) :
    ∃ a b : ℚ, jdFromGregorianMeeus ⟨g, seasonMonth lam, seasonFrom lam, []⟩ = .ok a ∧
      jdFromGregorianMeeus ⟨g, seasonMonth lam, seasonTo lam, []⟩ = .ok b ∧ a ≤ e ∧ e < b + 1 := by
  have all := Solar.dates_all h0 h1
  unfold Solar.datesOk at all
  simp only [Bool.and_eq_true] at all
  have n := abs_le.mp (s.approx (by omega) (by omega))
  have key : ∀ m c a b : ℤ, (m = 3 ∨ m = 6 ∨ m = 9 ∨ m = 12) → mTab m = c → 1 ≤ a → a ≤ 30 → 1 ≤ b → b ≤ 30 →
      Solar.dateOk g lam c a b = true → ∃ x y : ℚ, jdFromGregorianMeeus ⟨g, m, a, []⟩ = .ok x ∧
        jdFromGregorianMeeus ⟨g, m, b, []⟩ = .ok y ∧ x ≤ e ∧ e < y + 1 := by
    intro m c a b hm hc a0 a1 b0 b1 ok
    have v : ∀ d : ℤ, 1 ≤ d → d ≤ 30 → ValidG g m d := by
      intro d d0 d1
      refine ⟨by omega, by omega, d0, ?_⟩
      unfold specMonthLen
      rcases hm with rfl | rfl | rfl | rfl <;> simp <;> omega
    refine ⟨_, _, meeus_fwd (v a a0 a1) (by rw [abs_le]; omega) (by omega), meeus_fwd (v b b0 b1) (by rw [abs_le]; omega) (by omega),
      ?_, ?_⟩
    all_goals
      unfold Solar.dateOk at ok
      simp only [Bool.and_eq_true, decide_eq_true_eq] at ok
      obtain ⟨o1, o2⟩ := ok
      rw [Solar.approxI_eq] at n
      push_cast at n
      rw [Solar.monthDay_eq h0 (by omega) hc]
    · have o1' : ((Solar.monthDay g c a : ℝ) + 1720994) * 100000000000000000 + 52100000000000000 ≤ Solar.approxI g lam := by
        exact_mod_cast o1
      push_cast
      linarith [n.1, n.2]
    · have o2' : (Solar.approxI g lam : ℝ) < ((Solar.monthDay g c (b + 1) : ℝ) + 1720994) * 100000000000000000 + 47900000000000000 := by
        exact_mod_cast o2
      have e1 : Solar.monthDay g c (b + 1) = Solar.monthDay g c b + 1 := by unfold Solar.monthDay; ring
      rw [e1] at o2'
      push_cast at o2' ⊢
      linarith [n.1, n.2]
  rcases hl with rfl | rfl | rfl | rfl
  · exact key 3 122 19 21 (by norm_num) (by decide +kernel) (by norm_num) (by norm_num) (by norm_num) (by norm_num) all.1.1.1
  · exact key 6 214 19 22 (by norm_num) (by decide +kernel) (by norm_num) (by norm_num) (by norm_num) (by norm_num) all.1.1.2
  · exact key 9 306 21 24 (by norm_num) (by decide +kernel) (by norm_num) (by norm_num) (by norm_num) (by norm_num) all.1.2
  · exact key 12 397 20 23 (by norm_num) (by decide +kernel) (by norm_num) (by norm_num) (by norm_num) (by norm_num) all.2

/-- The winter of 1999. -/
example : ∃ e, IsSeason 1999 Solar.winter e := isSeason_exists (jd := 2451300) (by decide +kernel)

/-! ## C81 -/

/-- The moment of a season by Meeus, Astronomical Algorithms, chapter 27: Δλ = 1 + 0.0334 cos W + 0.0007 cos 2W, in Dynamical
Time. -/
noncomputable def meeusMoment (g lam : ℤ) : ℝ :=
  let j : ℝ := (Solar.approxSeason g lam : ℚ)
  let T := (j - 2451545) / 36525
  let W := 35999.373 * T - 2.47
  j + 0.00001 * (Solar.seasonTerms.map (fun r => (r.1 : ℝ) * Solar.cosDeg (r.2.1 + r.2.2 * T))).sum /
    (1 + 0.0334 * Solar.cosDeg W + 0.0007 * Solar.cosDeg (2 * W))

theorem meeus_dl_bounds (W : ℝ) : 0.9659 ≤ 1 + 0.0334 * Solar.cosDeg W + 0.0007 * Solar.cosDeg (2 * W) ∧
    1 + 0.0334 * Solar.cosDeg W + 0.0007 * Solar.cosDeg (2 * W) ≤ 1.0341 := by
  have a := abs_le.mp (Solar.abs_cosDeg W)
  have b := abs_le.mp (Solar.abs_cosDeg (2 * W))
  constructor <;> linarith [a.1, a.2, b.1, b.2]

/-- C81, years 1 to 3004: the moment is that of Meeus in Dynamical Time, to within 127 seconds. Missing from the full property:
the conversion to Universal Time, and the divisor, see `C81_universal_time_negation` and `C81_divisor_negation`. -/
theorem C81_meeus_partial {g lam : ℤ} (h0 : 1 ≤ g) (h1 : g ≤ 3004) {e : ℝ} (s : IsSeason g lam e) :
    |e - meeusMoment g lam| ≤ 127 / 86400 := by
  have n := abs_le.mp (s.near h0 (by omega))
  unfold meeusMoment
  simp only
  unfold Solar.seasonJde at n
  simp only at n
  change -_ ≤ _ - (_ + 0.00001 * Solar.seasonS ((((Solar.approxSeason g lam : ℚ) : ℝ) - 2451545) / 36525) /
    Solar.seasonDl ((((Solar.approxSeason g lam : ℚ) : ℝ) - 2451545) / 36525)) ∧
    _ - (_ + 0.00001 * Solar.seasonS ((((Solar.approxSeason g lam : ℚ) : ℝ) - 2451545) / 36525) /
    Solar.seasonDl ((((Solar.approxSeason g lam : ℚ) : ℝ) - 2451545) / 36525)) ≤ _ at n
  generalize (((Solar.approxSeason g lam : ℚ) : ℝ) - 2451545) / 36525 = T at *
  change |_ - (_ + 0.00001 * Solar.seasonS T / _)| ≤ _
  have b := Solar.seasonS_abs T
  obtain ⟨d0, d1⟩ := Solar.seasonDl_bounds T
  obtain ⟨m0, m1⟩ := meeus_dl_bounds (35999.373 * T - 2.47)
  generalize 1 + 0.0334 * Solar.cosDeg (35999.373 * T - 2.47) + 0.0007 * Solar.cosDeg (2 * (35999.373 * T - 2.47)) = M at *
  generalize Solar.seasonDl T = L at *
  generalize Solar.seasonS T = S at *
  have q : |0.00001 * S / L - 0.00001 * S / M| ≤ 0.001447 := by
    have f : 0.00001 * S / L - 0.00001 * S / M = 0.00001 * (S * (M - L) / (L * M)) := by
      have : L ≠ 0 := by linarith
      have : M ≠ 0 := by linarith
      field_simp
    have p : 0 < L * M := by apply mul_pos <;> linarith
    rw [f, abs_mul, abs_div, abs_mul, abs_of_pos p, abs_of_pos (show (0 : ℝ) < 0.00001 by norm_num)]
    have w : |M - L| ≤ 0.0675 := by rw [abs_le]; constructor <;> linarith
    have := div_le_div₀ (by norm_num) (mul_le_mul b w (abs_nonneg _) (by norm_num)) (by norm_num)
      (mul_le_mul d0 m0 (by norm_num) (by linarith))
    calc _ ≤ 0.00001 * (2000 * 0.0675 / (0.9666 * 0.9659)) := mul_le_mul_of_nonneg_left this (by norm_num)
      _ ≤ _ := by norm_num
  rw [abs_le] at *
  constructor <;> norm_num at * <;> linarith [n.1, n.2, q.1, q.2]

theorem moments_near {g lam : ℤ} {j : ℤ} (hj : Solar.approxI g lam = j) {x s p q r : ℕ}
    (hx : (j + 120095500000000000000000) / 3652500000 = x) (hs : Solar.sumN x Solar.natTerms = s)
    (hp : Solar.cosN (Solar.angleN x 60230700 35999373) = p) (hq : Solar.cosN (Solar.angleN x 120460000 71998746) = q)
    (hr : Solar.cosN (Solar.angleN x 60230000 35999373) = r) {l m v : ℝ}
    (hl : l = 1 + 0.0334 * ((p : ℝ) / 1000000000 - 1) * ((q : ℝ) / 1000000000 - 1))
    (hm : m = 1 + 0.0334 * ((r : ℝ) / 1000000000 - 1) + 0.0007 * ((q : ℝ) / 1000000000 - 1)) (m0 : 0.9667 ≤ m)
    (hv : v = 0.00001 * ((s : ℝ) / 1000000000 - 1978) / l - 0.00001 * ((s : ℝ) / 1000000000 - 1978) / m) :
    |Solar.seasonJde g lam - meeusMoment g lam - v| ≤ 0.0000002 := by
  have hA : ((Solar.approxSeason g lam : ℚ) : ℝ) = (j : ℝ) / 100000000000000000 := by
    rw [Solar.approxI_eq, hj]; push_cast; rfl
  have hx' : |((Solar.approxSeason g lam : ℚ) - 2451545 : ℝ) / 36525 - ((x : ℝ) / 1000000000000 - 100)| ≤ 0.000000000001 := by
    have d := Solar.div_floor (n := j + 120095500000000000000000) (d := 3652500000) (by norm_num)
    rw [hx, abs_le] at d
    rw [hA, abs_le]
    push_cast at d
    constructor <;> linarith [d.1, d.2]
  unfold meeusMoment Solar.seasonJde Solar.julianCenturies
  simp only
  change |_ - (_ + 0.00001 * Solar.seasonS _ / _) - v| ≤ _
  generalize ((Solar.approxSeason g lam : ℚ) - 2451545 : ℝ) / 36525 = T at *
  have a := Solar.sumN_near hx'
  have b := Solar.seasonS_abs T
  obtain ⟨d0, d1⟩ := Solar.seasonDl_bounds T
  have w1 := Solar.angle_near hx' (b := 60230700) (c := 35999373) (by norm_num) 10000
  have w2 := Solar.angle_near hx' (b := 120460000) (c := 71998746) (by norm_num) 20000
  have w3 := Solar.angle_near hx' (b := 60230000) (c := 35999373) (by norm_num) 10000
  have e1 : (((60230700 : ℕ) : ℝ) / 1000000 + ((35999373 : ℕ) : ℝ) / 10 - 360 * ((10000 : ℤ) : ℝ) + ((35999373 : ℕ) : ℝ) / 1000 * T) =
      Solar.seasonW T + 0.0007 := by unfold Solar.seasonW; push_cast; ring
  have e2 : (((120460000 : ℕ) : ℝ) / 1000000 + ((71998746 : ℕ) : ℝ) / 10 - 360 * ((20000 : ℤ) : ℝ) + ((71998746 : ℕ) : ℝ) / 1000 * T) =
      2 * Solar.seasonW T := by unfold Solar.seasonW; push_cast; ring
  have e3 : (((60230000 : ℕ) : ℝ) / 1000000 + ((35999373 : ℕ) : ℝ) / 10 - 360 * ((10000 : ℤ) : ℝ) + ((35999373 : ℕ) : ℝ) / 1000 * T) =
      Solar.seasonW T := by unfold Solar.seasonW; push_cast; ring
  rw [e1, hp] at w1
  rw [e2, hq] at w2
  rw [e3, hr] at w3
  rw [hs] at a
  have dl := Solar.dl_near (Solar.abs_cosDeg _) (Solar.abs_cosDeg _) w1 w2
  rw [← hl] at dl
  change |Solar.seasonDl T - _| ≤ _ at dl
  have q1 := Solar.quot_near a b d0 dl
  have hW : 35999.373 * T - 2.47 = Solar.seasonW T := rfl
  rw [hW]
  have dm : |1 + 0.0334 * Solar.cosDeg (Solar.seasonW T) + 0.0007 * Solar.cosDeg (2 * Solar.seasonW T) - m| ≤ 0.0000001 := by
    rw [hm]
    rw [abs_le] at w2 w3 ⊢
    constructor <;> norm_num at * <;> linarith [w2.1, w2.2, w3.1, w3.2]
  have dm' := abs_le.mp dm
  have q2 := Solar.quot_near a b (by linarith [dm'.1, dm'.2]) dm
  generalize 0.00001 * Solar.seasonS T / Solar.seasonDl T = Q1 at *
  generalize 0.00001 * Solar.seasonS T / (1 + 0.0334 * Solar.cosDeg (Solar.seasonW T) +
    0.0007 * Solar.cosDeg (2 * Solar.seasonW T)) = Q2 at *
  rw [abs_le] at q1 q2 ⊢
  constructor <;> linarith only [q1.1, q1.2, q2.1, q2.2, hv]

/-- C81, the divisor: the vernal equinox of 2980 is 24 seconds before the one of the formula, as `0.0007` stands within the
cosine and its coefficient is multiplied with the one of the next. -/
theorem C81_divisor_negation {e : ℝ} (s : IsSeason 2980 Solar.spring e) : e < meeusMoment 2980 Solar.spring - 24 / 86400 := by
  have n := abs_le.mp (s.near (by norm_num) (by norm_num))
  have m := moments_near (g := 2980) (lam := Solar.spring) (j := 280956138164822702880000) (by decide +kernel)
    (x := 109801954323017) (by decide +kernel) (s := 767369273601) (by decide +kernel) (p := 1473465667) (by decide +kernel)
    (q := 448359866) (by decide +kernel) (r := 1473476428) (by decide +kernel) rfl rfl (by norm_num) rfl
  norm_num at m n
  rw [abs_le] at m
  linarith [m.1, m.2, n.1, n.2]

example : ∃ e, IsSeason 2980 Solar.spring e := isSeason_exists (jd := 2809530) (by decide +kernel)

/-- The moment of the spring of a year in Universal Time: the difference of Dynamical and Universal Time in seconds is the one of
`_delta_t(jde, seconds=True)` for March. -/
noncomputable def meeusSpringUniversal (g : ℤ) : ℝ :=
  meeusMoment g 0 - (Solar.deltaTSeconds (g + (3 - 1 / 2) / 12) : ℚ) / 86400

/-- C81, Universal Time: the vernal equinox of 2024 is more than 70 seconds after that of the formula in Universal Time, and the
one of the year 100 more than two and a half hours. `_delta_t` returns days already and they are divided by 86400 once more. -/
theorem C81_universal_time_negation {e e' : ℝ} (s : IsSeason 2024 Solar.spring e) (s' : IsSeason 100 Solar.spring e') :
    meeusSpringUniversal 2024 + 70 / 86400 < e ∧ meeusSpringUniversal 100 + 9000 / 86400 < e' := by
  constructor
  · have n := abs_le.mp (s.near (by norm_num) (by norm_num))
    have m := moments_near (g := 2024) (lam := Solar.spring) (j := 246038962684667643424768) (by decide +kernel)
      (x := 100242152685740) (by decide +kernel) (s := 2333593266590) (by decide +kernel) (p := 1260916332) (by decide +kernel)
      (q := 136167018) (by decide +kernel) (r := 1260928127) (by decide +kernel) rfl rfl (by norm_num) rfl
    unfold meeusSpringUniversal
    have d : Solar.deltaTSeconds (((2024 : ℤ) : ℚ) + (3 - 1 / 2) / 12) = 4735654101 / 64000000 := by decide +kernel
    rw [d]
    change meeusMoment 2024 Solar.spring - _ + _ < _
    norm_num at m n ⊢
    rw [abs_le] at m
    linarith [m.1, m.2, n.1, n.2]
  · have n := abs_le.mp (C81_meeus_partial (by norm_num) (by norm_num) s')
    unfold meeusSpringUniversal
    have d : (9200 : ℚ) ≤ Solar.deltaTSeconds (((100 : ℤ) : ℚ) + (3 - 1 / 2) / 12) := by decide +kernel
    have d' := Solar.castGe d (B := 9200) (by norm_num)
    generalize Solar.deltaTSeconds (((100 : ℤ) : ℚ) + (3 - 1 / 2) / 12) = w at *
    change meeusMoment 100 Solar.spring - _ + _ < _
    linarith [n.1, n.2]

example : (∃ e, IsSeason 2024 Solar.spring e) ∧ ∃ e, IsSeason 100 Solar.spring e :=
  ⟨isSeason_exists (jd := 2460389.6) (by decide +kernel), isSeason_exists (jd := 1757700) (by decide +kernel)⟩

end Verif
