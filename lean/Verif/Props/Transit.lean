import Verif.Model.Transit
import Verif.Lemmas.SolarHigh

/-!
# C93: the transit of the sun

Exact arithmetic, for the days of the years 0 to 3008 and all longitudes.
-/

namespace Verif.Solar

open Real

theorem julian_tc {jd : ℚ} (h0 : 1720998 ≤ jd) (h1 : jd ≤ 2820002) : |julianCenturies jd| ≤ 20.01 := by
  have a : (1720998 : ℝ) ≤ jd := by exact_mod_cast h0
  have b : (jd : ℝ) ≤ 2820002 := by exact_mod_cast h1
  unfold julianCenturies
  rw [abs_le]
  constructor
  · rw [le_div_iff₀ (by norm_num)]; norm_num at *; linarith
  · rw [div_le_iff₀ (by norm_num)]; norm_num at *; linarith

theorem wrapOnce_spec {q : ℝ} (h0 : -1.5 < q) (h1 : q < 1.5) :
    ∃ i : ℤ, wrapOnce q = q + i ∧ -0.5 < wrapOnce q ∧ wrapOnce q ≤ 1 ∧ (0 ≤ wrapOnce q ∨ wrapOnce q = q + 1) := by
  unfold wrapOnce
  split_ifs with a b
  · exact ⟨1, by push_cast; ring, by norm_num at *; linarith, by linarith, Or.inr rfl⟩
  · exact ⟨-1, by push_cast; ring, by norm_num at *; linarith, by norm_num at *; linarith, Or.inl (by linarith)⟩
  · exact ⟨0, by push_cast; ring, by norm_num at *; linarith, by linarith, Or.inl (by linarith)⟩

theorem weights {n : ℝ} (n0 : -0.50001 ≤ n) (n1 : n ≤ 1.00001) : |n * (1 - n) / 2| + |n * (1 + n) / 2| ≤ 1.01 := by
  norm_num at n0 n1
  rcases le_or_gt 0 n with hn0 | hn0
  · rw [abs_of_nonneg (show 0 ≤ n * (1 + n) / 2 by positivity)]
    rcases le_or_gt n 1 with hn1 | hn1
    · rw [abs_of_nonneg (by have := mul_nonneg hn0 (sub_nonneg.2 hn1); linarith)]
      norm_num; nlinarith
    · rw [abs_of_nonpos (by have := mul_nonneg hn0 (sub_nonneg.2 hn1.le); linarith)]
      norm_num; nlinarith
  · have hn2 : 0 ≤ 1 + n := by linarith
    rw [abs_of_nonpos (by have := mul_nonneg (neg_nonneg.2 hn0.le) (show 0 ≤ 1 - n by linarith); linarith),
      abs_of_nonpos (by have := mul_nonneg (neg_nonneg.2 hn0.le) hn2; linarith)]
    norm_num; nlinarith

theorem first_error {a b n : ℝ} (a0 : 0.83 ≤ a) (a1 : a ≤ 1.27) (b0 : 0.83 ≤ b) (b1 : b ≤ 1.27) (n0 : -0.50001 ≤ n)
    (n1 : n ≤ 1.00001) : |0.98564736629 * n - n / 2 * (a + b + n * (b - a))| ≤ 0.3 := by
  have e : 0.98564736629 * n - n / 2 * (a + b + n * (b - a)) =
    (0.98564736629 - a) * (n * (1 - n) / 2) + (0.98564736629 - b) * (n * (1 + n) / 2) := by ring
  have f1 := weights n0 n1
  rw [e]
  have ca : |0.98564736629 - a| ≤ 0.29 := by rw [abs_le]; norm_num at *; constructor <;> linarith
  have cb : |0.98564736629 - b| ≤ 0.29 := by rw [abs_le]; norm_num at *; constructor <;> linarith
  refine (abs_add_le _ _).trans ?_
  rw [abs_mul, abs_mul]
  have q1 := mul_le_mul_of_nonneg_right ca (abs_nonneg (n * (1 - n) / 2))
  have q2 := mul_le_mul_of_nonneg_right cb (abs_nonneg (n * (1 + n) / 2))
  generalize |n * (1 - n) / 2| = u at *
  generalize |n * (1 + n) / 2| = v at *
  norm_num at *
  linarith

theorem second_error {a b n : ℝ} (a0 : 0.83 ≤ a) (a1 : a ≤ 1.27) (b0 : 0.83 ≤ b) (b1 : b ≤ 1.27) (n0 : -0.502 ≤ n)
    (n1 : n ≤ 1.002) : |0.98564736629 - (a * (1 / 2 - n) + b * (1 / 2 + n))| ≤ 0.5712 := by
  have e : 0.98564736629 - (a * (1 / 2 - n) + b * (1 / 2 + n)) =
    (0.98564736629 - a) * (1 / 2 - n) + (0.98564736629 - b) * (1 / 2 + n) := by ring
  have ca : |0.98564736629 - a| ≤ 0.285 := by rw [abs_le]; norm_num at *; constructor <;> linarith
  have cb : |0.98564736629 - b| ≤ 0.285 := by rw [abs_le]; norm_num at *; constructor <;> linarith
  have w : |1 / 2 - n| + |1 / 2 + n| ≤ 2.004 := by
    norm_num at n0 n1
    rcases le_or_gt n (1 / 2) with h | h <;> rcases le_or_gt (-(1 / 2)) n with g | g
    · rw [abs_of_nonneg (by linarith), abs_of_nonneg (by linarith)]; norm_num
    · rw [abs_of_nonneg (by linarith), abs_of_nonpos (by linarith)]; norm_num; linarith
    · rw [abs_of_nonpos (by linarith), abs_of_nonneg (by linarith)]; norm_num; linarith
    · linarith
  rw [e]
  refine (abs_add_le _ _).trans ?_
  rw [abs_mul, abs_mul]
  have q1 := mul_le_mul_of_nonneg_right ca (abs_nonneg (1 / 2 - n))
  have q2 := mul_le_mul_of_nonneg_right cb (abs_nonneg (1 / 2 + n))
  generalize |1 / 2 - n| = u at *
  generalize |1 / 2 + n| = v at *
  norm_num at *
  linarith

set_option maxHeartbeats 800000 in
/-- Everything that the statements need about one transit: the first time `m`, the correction `d / 360` and the hour angle
as a function of the time. -/
theorem transit_parts {jd : ℚ} {lon : ℝ} (h0 : 1720998 ≤ jd) (h1 : jd ≤ 2820002) (hl : |lon| ≤ 180) :
    ∃ m d E r : ℝ, ∃ k : ℤ, sunTransit jd lon = m - d / 360 ∧ -0.5 < m ∧ m ≤ 1 ∧ |d| ≤ 0.75 ∧ |E| ≤ 5.3 ∧
      360 * (jd + m) + lon = E + 360 * k ∧ |r| ≤ 0.0012 ∧
      hourAngleAt (julianCenturies jd) (apparentSiderealTime (julianCenturies jd)) (deltaT jd : ℝ) lon (m - d / 360) =
        r ∧ (0 ≤ m ∨ -lon / 360 < m) ∧
      m = wrapOnce ((rightAscension (julianCenturies jd + (deltaT jd : ℝ) / 36525) - lon -
        apparentSiderealTime (julianCenturies jd)) / 360) := by
  have ht := julian_tc h0 h1
  have hd := deltaT_abs h0 h1
  set tc := julianCenturies jd with htc
  have ejd : (jd : ℝ) = 2451545 + 36525 * tc := by rw [htc]; unfold julianCenturies; ring
  obtain ⟨x, j1, e1, bx', -⟩ := ascension_change (t := tc) (h := (deltaT jd : ℝ) / 36525) (by linarith) (by
    rw [abs_div, abs_of_pos (show (0 : ℝ) < 36525 by norm_num)]
    apply div_le_div_of_nonneg_right _ (by norm_num)
    linarith)
  have bx : |x| ≤ 0.4484 := by
    refine bx'.trans ?_
    rw [abs_div, abs_of_pos (show (0 : ℝ) < 36525 by norm_num)]
    have := abs_nonneg (deltaT jd : ℝ)
    rw [div_le_iff₀ (by norm_num)]
    norm_num at *
    linarith
  obtain ⟨y, j2, e2, b2⟩ := ascension_reduction (t := tc) (by linarith)
  obtain ⟨a, b, a0, a1, b0, b1, form⟩ := interpolatedAscension_form (t := tc) (by linarith)
  set nu := nutationLongitude tc * cosDeg (trueObliquity tc) with hnu
  have bn : |nu| ≤ 0.0056 := by
    rw [hnu, abs_mul]
    have := mul_le_mul (nutationLongitude_abs (tc := tc) (by linarith)) (abs_cosDeg (trueObliquity tc)) (abs_nonneg _)
      (by norm_num)
    linarith
  obtain ⟨k1, g1, -, -⟩ := coterminal_spec
    (280.46061837 + 360.98564736629 * (tc * 36525) + 0.000387933 * tc ^ 2 - tc ^ 3 / 38710000)
  obtain ⟨k2, g2, s0, s1⟩ := coterminal_spec (meanSiderealTime tc + nu)
  have g1' : meanSiderealTime tc = _ := g1
  have g2' : apparentSiderealTime tc = _ := g2
  have s0' : 0 ≤ apparentSiderealTime tc := s0
  have s1' : apparentSiderealTime tc < 360 := s1
  rw [g1'] at g2'
  have comm : (deltaT jd : ℝ) / 36525 + tc = tc + (deltaT jd : ℝ) / 36525 := add_comm _ _
  obtain ⟨-, -, r0, r1⟩ := ascension_eq (tc + (deltaT jd : ℝ) / 36525)
  have hl' := abs_le.1 hl
  set q := (rightAscension (tc + (deltaT jd : ℝ) / 36525) - lon - apparentSiderealTime tc) / 360 with hq
  obtain ⟨i, ei, m0, m1, m2⟩ := wrapOnce_spec (q := q)
    (by rw [hq, lt_div_iff₀ (by norm_num)]; norm_num; linarith) (by rw [hq, div_lt_iff₀ (by norm_num)]; norm_num; linarith)
  set m := wrapOnce q with hm
  have eq360 : 360 * m = rightAscension (tc + (deltaT jd : ℝ) / 36525) - lon - apparentSiderealTime tc + 360 * i := by
    rw [ei, hq]; ring
  set dt := (deltaT jd : ℝ) with hdt
  have dd := abs_le.1 (time_shift hd)
  -- the hour angle at the time u
  set P : ℝ → ℝ := fun n => n / 2 * (a + b + n * (b - a)) with hP
  have angle : ∀ u z : ℝ, 360 * (u - m) + x + 0.98564736629 * u - P (u + dt / 86400) = z → -180 < z → z ≤ 180 →
      hourAngleAt tc (apparentSiderealTime tc) dt lon u = z := by
    intro u z hz z0 z1
    unfold hourAngleAt
    apply localHourAngle_eq (k := i + j1) _ z0 z1
    rw [form, ← hz]
    rw [e1] at eq360
    push_cast
    linear_combination eq360
  obtain ⟨d, hd'⟩ : ∃ d, d = x + 0.98564736629 * m - P (m + dt / 86400) := ⟨_, rfl⟩
  have bd : |d| ≤ 0.75 := by
    obtain ⟨n, hn⟩ : ∃ n, n = m + dt / 86400 := ⟨_, rfl⟩
    have n0 : -0.50001 ≤ n := by norm_num at m0 dd ⊢; linarith
    have n1 : n ≤ 1.00001 := by norm_num at dd ⊢; linarith
    have em : m = n - dt / 86400 := by rw [hn]; ring
    rw [hd', ← hn, em]
    have hp : |0.98564736629 * n - P n| ≤ 0.3 := first_error a0 a1 b0 b1 n0 n1
    have hp' := abs_le.1 hp
    have bx2 := abs_le.1 bx
    clear hp form angle e1 e2 g1 g1' g2 g2' eq360
    generalize P n = z at *
    rw [abs_le]
    norm_num at dd bx2 hp' ⊢
    constructor <;> linarith
  have bd' := abs_le.1 bd
  have am : hourAngleAt tc (apparentSiderealTime tc) dt lon m = d :=
    angle m d (by rw [hd']; ring) (by norm_num at bd' ⊢; linarith) (by norm_num at bd' ⊢; linarith)
  obtain ⟨r, hr⟩ : ∃ r, r = 360 * (m - d / 360 - m) + x + 0.98564736629 * (m - d / 360) -
    P (m - d / 360 + dt / 86400) := ⟨_, rfl⟩
  have br : |r| ≤ 0.0012 := by
    obtain ⟨n, hn⟩ : ∃ n, n = m + dt / 86400 - d / 720 := ⟨_, rfl⟩
    have n0 : -0.502 ≤ n := by norm_num at m0 dd bd' ⊢; linarith
    have n1 : n ≤ 1.002 := by norm_num at dd bd' ⊢; linarith
    have e : r = -(d / 360) * (0.98564736629 - (a * (1 / 2 - n) + b * (1 / 2 + n))) := by
      rw [hr, hn]
      simp only [hP]
      linear_combination -hd'
    have cs := second_error a0 a1 b0 b1 n0 n1
    rw [e, abs_mul, abs_neg, abs_div, abs_of_pos (show (0 : ℝ) < 360 by norm_num)]
    have := mul_le_mul (div_le_div_of_nonneg_right bd (show (0 : ℝ) ≤ 360 by norm_num)) cs (abs_nonneg _) (by norm_num)
    norm_num at this ⊢
    linarith
  have br' := abs_le.1 br
  have q2 : |0.0000847330 * tc ^ 2| ≤ 0.034 := by
    rw [abs_mul, abs_of_pos (show (0 : ℝ) < 0.0000847330 by norm_num), abs_pow]
    have : |tc| ^ 2 ≤ 20.01 ^ 2 := pow_le_pow_left₀ (abs_nonneg _) ht 2
    norm_num at *
    linarith
  have q3 : |tc ^ 3 / 38710000| ≤ 0.0003 := by
    rw [abs_div, abs_of_pos (show (0 : ℝ) < 38710000 by norm_num), abs_pow, div_le_iff₀ (by norm_num)]
    have : |tc| ^ 3 ≤ 20.01 ^ 3 := pow_le_pow_left₀ (abs_nonneg _) ht 3
    norm_num at *
    linarith
  refine ⟨m, d, 0.00584163 + (36000.76983 - 0.98564736629 * 36525) * tc - 0.0000847330 * tc ^ 2 + tc ^ 3 / 38710000 +
    y + x - nu, r, 2451545 + j1 + j2 + i + k1 + k2, ?_, m0, m1, bd, ?_, ?_, br, ?_, m2.imp id fun h => ?_, rfl⟩
  · have : sunTransit jd lon = m + -hourAngleAt tc (apparentSiderealTime tc) dt lon m / 360 := by
      unfold sunTransit
      simp only
      rw [← htc, comm, ← hq, ← hm]
      rfl
    rw [this, am]
    ring
  · have t' := abs_le.1 ht
    have b2' := abs_le.1 b2
    have bx2 := abs_le.1 bx
    have bn' := abs_le.1 bn
    have q2' := abs_le.1 q2
    have q3' := abs_le.1 q3
    rw [abs_le]
    norm_num at t' b2' bx2 bn' q2' q3' ⊢
    constructor <;> linarith
  · rw [e1, e2, g2'] at eq360
    unfold rawLongitude at eq360
    rw [ejd]
    push_cast
    linear_combination eq360
  · exact angle _ _ hr.symm (by norm_num at br' ⊢; linarith) (by norm_num at br' ⊢; linarith)
  · rw [h, hq]
    have : -lon / 360 = (0 - lon - 360) / 360 + 1 := by ring
    rw [this]
    have := div_lt_div_of_pos_right (show 0 - lon - 360 < rightAscension (tc + dt / 36525) - lon -
      apparentSiderealTime tc by linarith) (show (0 : ℝ) < 360 by norm_num)
    linarith

/-- C93: at the moment `jd + _sun_transit(jd, lon)` the sun is on the meridian: its hour angle, with the right ascension
interpolated as in the library, is at most 0.0012 degree (0.3 second). -/
theorem C93_meridian (jd : ℚ) (lon : ℝ) (h0 : 1720998 ≤ jd) (h1 : jd ≤ 2820002) (hl : |lon| ≤ 180) :
    |hourAngleAt (julianCenturies jd) (apparentSiderealTime (julianCenturies jd)) (deltaT jd : ℝ) lon
      (sunTransit jd lon)| ≤ 0.0012 := by
  obtain ⟨m, d, E, r, k, e, -, -, -, -, -, br, er, -, -⟩ := transit_parts h0 h1 hl
  rw [e, er]
  exact br

example : (1720998 : ℚ) ≤ 2451544.5 ∧ (2451544.5 : ℚ) ≤ 2820002 ∧ |(51.4 : ℝ)| ≤ 180 := by
  norm_num [abs_le]

/-- C93: the moment `jd + _sun_transit(jd, lon)` is within 25 minutes of a local mean noon, that is of a moment whose
Julian day and longitude in turns make a whole number. -/
theorem C93_noon (jd : ℚ) (lon : ℝ) (h0 : 1720998 ≤ jd) (h1 : jd ≤ 2820002) (hl : |lon| ≤ 180) :
    ∃ k : ℤ, |jd + sunTransit jd lon + lon / 360 - k| ≤ 25 / 1440 := by
  obtain ⟨m, d, E, r, k, e, -, -, bd, bE, ek, -, -, -, -⟩ := transit_parts h0 h1 hl
  refine ⟨k, ?_⟩
  have : (jd : ℝ) + sunTransit jd lon + lon / 360 - k = (E - d) / 360 := by
    rw [e]
    linear_combination ek / 360
  rw [this, abs_div, abs_of_pos (show (0 : ℝ) < 360 by norm_num), div_le_iff₀ (by norm_num)]
  rw [abs_le] at *
  norm_num at *
  constructor <;> linarith

example : (1720998 : ℚ) ≤ 2451544.5 ∧ (2451544.5 : ℚ) ≤ 2820002 ∧ |(51.4 : ℝ)| ≤ 180 := by
  norm_num [abs_le]

/-- C93: counted from the local midnight the transit lies between sunrise and sunset, at latitudes up to 60 degrees and
longitudes up to 170 degrees east. Missing from the full property: other latitudes, and longitudes further east, where the
result may be that of the day before (next theorem). -/
theorem C93_between_partial (jd : ℚ) (lat lon : ℝ) (D : ℤ) (h : AtMidnight jd lon D) (hl : |lat| ≤ 60)
    (hL : lon ≤ 170) :
    risingSetting jd lat lon sunOffset false < sunTransit jd lon ∧
    sunTransit jd lon < risingSetting jd lat lon sunOffset true ∧ |sunTransit jd lon - 1 / 2| ≤ 26 / 1440 := by
  obtain ⟨-, r1⟩ := rising_bounds_high h hl
  obtain ⟨s0, -⟩ := setting_bounds_high h hl
  obtain ⟨D0, D1, hlon, hj⟩ := h
  have D0' : (1721000 : ℝ) ≤ D := by exact_mod_cast D0
  have D1' : (D : ℝ) ≤ 2820000 := by exact_mod_cast D1
  have hlon' := abs_le.1 hlon
  have hj' := abs_le.1 hj
  have j0 : (1720998 : ℝ) ≤ jd := by norm_num at hj'; linarith
  have j1 : (jd : ℝ) ≤ 2820002 := by norm_num at hj'; linarith
  obtain ⟨m, d, E, r, k, e, m0, m1, bd, bE, ek, -, -, m2, -⟩ :=
    transit_parts (jd := jd) (by exact_mod_cast j0) (by exact_mod_cast j1) hlon
  rw [abs_le] at bd bE
  have eT : sunTransit jd lon - 1 / 2 = (E - d) / 360 + (k - D : ℤ) - (jd - (D - 1 / 2 - lon / 360)) := by
    rw [e]
    push_cast
    linear_combination ek / 360
  have hk : k - D = 0 := by
    have a : -0.4723 < m := by
      rcases m2 with m2 | m2
      · norm_num; linarith
      · norm_num; linarith
    have b1 : ((k - D : ℤ) : ℝ) < 1 := by
      rw [e] at eT
      norm_num at hj' bd bE eT ⊢
      linarith
    have b2 : (-1 : ℝ) < ((k - D : ℤ) : ℝ) := by
      rw [e] at eT
      norm_num at hj' bd bE eT a ⊢
      linarith
    have c1 : k - D < 1 := by exact_mod_cast b1
    have c2 : -1 < k - D := by exact_mod_cast b2
    omega
  rw [hk] at eT
  norm_num at eT hj' bd bE r1 s0
  refine ⟨by linarith, by linarith, ?_⟩
  rw [abs_le]
  norm_num
  constructor <;> linarith

example : AtMidnight (2451544.5 - 51.4 / 360) 51.4 2451545 ∧ |(35.7 : ℝ)| ≤ 60 ∧ (51.4 : ℝ) ≤ 170 := by
  unfold AtMidnight
  norm_num [abs_le]

/-- C93 is false at the date line: `func0` adds one turn only once, so that the result for 2000-03-31 07:12 UT and the
longitude 180 is negative, although it is a fraction of a day. -/
theorem C93_range_negation : sunTransit 2451635.8 180 < 0 := by
  obtain ⟨jd, hjd⟩ : ∃ jd : ℚ, jd = 2451635.8 := ⟨_, rfl⟩
  rw [← hjd]
  have h0 : 1720998 ≤ jd := by rw [hjd]; norm_num
  have h1 : jd ≤ 2820002 := by rw [hjd]; norm_num
  have hd := deltaT_abs h0 h1
  obtain ⟨m, d, -, -, -, e, -, -, bd, -, -, -, -, -, em⟩ := transit_parts (lon := 180) h0 h1 (by norm_num [abs_le])
  have etc : julianCenturies jd = 90.8 / 36525 := by
    rw [hjd]; unfold julianCenturies; norm_num
  rw [etc] at em
  obtain ⟨x, j1, e1, bx', -⟩ := ascension_change (t := 90.8 / 36525) (h := (deltaT jd : ℝ) / 36525)
    (by norm_num [abs_le]) (by
      rw [abs_div, abs_of_pos (show (0 : ℝ) < 36525 by norm_num)]
      apply div_le_div_of_nonneg_right _ (by norm_num)
      linarith)
  have bx : |x| ≤ 0.4484 := by
    refine bx'.trans ?_
    rw [abs_div, abs_of_pos (show (0 : ℝ) < 36525 by norm_num)]
    have := abs_nonneg (deltaT jd : ℝ)
    rw [div_le_iff₀ (by norm_num)]
    norm_num at hd ⊢
    linarith
  obtain ⟨y, j2, e2, b2⟩ := ascension_reduction (t := 90.8 / 36525) (by norm_num [abs_le])
  obtain ⟨-, -, r0, r1⟩ := ascension_eq (90.8 / 36525 + (deltaT jd : ℝ) / 36525)
  have rl : |rawLongitude (90.8 / 36525) - 369.963| ≤ 0.001 := by
    unfold rawLongitude; norm_num [abs_le]
  have ra : rightAscension (90.8 / 36525 + (deltaT jd : ℝ) / 36525) ≤ 16 := by
    rw [abs_le] at rl b2 bx
    rw [e1, e2] at r0 r1 ⊢
    have z1 : ((j1 + j2 : ℤ) : ℝ) < 0 := by push_cast; norm_num at rl b2 bx; linarith
    have z2 : j1 + j2 ≤ -1 := by have : j1 + j2 < 0 := by exact_mod_cast z1
                                 omega
    have z3 : ((j1 + j2 : ℤ) : ℝ) ≤ -1 := by exact_mod_cast z2
    push_cast at z3
    norm_num at rl b2 bx
    linarith
  have ms : meanSiderealTime (90.8 / 36525) = 280.46061837 + 360.98564736629 * 90.8 +
      0.000387933 * (90.8 / 36525) ^ 2 - (90.8 / 36525) ^ 3 / 38710000 - 32760 := by
    unfold meanSiderealTime
    apply coterminal_eq (k := 91) <;> norm_num
  have bn : |nutationLongitude (90.8 / 36525) * cosDeg (trueObliquity (90.8 / 36525))| ≤ 0.0056 := by
    rw [abs_mul]
    have := mul_le_mul (nutationLongitude_abs (tc := 90.8 / 36525) (by norm_num [abs_le]))
      (abs_cosDeg (trueObliquity (90.8 / 36525))) (abs_nonneg _) (by norm_num)
    linarith
  have st : 297 ≤ apparentSiderealTime (90.8 / 36525) := by
    unfold apparentSiderealTime
    rw [abs_le] at bn
    rw [coterminal_eq (k := 0) (y := meanSiderealTime (90.8 / 36525) +
      nutationLongitude (90.8 / 36525) * cosDeg (trueObliquity (90.8 / 36525))) (by push_cast; ring)] <;>
    (rw [ms]; norm_num at bn ⊢; linarith)
  rw [abs_le] at bd
  have q : (rightAscension (90.8 / 36525 + (deltaT jd : ℝ) / 36525) - 180 - apparentSiderealTime (90.8 / 36525)) / 360 ≤
      -1.28 := by
    rw [div_le_iff₀ (by norm_num)]; norm_num; linarith
  rw [wrapOnce, if_pos (by norm_num at q ⊢; linarith)] at em
  rw [e, em]
  norm_num at q bd ⊢
  linarith

end Verif.Solar
