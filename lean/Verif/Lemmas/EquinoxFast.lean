import Verif.Lemmas.SeasonCert
import Verif.Lemmas.EquinoxYear

/-!
# One year, computed fast

The conditions of `EquinoxYear` with the intermediate values computed once, with integers.
-/

namespace Verif.Solar

open Real

/-- Evaluate the fraction before it is used. -/
def forceQ (q : ℚ) (f : ℚ → Bool) : Bool := forceZ q.num fun n => force q.den fun d => f (mkRat n d)

theorem forceQ_eq (q : ℚ) (f : ℚ → Bool) : forceQ q f = f q := by
  simp only [forceQ, forceZ_eq, force_eq, Rat.mkRat_self]

/-- 360000000 times `dayPart`. -/
def dayI (D : ℤ) : ℤ := 360000000 * D - 882556431288701

theorem dayI_eq (D : ℤ) : dayPart D = (dayI D : ℚ) / 360000000 := by
  unfold dayPart dayI
  push_cast
  ring

/-- The parts of a century in `dayI`, and the powers of that number. -/
def q1 : ℤ := 13149000000000
def q2 : ℤ := 172896201000000000000000000
def q3 : ℤ := 2273412146949000000000000000000000000000

/-- The mean anomaly in parts of 3 · 10⁷ · `q3` to one degree. -/
def anomI (N : ℤ) : ℤ :=
  ((-100 * N - 4809 * q1) * N + 1079971510200 * q2) * N + 10725831600 * q3

/-- `cosAt` of a number of parts of 3 · 10⁷ · `q3` to one degree, in units of 10^-9. -/
def cosF (a : ℤ) : ℤ := (cosN (a / 68202364408470000000000000000000000000000 % 360000000).toNat : ℤ) - 1000000000

theorem cosq_mod (z : ℤ) : cosq (z % 360000000) = cosq z := by
  unfold cosq
  rw [Int.emod_emod_of_dvd _ (dvd_refl _)]

theorem cosF_eq (a : ℤ) : cosAt ((a : ℚ) / 68202364408470000000000000000000000000000000000) = (cosF a : ℚ) / 1000000000 := by
  have e : ⌊(a : ℚ) / 68202364408470000000000000000000000000000000000 * 1000000⌋ = a / 68202364408470000000000000000000000000000 := by
    rw [show (a : ℚ) / 68202364408470000000000000000000000000000000000 * 1000000 =
      (a : ℚ) / ((68202364408470000000000000000000000000000 : ℕ) : ℚ) by push_cast; ring]
    rw [Rat.floor_intCast_div_natCast]
    norm_num
  unfold cosAt cosF
  rw [e, cosN_eq, Int.toNat_of_nonneg (Int.emod_nonneg _ (by norm_num)), cosq_mod, add_sub_cancel_right]

/-- `lonNear` in parts of 10^16 · `q2` to one degree. -/
def lonI (N : ℤ) : ℤ :=
  1000000000 * (2804664600 * q2 + N * (360007698300 * q1 + 3032 * N)) +
    10 * ((1914602 * q2 - N * (4817 * q1 + 14 * N)) * cosF (6138212796762300000000000000000000000000000000000 - anomI N)) +
    10 * (q1 * (19993 * q1 - 101 * N) * cosF (6138212796762300000000000000000000000000000000000 - 2 * anomI N)) - 56900000000000 * q2

/-- `lonDay`, computed with integers. -/
def lonF (D k : ℤ) : ℚ :=
  mkRat (lonI (dayI D) - 360 * k * 1728962010000000000000000000000000000000000) 1728962010000000000000000000000000000000000

theorem lonF_eq (D k : ℤ) : lonDay D k = lonF D k := by
  unfold lonDay lonF lonNear sinAt
  rw [dayI_eq]
  generalize dayI D = N
  rw [Rat.mkRat_eq_div]
  have m : (357.52772 + (N : ℚ) / 360000000 / 36525 * (35999.05034 + (N : ℚ) / 360000000 / 36525 * (-0.0001603 +
      (N : ℚ) / 360000000 / 36525 * (-1 / 300000)))) = (anomI N : ℚ) / 68202364408470000000000000000000000000000000000 := by
    unfold anomI q1 q2 q3
    push_cast
    ring
  simp only
  rw [m]
  have c1 := cosF_eq (6138212796762300000000000000000000000000000000000 - anomI N)
  have c2 := cosF_eq (6138212796762300000000000000000000000000000000000 - 2 * anomI N)
  push_cast at c1 c2
  rw [show 90 - (anomI N : ℚ) / 68202364408470000000000000000000000000000000000 =
    (6138212796762300000000000000000000000000000000000 - (anomI N : ℚ)) / 68202364408470000000000000000000000000000000000 by ring, c1,
    show 90 - 2 * ((anomI N : ℚ) / 68202364408470000000000000000000000000000000000) =
    (6138212796762300000000000000000000000000000000000 - 2 * (anomI N : ℚ)) / 68202364408470000000000000000000000000000000000 by ring, c2]
  unfold lonI
  generalize cosF (6138212796762300000000000000000000000000000000000 - anomI N) = s
  generalize cosF (6138212796762300000000000000000000000000000000000 - 2 * anomI N) = u
  unfold q1 q2
  push_cast
  ring

/-- The time from the midnight of the day `D` to a moment in units of 10^-12 centuries. -/
def partQ (t D : ℤ) : ℚ := mkRat (13149000 * t - 1000000 * dayI D) 360000000000000

theorem partQ_eq (t D : ℤ) : partQ t D = (t : ℚ) / 1000000000000 * 36525 - dayPart D := by
  unfold partQ
  rw [dayI_eq, Rat.mkRat_eq_div]
  push_cast
  ring

/-- The conditions on one year, with the correction `c` of its first day: the equinox is not before the first sunset less one
minute, and before the second. -/
def checkYear (y c : ℤ) : Bool :=
  forceZ (daysInYears (y - 1) + c + 2394647) fun D =>
  forceZ (y - 156) fun k =>
  forceQ (lonF (D - 1) k) fun l0 =>
  forceQ (lonF D k) fun l1 =>
  forceQ (lonF (D + 1) k) fun l2 =>
  forceQ (lonF (D + 2) k) fun l3 =>
  forceZ (approxI (y + 1843) spring) fun j =>
  forceZ ((j + 120095500000000000000000) / 3652500000) fun x =>
  force (sumN x.toNat natTerms) fun s =>
  force (cosN (angleN x.toNat 60230700 35999373)) fun p =>
  force (cosN (angleN x.toNat 120460000 71998746)) fun q =>
  forceZ (momentI j s p q) fun t =>
  forceQ (partQ t D + (1 / 1440 - 0.00005023)) fun m0 =>
  forceQ (partQ t (D + 1) + 0.00005023) fun m1 =>
  (Nat.ble 172110000000000000000000 j.toNat && Nat.ble j.toNat 281990000000000000000000) &&
    (decide (|l0| ≤ 2.89) && decide (|l1| ≤ 2.89) && decide (|l2| ≤ 2.89) && decide (|l3| ≤ 2.89) &&
    decide (|side D k l0 l1 l2 0.755| ≤ 60) && decide (|side (D + 1) k l1 l2 l3 0.755| ≤ 60)) &&
    (decide (-1.5 ≤ m0) && decide (m0 ≤ 2.5) && decide (0.042 ≤ side D k l0 l1 l2 m0)) &&
    (decide (-1.5 ≤ m1) && decide (m1 ≤ 2.5) && decide (side (D + 1) k l1 l2 l3 m1 ≤ -0.042))

theorem moment_near {year lam : ℤ} (j0 : 172110000000000000000000 ≤ approxI year lam) :
    |julianCenturies (seasonJde year lam) - (momentI (approxI year lam)
      (sumN ((approxI year lam + 120095500000000000000000) / 3652500000).toNat natTerms)
      (cosN (angleN ((approxI year lam + 120095500000000000000000) / 3652500000).toNat 60230700 35999373))
      (cosN (angleN ((approxI year lam + 120095500000000000000000) / 3652500000).toNat 120460000 71998746)) : ℝ) / 1000000000000| ≤
        0.000000000006 := by
  apply momentI_near
  have hj : ((approxSeason year lam : ℚ) : ℝ) = (approxI year lam : ℝ) / 100000000000000000 := by
    rw [approxI_eq]; push_cast; rfl
  have f := div_floor (n := approxI year lam + 120095500000000000000000) (d := 3652500000) (by norm_num)
  have f0 : 0 ≤ (approxI year lam + 120095500000000000000000) / 3652500000 := Int.ediv_nonneg (by omega) (by norm_num)
  have e : ((((approxI year lam + 120095500000000000000000) / 3652500000).toNat : ℕ) : ℝ) =
      (((approxI year lam + 120095500000000000000000) / 3652500000 : ℤ) : ℝ) := by exact_mod_cast Int.toNat_of_nonneg f0
  rw [e, hj]
  unfold julianCenturies
  push_cast at f
  rw [abs_le] at *
  constructor <;> linarith [f.1, f.2]

theorem checkYear_sound {y : ℤ} (h : checkYear y (getDayCoeff y) = true) (h0 : eraFirst ≤ firstDay y)
    (h1 : firstDay y < eraLast) :
    tehranSunset (firstDay y) - 1 / 1440 + 0.000021 ≤ seasonJde (y + 1843) spring ∧
    seasonJde (y + 1843) spring + 0.000021 ≤ tehranSunset (firstDay y + 1) := by
  have hD : daysInYears (y - 1) + getDayCoeff y + 2394647 = firstDay y := by unfold firstDay ysInt; ring
  unfold checkYear at h
  simp only [force_eq, forceZ_eq, forceQ_eq, Bool.and_eq_true, Nat.ble_eq, hD, ← lonF_eq, decide_eq_true_eq] at h
  generalize firstDay y = D at *
  obtain ⟨⟨⟨⟨j0, -⟩, ⟨⟨⟨⟨⟨a0, a1⟩, a2⟩, a3⟩, s0⟩, s1⟩⟩, ⟨⟨b0, b1⟩, b2⟩⟩, ⟨⟨c0, c1⟩, c2⟩⟩ := h
  have e := moment_near (year := y + 1843) (lam := spring) (by omega)
  generalize momentI _ _ _ _ = t at *
  have e2 : D + 1 + 1 = D + 2 := by ring
  have b' := tehranSunset_before (D := D) (k := y - 156) (n := partQ t D + (1 / 1440 - 0.00005023)) h0 h1.le
    (by simp only [dayOk, Bool.and_eq_true, decide_eq_true_eq]; exact ⟨⟨⟨a0, a1⟩, a2⟩, s0⟩)
    (by simp only [beforeOk, Bool.and_eq_true, decide_eq_true_eq]; exact ⟨⟨b0, b1⟩, b2⟩)
  have a' := tehranSunset_after (D := D + 1) (k := y - 156) (n := partQ t (D + 1) + 0.00005023) (by omega) (by omega)
    (by simp only [dayOk, Bool.and_eq_true, decide_eq_true_eq, add_sub_cancel_right, e2]; exact ⟨⟨⟨a1, a2⟩, a3⟩, s1⟩)
    (by simp only [afterOk, Bool.and_eq_true, decide_eq_true_eq, add_sub_cancel_right, e2]; exact ⟨⟨c0, c1⟩, c2⟩)
  rw [partQ_eq] at a' b'
  push_cast at a' b'
  unfold julianCenturies at e
  have e' := abs_le.mp e
  constructor <;> linarith only [e'.1, e'.2, a', b']

end Verif.Solar
