import Verif.Lemmas.PosixTime
import Verif.Props.Numeric

/-!
# Properties C65 and C66: numbers that stand for time zones
-/

namespace Verif

/-! ## C65 -/

/-- C65, what comes back: the days, hours, minutes and seconds read from the decimal of a zone are legal and their sum is
that of the given ones up to a nanosecond. Missing from the full property: equality, which is false (below). -/
theorem C65_close_partial (d h mi : ℤ) (s : ℚ) (t0 : (0 : ℚ) ≤ 86400 * d + 3600 * h + 60 * mi + s)
    (t1 : (86400 : ℚ) * d + 3600 * h + 60 * mi + s < 172799) :
    ∃ (x : ℚ) (d' h' mi' : ℤ) (s' : ℚ), tzDecimalFromDhms d h mi s = .ok x ∧ tzDhmsFromDecimal x = (d', h', mi', s') ∧
      0 ≤ d' ∧ 0 ≤ h' ∧ h' < 24 ∧ 0 ≤ mi' ∧ mi' < 60 ∧ 0 ≤ s' ∧ s' < 60 ∧
      |(86400 * d' + 3600 * h' + 60 * mi' + s') - (86400 * d + 3600 * h + 60 * mi + s)| ≤ 1 / 10 ^ 9 := by
  obtain ⟨T, hT⟩ : ∃ T : ℚ, T = 86400 * d + 3600 * h + 60 * mi + s := ⟨_, rfl⟩
  rw [← hT] at t0 t1 ⊢
  have es : ((d * 86400 + h * 3600 + mi * 60 : ℤ) : ℚ) + s = T := by rw [hT]; push_cast; ring
  have e1 := abs_le.mp (fl_err_le (x := T) (B := 172800) (by rw [abs_of_nonneg t0]; linarith))
  have n1 := fl_nonneg t0
  have e2 := abs_le.mp (fl_err_le (x := fl T / 86400) (B := 3) (by
    rw [abs_of_nonneg (by positivity)]; norm_num at e1; linarith))
  have n2 := fl_nonneg (x := fl T / 86400) (by positivity)
  have e3 := abs_le.mp (fl_err_le (x := fl (fl T / 86400) * 86400) (B := 172801) (by
    rw [abs_of_nonneg (by positivity)]; norm_num at e1 e2; linarith))
  have n3 := fl_nonneg (x := fl (fl T / 86400) * 86400) (by positivity)
  norm_num at e1 e2 e3
  have hz : fl (fl (fl (fl T / 86400) * 86400) + fl (0 * 3600)) = fl (fl (fl T / 86400) * 86400) := by
    rw [zero_mul, fl_zero, add_zero, fl_idem]
  have hs := C46_seconds_partial (fl (fl (fl T / 86400) * 86400)) 0 (by rw [hz]; exact n3) (by rw [hz]; linarith)
  rw [hz] at hs
  obtain ⟨a1, a2, a3, a4, a5, a6, a7, a8⟩ := hs
  obtain ⟨d', h', mi', s', hr⟩ : ∃ d' h' mi' s', dhmsFromSeconds (fl (fl (fl T / 86400) * 86400)) = (d', h', mi', s') :=
    ⟨_, _, _, _, rfl⟩
  rw [hr] at a1 a2 a3 a4 a5 a6 a7 a8
  refine ⟨fl (fl T / 86400), d', h', mi', s', ?_, hr, a1, a2, a3, a4, a5, a6, a7, ?_⟩
  · unfold tzDecimalFromDhms secondsFromDhms
    simp only [lt_self_iff_false, if_false, zero_mul, fl_zero, add_zero]
    rw [es, pyOk_bind, fl_idem]
  · unfold secondsFromDhms at a8
    simp only [lt_self_iff_false, if_false, zero_mul, fl_zero, add_zero] at a8
    injection a8 with a8
    rw [fl_idem] at a8
    simp only at a1 a2 a4 a6
    have f : |fl (((d' * 86400 + h' * 3600 + mi' * 60 : ℤ) : ℚ) + s') - (((d' * 86400 + h' * 3600 + mi' * 60 : ℤ) : ℚ) + s')|
        ≤ 400000 / 9007199254740992 := by
      have hb : (((d' * 86400 + h' * 3600 + mi' * 60 : ℤ) : ℚ) + s') ≤ 400000 := by
        by_contra hc
        push Not at hc
        have := fl_mono hc.le
        rw [a8, show (400000 : ℚ) = ((400000 : ℤ) : ℚ) by norm_num, fl_int _ (by norm_num)] at this
        push_cast at this
        linarith
      refine fl_err_le ?_
      rw [abs_of_nonneg]
      · exact hb
      · have : (0 : ℚ) ≤ ((d' * 86400 + h' * 3600 + mi' * 60 : ℤ) : ℚ) := by exact_mod_cast (by omega)
        linarith
    rw [a8] at f
    have f := abs_le.mp f
    push_cast at f
    rw [abs_le]
    norm_num at *
    constructor <;> linarith

/-- A quarter to seven of the next day. -/
example : (0 : ℚ) ≤ 86400 * (1 : ℤ) + 3600 * (6 : ℤ) + 60 * (45 : ℤ) + 30 ∧
    (86400 : ℚ) * (1 : ℤ) + 3600 * (6 : ℤ) + 60 * (45 : ℤ) + 30 < 172799 := by norm_num

/-- C65 for the zones in use: every whole number of quarters of an hour below two days comes back exactly. -/
theorem C65_quarter_hours : ∀ q ∈ Finset.range 192,
    (tzDecimalFromDhms (q / 96) (q / 4 % 24) (q % 4 * 15) 0).map tzDhmsFromDecimal
      = .ok (((q / 96 : ℕ) : ℤ), ((q / 4 % 24 : ℕ) : ℤ), ((q % 4 * 15 : ℕ) : ℤ), 0) := by
  decide +kernel

/-- C65 is false: 13 minutes come back as 12 minutes and almost 60 seconds. -/
theorem C65_minutes_negation : ∃ x s, tzDecimalFromDhms 0 0 13 0 = .ok x ∧ tzDhmsFromDecimal x = (0, 0, 12, s) ∧
    59 < s ∧ s < 60 :=
  ⟨fl (780 / 86400), 527765581332479 / 8796093022208, by decide +kernel, by decide +kernel, by norm_num, by norm_num⟩

/-! ## C66 -/

/-- C66 with a zone: the JD is moved by the zone, up to a microsecond of a day; the fraction asked for lies between 0 and
1. -/
theorem C66_zone (x z : ℚ) (x0 : 0 ≤ x) (x1 : x ≤ 4000000) (z0 : -180 ≤ z) (z1 : z ≤ 180) (inv : Bool) :
    ∃ r f, localZoneCorrection x (some z) none inv true = .ok r ∧
      |r - (if inv then x - z / 24 else x + z / 24)| ≤ 1 / 10 ^ 9 ∧
      localZoneCorrection x (some z) none inv false = .ok f ∧ 0 ≤ f ∧ f ≤ 1 ∧ |f - pyMod1 r| ≤ 1 / 10 ^ 12 := by
  have e1 := abs_le.mp (fl_err_le (x := z / 24) (B := 8) (by rw [abs_le]; constructor <;> linarith))
  have key : ∀ y : ℚ, 0 ≤ pyRound (pyMod1 y) 12 ∧ pyRound (pyMod1 y) 12 ≤ 1 ∧
      |pyRound (pyMod1 y) 12 - pyMod1 y| ≤ 1 / 10 ^ 12 := by
    intro y
    have a0 := pyMod1_nonneg y
    have a1 := pyMod1_le_one y
    have z := pyRound_int 0 12 (by norm_num)
    have o := pyRound_int 1 12 (by norm_num)
    have b0 := pyRound_mono 12 a0
    have b1 := pyRound_mono 12 a1
    norm_num at z o
    rw [z] at b0
    rw [o] at b1
    refine ⟨b0, b1, (pyRound_err _ _).trans ?_⟩
    rw [abs_of_nonneg a0]
    norm_num
    linarith
  have hz : (-180 ≤ z ∧ z ≤ 180) := ⟨z0, z1⟩
  cases inv
  · have e2 := abs_le.mp (fl_err_le (x := x + fl (z / 24)) (B := 4000010) (by
      norm_num at e1; rw [abs_le]; constructor <;> linarith))
    obtain ⟨k0, k1, k2⟩ := key (fl (x + fl (z / 24)))
    refine ⟨fl (x + fl (z / 24)), pyRound (pyMod1 (fl (x + fl (z / 24)))) 12, ?_, ?_, ?_, k0, k1, k2⟩
    · unfold localZoneCorrection
      simp [hz, pyAssert]
      rfl
    · norm_num at e1 e2 ⊢
      rw [abs_le]
      constructor <;> linarith
    · unfold localZoneCorrection
      simp [hz, pyAssert]
      rfl
  · have e2 := abs_le.mp (fl_err_le (x := x - fl (z / 24)) (B := 4000010) (by
      norm_num at e1; rw [abs_le]; constructor <;> linarith))
    obtain ⟨k0, k1, k2⟩ := key (fl (x - fl (z / 24)))
    refine ⟨fl (x - fl (z / 24)), pyRound (pyMod1 (fl (x - fl (z / 24)))) 12, ?_, ?_, ?_, k0, k1, k2⟩
    · unfold localZoneCorrection
      simp [hz, pyAssert]
      rfl
    · norm_num at e1 e2 ⊢
      rw [abs_le]
      constructor <;> linarith
    · unfold localZoneCorrection
      simp [hz, pyAssert]
      rfl

theorem pow2_m32 : pow2 (20 - 52) = 1 / 4294967296 := by decide +kernel

theorem pow2_m31 : pow2 (21 - 52) = 1 / 2147483648 := by decide +kernel

/-- The whole table of zones in steps of a quarter of an hour: the zone as a fraction of a day is a multiple of 2^-31, or
it is not even a multiple of 2^-33. -/
theorem zone_table : ∀ j ∈ Finset.range 193,
    (fl ((((j : ℤ) - 96 : ℤ) : ℚ) / 4 / 24) * 2 ^ 31).den = 1 ∨
      (fl ((((j : ℤ) - 96 : ℤ) : ℚ) / 4 / 24) * 2 ^ 33).den ≠ 1 := by
  decide +kernel

theorem int_of_den {x : ℚ} (h : x.den = 1) : ∃ k : ℤ, x = k := ⟨x.num, (Rat.den_eq_one_iff x |>.mp h).symm⟩

/-- Adding and subtracting a zone gives the number back, unless it is halfway between two floats. -/
theorem add_sub_zone {x δ : ℚ} {e : ℤ} (hx : IsF64 x) (he : e = 20 ∨ e = 21) (x0 : pow2 e + 2 ≤ x)
    (x1 : x ≤ pow2 (e + 1) - 2) (d0 : -1 ≤ δ) (d1 : δ ≤ 1)
    (ht : (δ * 2 ^ 31).den = 1 ∨ (δ * 2 ^ 33).den ≠ 1) :
    fl (fl (x + δ) - δ) = x ∧ fl (fl (x - δ) + δ) = x := by
  have up := pow2_pos (e - 52)
  have ep := pow2_pos e
  obtain ⟨k, hk⟩ := isF64_multiple (e := e) hx (by rw [abs_of_nonneg (by linarith)]; linarith)
  have u53 : pow2 (e - 53) = pow2 (e - 52) / 2 := by
    rw [show e - 52 = (e - 53) + 1 by ring, pow2_add]
    norm_num [pow2]
  have u0 : pow2 (e - 52) ≤ 1 := by
    rcases he with rfl | rfl
    · rw [pow2_m32]; norm_num
    · rw [pow2_m31]; norm_num
  have main : ∀ δ : ℚ, -1 ≤ δ → δ ≤ 1 → ((δ * 2 ^ 31).den = 1 ∨ (δ * 2 ^ 33).den ≠ 1) → fl (fl (x + δ) - δ) = x := by
    intro δ d0 d1 ht
    have hne : x + δ ≠ 0 := by linarith
    have hl : ilog2 (x + δ) = e := ilog2_unique (by rw [abs_of_nonneg (by linarith)]; linarith)
      (by rw [abs_of_nonneg (by linarith)]; linarith)
    have hf := fl_ne hne
    rw [hl] at hf
    obtain ⟨q, hq⟩ : ∃ q : ℤ, q = roundHalfEven ((x + δ) / pow2 (e - 52)) := ⟨_, rfl⟩
    have hD : (x + δ) / pow2 (e - 52) = k + δ / pow2 (e - 52) := by
      rw [hk]; field_simp
    have herr := roundHalfEven_err ((x + δ) / pow2 (e - 52))
    rw [← hq] at herr hf
    have hlt : |(q : ℚ) - (x + δ) / pow2 (e - 52)| < 1 / 2 := by
      rcases ht with ht | ht
      · obtain ⟨j, hj⟩ := int_of_den ht
        have : ∃ i : ℤ, (x + δ) / pow2 (e - 52) = i := by
          rw [hD]
          have hδ : δ = j / 2 ^ 31 := by rw [← hj]; field_simp
          rcases he with rfl | rfl
          · exact ⟨k + 2 * j, by rw [hδ]; rw [pow2_m32]; push_cast; ring⟩
          · exact ⟨k + j, by rw [hδ]; rw [pow2_m31]; push_cast; ring⟩
        obtain ⟨i, hi⟩ := this
        rw [hq, hi, roundHalfEven_int]
        norm_num
      · refine lt_of_le_of_ne herr fun heq => ht ?_
        have : ∃ i : ℤ, δ * 2 ^ 33 = i := by
          rw [hD] at heq
          have hu : δ = δ / pow2 (e - 52) * pow2 (e - 52) := by field_simp
          rcases abs_eq (by norm_num : (0 : ℚ) ≤ 1 / 2) |>.mp heq with h | h
          · have h2 : δ / pow2 (e - 52) = q - k - 1 / 2 := by linarith
            rw [hu, h2]
            rcases he with rfl | rfl
            · exact ⟨2 * (q - k) - 1, by rw [pow2_m32]; push_cast; ring⟩
            · exact ⟨4 * (q - k) - 2, by rw [pow2_m31]; push_cast; ring⟩
          · have h2 : δ / pow2 (e - 52) = q - k + 1 / 2 := by linarith
            rw [hu, h2]
            rcases he with rfl | rfl
            · exact ⟨2 * (q - k) + 1, by rw [pow2_m32]; push_cast; ring⟩
            · exact ⟨4 * (q - k) + 2, by rw [pow2_m31]; push_cast; ring⟩
        obtain ⟨i, hi⟩ := this
        rw [hi]
        exact Rat.den_intCast i
    have hclose : |fl (x + δ) - δ - x| < pow2 (e - 53) := by
      rw [hf, u53]
      have : (q : ℚ) * pow2 (e - 52) - δ - x = ((q : ℚ) - (x + δ) / pow2 (e - 52)) * pow2 (e - 52) := by
        field_simp
        ring
      rw [this, abs_mul, abs_of_pos up]
      calc _ < 1 / 2 * pow2 (e - 52) := by exact mul_lt_mul_of_pos_right hlt up
        _ = _ := by ring
    have hc := abs_lt.mp hclose
    exact fl_near (e := e) (by rw [abs_of_nonneg (by linarith)]; linarith)
      (by rw [abs_of_nonneg (by linarith)]; linarith) hk hclose
  refine ⟨main δ d0 d1 ht, ?_⟩
  have := main (-δ) (by linarith) (by linarith) (by rw [neg_mul, neg_mul, Rat.neg_den, Rat.neg_den]; exact ht)
  rwa [← sub_eq_add_neg, sub_neg_eq_add] at this

/-- C66, the way back: for the zones in use (whole numbers of quarters of an hour) and a JD between 1048578 and 4194302,
except within two days of 2097152, `inverse=True` undoes the correction exactly. Missing from the full property: those four
days, and zones for which the sum is halfway between two floats, where it is false (below). -/
theorem C66_inverse_partial (x : ℚ) (hx : IsF64 x) (hr : (1048578 ≤ x ∧ x ≤ 2097150) ∨ (2097154 ≤ x ∧ x ≤ 4194302)) (q : ℤ)
    (q0 : -96 ≤ q) (q1 : q ≤ 96) (inv : Bool) :
    ∃ r, localZoneCorrection x (some ((q : ℚ) / 4)) none inv true = .ok r ∧
      localZoneCorrection r (some ((q : ℚ) / 4)) none (!inv) true = .ok x := by
  have ht := zone_table (q + 96).toNat (by simp; omega)
  rw [show (((q + 96).toNat : ℤ) - 96 : ℤ) = q by omega] at ht
  have qa : (-96 : ℚ) ≤ q := by exact_mod_cast q0
  have qb : (q : ℚ) ≤ 96 := by exact_mod_cast q1
  have hz : (-180 ≤ (q : ℚ) / 4 ∧ (q : ℚ) / 4 ≤ 180) := by constructor <;> linarith
  have b1 : -1 ≤ fl ((q : ℚ) / 4 / 24) := le_fl_of_le (by linarith) (by
    have := fl_int (-1) (by norm_num); norm_num at this; exact this)
  have b2 : fl ((q : ℚ) / 4 / 24) ≤ 1 := fl_le_of_le (by linarith) (by
    have := fl_int 1 (by norm_num); norm_num at this; exact this)
  have p20 : pow2 20 = 1048576 := by norm_num [pow2]
  have p21 : pow2 21 = 2097152 := by norm_num [pow2]
  have p22' : pow2 22 = 4194304 := by norm_num [pow2]
  have key : fl (fl (x + fl ((q : ℚ) / 4 / 24)) - fl ((q : ℚ) / 4 / 24)) = x ∧
      fl (fl (x - fl ((q : ℚ) / 4 / 24)) + fl ((q : ℚ) / 4 / 24)) = x := by
    rcases hr with hr | hr
    · exact add_sub_zone (e := 20) hx (Or.inl rfl) (by rw [p20]; linarith) (by
        rw [show (20 : ℤ) + 1 = 21 by norm_num, p21]; linarith) b1 b2 ht
    · exact add_sub_zone (e := 21) hx (Or.inr rfl) (by rw [p21]; linarith) (by
        rw [show (21 : ℤ) + 1 = 22 by norm_num, p22']; linarith) b1 b2 ht
  cases inv
  · refine ⟨fl (x + fl ((q : ℚ) / 4 / 24)), ?_, ?_⟩
    · unfold localZoneCorrection
      simp [hz, pyAssert]
      rfl
    · conv_rhs => rw [← key.1]
      unfold localZoneCorrection
      simp [hz, pyAssert]
      rfl
  · refine ⟨fl (x - fl ((q : ℚ) / 4 / 24)), ?_, ?_⟩
    · unfold localZoneCorrection
      simp [hz, pyAssert]
      rfl
    · conv_rhs => rw [← key.2]
      unfold localZoneCorrection
      simp [hz, pyAssert]
      rfl

/-- The start of the calendar, in the zone of Nepal (five hours and three quarters). -/
example : IsF64 2394644.25 ∧ (2097154 ≤ (2394644.25 : ℚ) ∧ (2394644.25 : ℚ) ≤ 4194302) ∧ ((23 : ℤ) : ℚ) / 4 = 5.75 :=
  ⟨by unfold IsF64; decide +kernel, by norm_num, by norm_num⟩

/-- C66, the way back, is false for a zone that is 24 times an odd multiple of 2^-32. -/
theorem C66_inverse_negation :
    ∃ x z r, IsF64 x ∧ IsF64 z ∧ localZoneCorrection x (some z) none false true = .ok r ∧
      ∃ y, localZoneCorrection r (some z) none true true = .ok y ∧ y ≠ x :=
  ⟨2394644 + 1 / 2 ^ 31, 24 / 2 ^ 32, 2394644 + 2 / 2 ^ 31, by unfold IsF64; decide +kernel,
    by unfold IsF64; decide +kernel, by decide +kernel,
    2394644 + 2 / 2 ^ 31, by decide +kernel, by norm_num⟩

/-- C66 without a zone is false: a longitude in degrees is divided by 360 and then by 24, so it moves the time by at most
30 minutes; 15 degrees of longitude, which are an hour, move it by two and a half minutes. -/
theorem C66_longitude_negation (x lon : ℚ) (x0 : 0 ≤ x) (x1 : x ≤ 4000000) (l0 : -180 ≤ lon) (l1 : lon ≤ 180) :
    ∃ r, localZoneCorrection x none (some lon) false true = .ok r ∧ |r - (x + lon / 8640)| ≤ 1 / 10 ^ 9 ∧
      |r - x| ≤ 1 / 47 := by
  have e0 := abs_le.mp (fl_err_le (x := lon / 360) (B := 1) (by rw [abs_le]; constructor <;> linarith))
  have e1 := abs_le.mp (fl_err_le (x := fl (lon / 360) / 24) (B := 8) (by rw [abs_le]; constructor <;> linarith))
  have e2 := abs_le.mp (fl_err_le (x := x + fl (fl (lon / 360) / 24)) (B := 4000010) (by
      norm_num at e0 e1; rw [abs_le]; constructor <;> linarith))
  norm_num at e0 e1 e2
  refine ⟨fl (x + fl (fl (lon / 360) / 24)), ?_, ?_, ?_⟩
  · unfold localZoneCorrection
    simp [pyAssert]
    rfl
  · rw [abs_le]
    norm_num
    constructor <;> linarith
  · rw [abs_le]
    norm_num
    constructor <;> linarith

/-- The start of the calendar at the longitude of Tehran. -/
example : (0 : ℚ) ≤ 2394643.262113 ∧ (2394643.262113 : ℚ) ≤ 4000000 ∧ (-180 : ℚ) ≤ 51.3890 ∧ (51.3890 : ℚ) ≤ 180 := by
  norm_num

/-- C66, refused arguments: no zone and no longitude, or a zone beyond 180. -/
theorem C66_refused (x z : ℚ) (lon : Option ℚ) (inv m : Bool) (hz : z < -180 ∨ 180 < z) :
    localZoneCorrection x none none inv m = .error .assertion ∧
    localZoneCorrection x (some z) lon inv m = .error .assertion := by
  constructor
  · unfold localZoneCorrection
    simp [pyAssert]
    rfl
  · have : ¬ (-180 ≤ z ∧ z ≤ 180) := by
      rintro ⟨a, b⟩
      rcases hz with h | h <;> linarith
    unfold localZoneCorrection
    simp [this, pyAssert]
    rfl

/-- A zone of 181. -/
example : (181 : ℚ) < -180 ∨ (180 : ℚ) < 181 := by norm_num

end Verif
