import Verif.Lemmas.GregDate

/-!
# Helper lemmas: Gregorian dates of Badí' dates
-/

namespace Verif

/-- The first day of a year with the correction `c` is one of 18 to 21 March. -/
def nawRuzOk (y c : ℤ) : Bool :=
  let d := daysInYears (y - 1) + c + 673222 - dayG (y + 1843) 3 0
  decide (y < -1842) || (decide (18 ≤ d) && decide (d ≤ 21))

set_option maxRecDepth 20000 in
theorem nawRuz_walk : coeffWalk nawRuzOk (-1843 + (0 : ℕ)) ((coeffList.drop 0).take 3005) = true := by decide +kernel

/-- The first day of every year of the table is one of 18 to 21 March. -/
theorem nawRuz_table : ∀ y ∈ Finset.Icc (-1842 : ℤ) 1161,
    18 ≤ ysInt y - dayG (y + 1843) 3 0 ∧ ysInt y - dayG (y + 1843) 3 0 ≤ 21 := by
  intro y hy
  rw [Finset.mem_Icc] at hy
  have := coeffPart nawRuz_walk (y := y) (by push_cast; omega) (by push_cast; omega) hy.2
  simp only [nawRuzOk, Bool.or_eq_true, Bool.and_eq_true, decide_eq_true_eq] at this
  unfold ysInt
  omega

/-- The zone of Tehran as a fraction of a day. -/
theorem zoneT : 14583333 / 100000000 ≤ fl (tehranZone / 24) ∧ fl (tehranZone / 24) ≤ 14583334 / 100000000 := by
  decide +kernel

/-- The instant of the start of a day in Tehran, moved to the zone of Tehran. -/
theorem zoneJd_start {A : Astro} (hE : TehranEvening A) {y m d n : ℤ}
    (hd : DayNumber (Cal.init A) y m d n) (hb : n + 1721423 ∉ badDays) (h0 : 78 ≤ n) (h1 : n ≤ 1097300) :
    ∃ x, (Cal.init A).zoneJd ⟨y, m, d, []⟩ tehranLat tehranLon tehranZone = .ok x ∧ IsF64 x ∧
      (n : ℚ) + 1721422.5 + 665 / 1000 ≤ x ∧ x ≤ (n : ℚ) + 1721422.5 + 841 / 1000 := by
  obtain ⟨sf, s0, s1⟩ := ssE_bounds hE (P := n + 1721423) (by omega) (by omega)
  have nq0 : (78 : ℚ) ≤ n := by exact_mod_cast h0
  have nq1 : (n : ℚ) ≤ 1097300 := by exact_mod_cast h1
  obtain ⟨z0, z1⟩ := zoneT
  refine ⟨_, ?_, isF64_fl (ssE A (n + 1721423) + fl (tehranZone / 24)), ?_⟩
  · have := date_jd' hE hd hb
    unfold Cal.jdFromBadiDateDefault at this
    unfold Cal.zoneJd
    rw [this, pyOk_bind]
  · push_cast at s0 s1
    have er := abs_le.mp (fl_err_le (x := ssE A (n + 1721423) + fl (tehranZone / 24)) (B := 4194304)
      (by rw [abs_of_nonneg (by linarith)]; linarith))
    norm_num at er ⊢
    constructor <;> linarith

/-- The Gregorian date of the start of a day in Tehran. -/
theorem greg_start {A : Astro} (hE : TehranEvening A) {y m d n gy gm gd : ℤ}
    (hd : DayNumber (Cal.init A) y m d n) (hb : n + 1721423 ∉ badDays) (h0 : 78 ≤ n) (h1 : n ≤ 1097300)
    (hv : ValidG gy gm gd) (hn : dayG gy gm gd = n) (hy0 : 1 ≤ gy) (hy1 : gy ≤ 4713) :
    ∃ x f, (Cal.init A).zoneJd ⟨y, m, d, []⟩ tehranLat tehranLon tehranZone = .ok x ∧
      gregorianDateFromJd x false false = .ok ⟨gy, gm, f, []⟩ ∧ ⌊f⌋ = gd ∧
      664 / 1000 ≤ Int.fract f ∧ Int.fract f ≤ 842 / 1000 ∧
      ∃ (h mi : ℤ) (s : ℚ),
        gregorianDateFromJd x true false = .ok ⟨gy, gm, gd, [(h : ℚ), (mi : ℚ), s]⟩ ∧
        15 ≤ h ∧ h ≤ 20 ∧ 0 ≤ mi ∧ mi < 60 ∧ 0 ≤ s ∧ s < 60 := by
  obtain ⟨x, e, hx, x0, x1⟩ := zoneJd_start hE hd hb h0 h1
  rw [← hn] at x0 x1
  obtain ⟨f, ef, f64, ff, fe⟩ := greg_of_jd hx hv hy0 hy1 (by linarith) (by linarith)
  have fe := abs_le.mp fe
  have hfr : Int.fract f = f - gd := by rw [← ff]; rfl
  have gd1 : (1 : ℚ) ≤ gd := by exact_mod_cast hv.2.2.1
  have a0 : 664 / 1000 ≤ Int.fract f := by rw [hfr]; linarith
  have a1 : Int.fract f ≤ 842 / 1000 := by rw [hfr]; linarith
  refine ⟨x, f, e, by unfold gregorianDateFromJd; rw [ef]; rfl, ff, a0, a1,
    (hmsFromDecimalDay f).1, (hmsFromDecimalDay f).2.1, (hmsFromDecimalDay f).2.2, ?_, ?_⟩
  · unfold gregorianDateFromJd
    rw [ef]
    exact ymdhms_frac hv ff f64
  · have hs := hms_spec (dec := f) (by linarith [Int.fract_lt_one f])
    simp only at hs
    obtain ⟨b1, b2, b3, b4, b5, b6, b7, b8, -⟩ := hs
    have b7 := abs_le.mp b7
    have c3 : ((hmsFromDecimalDay f).2.1 : ℚ) ≤ 59 := by exact_mod_cast (by omega : (hmsFromDecimalDay f).2.1 ≤ 59)
    have c4 : (0 : ℚ) ≤ ((hmsFromDecimalDay f).2.1 : ℚ) := by exact_mod_cast b3
    refine ⟨?_, ?_, b3, b4, b5, b6⟩
    · have : (14 : ℚ) < (hmsFromDecimalDay f).1 := by linarith
      have : 14 < (hmsFromDecimalDay f).1 := by exact_mod_cast this
      omega
    · have : ((hmsFromDecimalDay f).1 : ℚ) < 21 := by linarith
      have : (hmsFromDecimalDay f).1 < 21 := by exact_mod_cast this
      omega

end Verif
