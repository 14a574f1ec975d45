import Verif.Lemmas.EquinoxTable
import Verif.Props.Gregorian
import Verif.Props.Clock12

/-!
# C76: the year starts at the sunset before the equinox

The table of corrections (`_get_day_coeff`) decides at which sunset a year starts. It is compared here with the moment of the
equinox that the library computes and with its sunset at Tehran.
-/

namespace Verif

/-- The floats of the library are within one second of the exact reading of its sunset algorithm, at Tehran. -/
def SecondExact (A : Astro) : Prop :=
  ∀ D : ℤ, eraFirst ≤ D → D ≤ eraLast →
    |(A.setFrac (localMidnight tehranLon D) tehranLat tehranLon : ℝ) -
      Solar.risingSetting (localMidnight tehranLon D) tehranLat tehranLon Solar.sunOffset true| ≤ 1 / 86400

theorem SecondExact.evening {A : Astro} (h : SecondExact A) : TehranEvening A :=
  C74_tehran (fun D h0 h1 => (h D h0 h1).trans (by norm_num))

/-- The spring equinox of the year `g` as the library is asked for it: from the Julian day of 1 March. The number `jde` stands
for the float that it holds for the dynamical time of the equinox, from which it computes ΔT; a day of error in it would not matter. -/
def IsEquinox (g : ℤ) (e : ℝ) : Prop :=
  ∃ (march : ℚ) (jde : ℚ), jdFromGregorianMeeus ⟨g, 3, 1, []⟩ = .ok march ∧
    |(jde : ℝ) - Solar.seasonJde g Solar.spring| ≤ 1 ∧ e = Solar.findSeason march Solar.spring 0 jde

theorem equinox_year {g : ℤ} {e : ℝ} (h : IsEquinox g e) (g0 : 1 ≤ g) (g1 : g ≤ 4000) (r0 : 1720999 ≤ Solar.seasonJde g Solar.spring)
    (r1 : Solar.seasonJde g Solar.spring ≤ 2820001) :
    |e - Solar.seasonJde g Solar.spring| ≤ 0.0000037 := by
  obtain ⟨march, jde, hm, hj, he⟩ := h
  have vg : ValidG g 3 1 := by
    refine ⟨by norm_num, by norm_num, by norm_num, ?_⟩
    simp [specMonthLen]
  have vh : ValidH g 3 1 := by
    refine ⟨by norm_num, by norm_num, by norm_num, ?_, ?_⟩
    · simp [specMonthLen]
    · intro; simp_all
  obtain ⟨x, hx, hb, -⟩ := C34_round_trip_partial g 3 1 vh vg (by omega) (by omega)
  have hx' : jdFromGregorianMeeus ⟨g, 3, 1, []⟩ = .ok x := by simpa using hx
  rw [hx'] at hm
  obtain rfl := Except.ok.inj hm
  have hy : gregorianYearFromJd x = g := by unfold gregorianYearFromJd; rw [hb]
  rw [abs_le] at hj
  have q0 : (1720998 : ℝ) ≤ jde := by linarith [hj.1]
  have q1 : (jde : ℝ) ≤ 2820002 := by linarith [hj.2]
  have d := Solar.deltaT_abs (jd := jde) (by exact_mod_cast q0) (by exact_mod_cast q1)
  rw [he]
  unfold Solar.findSeason
  rw [hy]
  rw [abs_le] at d ⊢
  constructor <;> linarith [d.1, d.2]

/-! ## The sunsets -/

theorem ss_near {A : Astro} (hA : SecondExact A) {D : ℤ} (h0 : eraFirst ≤ D) (h1 : D ≤ eraLast) :
    |((ssOf A tehranLat tehranLon D : ℚ) : ℝ) - Solar.tehranSunset D| ≤ 1 / 86400 + 0.0000022 := by
  have hm := hA.evening D h0 h1
  obtain ⟨-, h⟩ := ssOf_spec (A := A) (lat := tehranLat) lonT_abs h0 h1 ⟨by linarith [hm.1], by linarith [hm.2]⟩
  have l0 := lonFracT_lo
  have l1 := lonFracT_hi
  unfold lonFracT at l0 l1
  have m := abs_le.mp (Solar.tehran_midnight h0 h1)
  have a := abs_le.mp (hA D h0 h1)
  have e : |ssOf A tehranLat tehranLon D - (Solar.dayPart D + 2451545 + sunsetTime A tehranLat tehranLon D)| ≤ 0.0000011 := by
    unfold Solar.dayPart
    rw [abs_le] at h ⊢
    constructor <;> norm_num at * <;> linarith [h.1, h.2]
  have e' : |((ssOf A tehranLat tehranLon D : ℚ) : ℝ) -
      (Solar.dayPart D + 2451545 + (sunsetTime A tehranLat tehranLon D : ℝ))| ≤ 0.0000011 := by
    have := Solar.castAbs (B := 0.0000011) e (by norm_num)
    push_cast at this
    exact this
  unfold sunsetTime at e'
  unfold Solar.tehranSunset
  rw [abs_le] at e' ⊢
  constructor <;> linarith [e'.1, e'.2, m.1, m.2, a.1, a.2]

theorem late_lookup {N : ℤ} (h : 2299161 ≤ N) : iLookup N iMeeusTable = 2 ∧ iLookup N iExactTable = 2 ∧ N ∉ iInvalid := by
  refine ⟨?_, ?_, ?_⟩
  · simp only [iLookup, iMeeusTable]
    repeat rw [if_neg (by omega)]
  · simp only [iLookup, iExactTable]
    repeat rw [if_neg (by omega)]
  · simp only [iInvalid, List.mem_cons, List.not_mem_nil, or_false]
    omega

theorem checkShort_second {C : Cal} {y : ℤ} (h0 : -1843 ≤ y) (h1 : y ≤ 1162) :
    C.checkShort ⟨y, 1, ((2 : ℤ) : ℚ), []⟩ = .ok () := by
  unfold Cal.checkShort
  rw [pyAssert_true (by simp [minYear, maxYear]; omega), pyOk_bind]
  unfold Cal.checkTail
  norm_num [getHms, pyAssert, checkValidBadiTime, bind, Except.bind, Cal.cycleOf, checkFractions]

theorem late_year {y : ℤ} (h0 : -260 ≤ y) (h1 : y ≤ 1161) : 2299300 ≤ nrN y ∧ nrN y ≤ 2818700 ∧
    histDay y (nrN y) = Solar.firstDay y ∧ histDay y (nrN y + 1) = Solar.firstDay y + 1 := by
  have a := daysInYears_mono (show (-261 : ℤ) ≤ y - 1 by omega)
  have ea : daysInYears (-261) = -95329 := by decide
  have b := nrN_bounds (y := y) (by omega) (by omega)
  have c : 2299300 ≤ nrN y := by unfold nrN; omega
  refine ⟨c, b.2, ?_, ?_⟩
  · unfold histDay
    rw [(late_lookup (N := nrN y) (by omega)).1]
    unfold Solar.firstDay ysInt nrN
    ring
  · unfold histDay
    rw [(late_lookup (N := nrN y + 1) (by omega)).1]
    unfold Solar.firstDay ysInt nrN
    ring

/-- The two first sunsets of a year, in the historical numbering. -/
theorem first_sunsets {C : Cal} (hE : TehranEvening C.astro) {y : ℤ} (h0 : -260 ≤ y) (h1 : y ≤ 1161) : ∃ a b : ℚ,
    C.jdFromBadiDateDefault ⟨y, 1, 1, []⟩ = .ok a ∧ C.jdFromBadiDateDefault ⟨y, 1, 2, []⟩ = .ok b ∧
    meeusFromExact a = .ok (ssOf C.astro tehranLat tehranLon (Solar.firstDay y)) ∧
    meeusFromExact b = .ok (ssOf C.astro tehranLat tehranLon (Solar.firstDay y + 1)) := by
  obtain ⟨n0, n1, d0, d1⟩ := late_year h0 h1
  have bc := getDayCoeff_cases y
  have key : ∀ d : ℤ, d = 1 ∨ d = 2 → C.checkShort ⟨y, 1, (d : ℚ), []⟩ = .ok () → ∃ a : ℚ,
      C.jdFromBadiDateDefault ⟨y, 1, (d : ℚ), []⟩ = .ok a ∧
      meeusFromExact a = .ok (ssOf C.astro tehranLat tehranLon (histDay y (nrN y + (d - 1)))) := by
    intro d hd hc
    have hN : 2299300 ≤ nrN y + (d - 1) := by omega
    have hl := late_lookup (N := nrN y + (d - 1)) (by omega)
    have hM : histDay y (nrN y + (d - 1)) = nrN y + (d - 1) + 2 + getDayCoeff y := by unfold histDay; rw [hl.1]
    have hl' := late_lookup (N := histDay y (nrN y + (d - 1))) (by omega)
    have := jd_int (C := C) hE (y := y) (m := 1) (d := d) (days := 0) hc (by simp [Cal.daysBefore])
      (N := nrN y + (d - 1)) (by unfold nrN; ring) (by unfold eraFirst; omega) (by unfold eraLast; omega) (by omega) hl'.2.2
    refine ⟨_, this, ?_⟩
    obtain ⟨hf, s0, s1⟩ := ssOf_tehran (A := C.astro) (D := histDay y (nrN y + (d - 1))) (by unfold eraFirst; omega)
      (by unfold eraLast; omega) hE
    rw [hl'.2.1]
    have q : (2299300 : ℚ) ≤ histDay y (nrN y + (d - 1)) := by
      have : 2299300 ≤ histDay y (nrN y + (d - 1)) := by omega
      exact_mod_cast this
    rw [meeus_late (by push_cast; linarith)]
    push_cast
    rw [sub_add_cancel]
    congr 1
  obtain ⟨a, ha, ha'⟩ := key 1 (Or.inl rfl) (checkShort_nrz (by omega) (by omega))
  obtain ⟨b, hb, hb'⟩ := key 2 (Or.inr rfl) (checkShort_second (by omega) (by omega))
  refine ⟨a, b, by simpa using ha, by simpa using hb, ?_, ?_⟩
  · rw [ha', show nrN y + (1 - 1) = nrN y by ring, d0]
  · rw [hb', show nrN y + (2 - 1) = nrN y + 1 by ring, d1]

/-! ## C76 -/

/-- C76, years -260 to 1161 (1583 to 3004): the spring equinox is not before the sunset that starts the year, but for one
minute, and it is before the next sunset. Missing from the full property: the years before, where it is false, see
`C76_before_reform_negation`. -/
theorem C76_year_start_partial {C : Cal} (hA : SecondExact C.astro) {y : ℤ} (h0 : -260 ≤ y) (h1 : y ≤ 1161) {e : ℝ}
    (he : IsEquinox (y + 1843) e) : ∃ a b s t : ℚ,
    C.jdFromBadiDateDefault ⟨y, 1, 1, []⟩ = .ok a ∧ meeusFromExact a = .ok s ∧
    C.jdFromBadiDateDefault ⟨y, 1, 2, []⟩ = .ok b ∧ meeusFromExact b = .ok t ∧
    (s : ℝ) - 1 / 1440 ≤ e ∧ e < t := by
  obtain ⟨a, b, ha, hb, hs, ht⟩ := first_sunsets (C := C) hA.evening h0 h1
  refine ⟨a, b, _, _, ha, hs, hb, ht, ?_⟩
  obtain ⟨n0, n1, d0, -⟩ := late_year h0 h1
  have bc := getDayCoeff_cases y
  have hM : histDay y (nrN y) = nrN y + 2 + getDayCoeff y := by
    unfold histDay; rw [(late_lookup (N := nrN y) (by omega)).1]
  have r0 : eraFirst ≤ Solar.firstDay y := by unfold eraFirst; omega
  have r1 : Solar.firstDay y + 1 ≤ eraLast := by unfold eraLast; omega
  obtain ⟨c0, c1⟩ := Solar.checkYear_sound (Solar.checkYear_all h0 h1) r0 (by omega)
  have s0 := abs_le.mp (ss_near hA r0 (by omega))
  have s1 := abs_le.mp (ss_near hA (D := Solar.firstDay y + 1) (by omega) r1)
  have hF : 2299300 ≤ Solar.firstDay y := by omega
  have hF' : Solar.firstDay y ≤ 2819000 := by omega
  obtain ⟨-, u0, -⟩ := ssOf_tehran (A := C.astro) r0 (by omega) hA.evening
  obtain ⟨-, -, u1⟩ := ssOf_tehran (A := C.astro) (D := Solar.firstDay y + 1) (by omega) r1 hA.evening
  have v0 : (2299300 : ℚ) ≤ ssOf C.astro tehranLat tehranLon (Solar.firstDay y) := by
    have : (2299300 : ℚ) ≤ Solar.firstDay y := by exact_mod_cast hF
    linarith
  have v1 : ssOf C.astro tehranLat tehranLon (Solar.firstDay y + 1) ≤ 2819002 := by
    have : ((Solar.firstDay y : ℤ) : ℚ) ≤ 2819000 := by exact_mod_cast hF'
    push_cast at u1
    linarith
  have v0' : (2299300 : ℝ) ≤ ssOf C.astro tehranLat tehranLon (Solar.firstDay y) := by exact_mod_cast v0
  have v1' : (ssOf C.astro tehranLat tehranLon (Solar.firstDay y + 1) : ℝ) ≤ 2819002 := by exact_mod_cast v1
  have q := abs_le.mp (equinox_year he (by omega) (by omega) (by linarith [s0.1, s0.2]) (by linarith [s1.1, s1.2]))
  constructor <;> linarith [s0.1, s0.2, s1.1, s1.2, q.1, q.2]

/-- An oracle as demanded exists: take a rational number near each exact value. -/
theorem secondExact_exists : ∃ A : Astro, SecondExact A := by
  have : ∀ jd la lo : ℚ, ∃ q : ℚ, |(q : ℝ) - Solar.risingSetting jd la lo Solar.sunOffset true| ≤ 1 / 86400 := by
    intro jd la lo
    obtain ⟨q, hq⟩ := exists_rat_near (Solar.risingSetting jd la lo Solar.sunOffset true) (show (0 : ℝ) < 1 / 86400 by norm_num)
    exact ⟨q, by rw [abs_sub_comm]; exact hq.le⟩
  choose f hf using this
  exact ⟨⟨f⟩, fun D _ _ => hf _ _ _⟩

/-- The equinox of a year exists. -/
theorem isEquinox_exists {g : ℤ} {march : ℚ} (h : jdFromGregorianMeeus ⟨g, 3, 1, []⟩ = .ok march) : ∃ e : ℝ, IsEquinox g e := by
  refine ⟨_, march, Solar.seasonNear g Solar.spring, h, ?_, rfl⟩
  rw [abs_sub_comm]
  exact (Solar.seasonNear_spec g Solar.spring).trans (by norm_num)

/-- The year 181. -/
example : ∃ (C : Cal) (e : ℝ), SecondExact C.astro ∧ IsEquinox (181 + 1843) e := by
  obtain ⟨A, hA⟩ := secondExact_exists
  obtain ⟨e, he⟩ := isEquinox_exists (g := 181 + 1843) (march := 2460370.5) (by decide +kernel)
  exact ⟨Cal.init A, e, hA, he⟩

/-- C76, the minute of tolerance is not given in all years: in the year 216 the equinox is less than a minute before the second
sunset, and the year starts at the first. The script that tests the table would start it a day later. -/
theorem C76_one_minute_negation {C : Cal} (hA : SecondExact C.astro) {e : ℝ} (he : IsEquinox 2059 e) : ∃ b t : ℚ,
    C.jdFromBadiDateDefault ⟨216, 1, 2, []⟩ = .ok b ∧ meeusFromExact b = .ok t ∧ (t : ℝ) - 1 / 1440 < e := by
  obtain ⟨a, b, ha, hb, hs, ht⟩ := first_sunsets (C := C) hA.evening (y := 216) (by norm_num) (by norm_num)
  refine ⟨b, _, hb, ht, ?_⟩
  have hD : Solar.firstDay 216 + 1 = 2473173 := by decide +kernel
  rw [hD]
  have ok : Solar.dayOk 2473173 60 = true := by decide +kernel
  have bf : Solar.beforeOk 2473173 60 (Solar.equinoxPart 2059 2473173 + 1 / 1440 - 0.00005) = true := by decide +kernel
  have c := Solar.tehranSunset_before (by decide) (by decide) ok bf
  have s1 := abs_le.mp (ss_near hA (D := 2473173) (by decide) (by decide))
  have n := abs_le.mp (Solar.seasonNear_spec 2059 Solar.spring)
  have nb : 2473000 ≤ Solar.seasonNear 2059 Solar.spring ∧ Solar.seasonNear 2059 Solar.spring ≤ 2474000 := by decide +kernel
  have nb0 : (2473000 : ℝ) ≤ Solar.seasonNear 2059 Solar.spring := by exact_mod_cast nb.1
  have nb1 : (Solar.seasonNear 2059 Solar.spring : ℝ) ≤ 2474000 := by exact_mod_cast nb.2
  have q := abs_le.mp (equinox_year he (by norm_num) (by norm_num) (by linarith [n.1, n.2]) (by linarith [n.1, n.2]))
  unfold Solar.equinoxPart at c
  push_cast at c
  linarith [s1.1, s1.2, q.1, q.2, n.1, n.2]

/-- C76 is false before the reform of 1582: the year -261 starts more than nine days after the equinox of 1582, and the year
-1842 more than three days before that of the year 1. -/
theorem C76_before_reform_negation {C : Cal} (hE : TehranEvening C.astro) {e f : ℝ} (he : IsEquinox 1582 e)
    (hf : IsEquinox 1 f) : ∃ a b s t : ℚ,
    C.jdFromBadiDateDefault ⟨-261, 1, 1, []⟩ = .ok a ∧ meeusFromExact a = .ok s ∧ e + 9 < s ∧
    C.jdFromBadiDateDefault ⟨-1842, 1, 1, []⟩ = .ok b ∧ meeusFromExact b = .ok t ∧ (t : ℝ) + 3 < f := by
  obtain ⟨-, a0, a1⟩ := nrJd_bounds hE (y := -261) (by norm_num) (by norm_num)
  obtain ⟨-, b0, b1⟩ := nrJd_bounds hE (y := -1842) (by norm_num) (by norm_num)
  rw [show ysInt (-261) + 1721423 = 2298950 by decide +kernel] at a0 a1
  rw [show ysInt (-1842) + 1721423 = 1721501 by decide +kernel] at b0 b1
  push_cast at a0 a1 b0 b1
  have ma := meeus_int (x := nrJd C.astro (-261)) (N := 2298950) (by push_cast; linarith) (by push_cast; linarith)
  have mb := meeus_int (x := nrJd C.astro (-1842)) (N := 1721501) (by push_cast; linarith) (by push_cast; linarith)
  rw [if_neg (by norm_num), show iLookup 2298950 iMeeusTable = 12 by decide] at ma
  rw [if_neg (by norm_num), show iLookup 1721501 iMeeusTable = 0 by decide] at mb
  have ea := abs_le.mp (fl_err_le (x := nrJd C.astro (-261) + ((12 : ℤ) : ℚ)) (B := 4194304)
    (abs_le.mpr ⟨by push_cast; linarith, by push_cast; linarith⟩))
  have eb := abs_le.mp (fl_err_le (x := nrJd C.astro (-1842) + ((0 : ℤ) : ℚ)) (B := 4194304)
    (abs_le.mpr ⟨by push_cast; linarith, by push_cast; linarith⟩))
  refine ⟨_, _, _, _, nr_jd hE (by norm_num) (by norm_num), ma, ?_, nr_jd hE (by norm_num) (by norm_num), mb, ?_⟩
  · have n := abs_le.mp (Solar.seasonNear_spec 1582 Solar.spring)
    have nb : 2298952 ≤ Solar.seasonNear 1582 Solar.spring ∧ Solar.seasonNear 1582 Solar.spring ≤ 2298952.6 := by decide +kernel
    have nb0 : (2298952 : ℝ) ≤ Solar.seasonNear 1582 Solar.spring := by exact_mod_cast nb.1
    have nb1 : (Solar.seasonNear 1582 Solar.spring : ℝ) ≤ 2298952.6 := Solar.castLe nb.2 (by norm_num)
    have q := abs_le.mp (equinox_year he (by norm_num) (by norm_num) (by linarith [n.1, n.2]) (by linarith [n.1, n.2]))
    have l : (2298962 : ℚ) ≤ fl (nrJd C.astro (-261) + ((12 : ℤ) : ℚ)) := by
      push_cast at ea ⊢
      linarith [ea.1, ea.2]
    have l' : (2298962 : ℝ) ≤ fl (nrJd C.astro (-261) + ((12 : ℤ) : ℚ)) := by exact_mod_cast l
    linarith [n.1, n.2, q.1, q.2]
  · have n := abs_le.mp (Solar.seasonNear_spec 1 Solar.spring)
    have nb : 1721504.5 ≤ Solar.seasonNear 1 Solar.spring ∧ Solar.seasonNear 1 Solar.spring ≤ 1721505 := by decide +kernel
    have nb0 : (1721504.5 : ℝ) ≤ Solar.seasonNear 1 Solar.spring := Solar.castGe nb.1 (by norm_num)
    have nb1 : (Solar.seasonNear 1 Solar.spring : ℝ) ≤ 1721505 := by exact_mod_cast nb.2
    have q := abs_le.mp (equinox_year hf (by norm_num) (by norm_num) (by linarith [n.1, n.2]) (by linarith [n.1, n.2]))
    have l : fl (nrJd C.astro (-1842) + ((0 : ℤ) : ℚ)) ≤ 1721501.2 := by
      push_cast at eb ⊢
      linarith [eb.1, eb.2]
    have l' : (fl (nrJd C.astro (-1842) + ((0 : ℤ) : ℚ)) : ℝ) ≤ 1721501.2 := Solar.castLe l (by norm_num)
    generalize (fl (nrJd C.astro (-1842) + ((0 : ℤ) : ℚ)) : ℝ) = z at l' ⊢
    norm_num at *
    linarith [n.1, n.2, q.1, q.2]

/-- The two equinoxes exist. -/
example : (∃ e : ℝ, IsEquinox 1582 e) ∧ (∃ f : ℝ, IsEquinox 1 f) ∧ ∃ g : ℝ, IsEquinox 2059 g :=
  ⟨isEquinox_exists (march := 2298942.5) (by decide +kernel), isEquinox_exists (march := 1721482.5) (by decide +kernel),
    isEquinox_exists (march := 2473153.5) (by decide +kernel)⟩

end Verif
