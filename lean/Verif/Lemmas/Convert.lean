import Verif.Lemmas.Days

/-!
# Helper lemmas: date to Julian Period day and back (Tehran)
-/

namespace Verif

/-- The exact JD of the Tehran sunset of civil day `P` (exact numbering), as the code computes it. -/
def ssE (A : Astro) (P : ℤ) : ℚ :=
  ssOf A tehranLat tehranLon (P + iLookup P iMeeusTable) - iLookup P iMeeusTable

theorem ssE_bounds {A : Astro} (hE : TehranEvening A) {P : ℤ} (h0 : 1721010 ≤ P)
    (h1 : P ≤ 2819900) :
    IsF64 (ssE A P) ∧ (P : ℚ) + 2 / 100 ≤ ssE A P ∧ ssE A P ≤ P + 195 / 1000 := by
  have bm := iMeeus_bounds P
  have e0 : eraFirst = 1721000 := rfl
  have e1 : eraLast = 2820000 := rfl
  obtain ⟨hf, hs0, hs1⟩ := ssOf_tehran (A := A) (D := P + iLookup P iMeeusTable) (by omega)
    (by omega) hE
  push_cast at hs0 hs1
  have hPq0 : (1721010 : ℚ) ≤ P := by exact_mod_cast h0
  have hPq1 : (P : ℚ) ≤ 2819900 := by exact_mod_cast h1
  have b0 : (0 : ℚ) ≤ iLookup P iMeeusTable := by exact_mod_cast bm.1
  have b1 : (iLookup P iMeeusTable : ℚ) ≤ 12 := by exact_mod_cast bm.2
  have hx := fl_sub_small hf _ bm.1 (by omega) (by linarith) (by linarith)
  unfold ssE
  exact ⟨hx, by linarith, by linarith⟩

/-- `_exact_from_meeus` of a Tehran sunset. -/
theorem exact_ss {A : Astro} (hE : TehranEvening A) {D : ℤ} (h0 : 1721000 ≤ D)
    (h1 : D ≤ 2820000) :
    exactFromMeeus (ssOf A tehranLat tehranLon D) =
      if D ∈ iInvalid then .error .value
      else .ok (ssOf A tehranLat tehranLon D - iLookup D iExactTable) := by
  obtain ⟨hf, hs0, hs1⟩ := ssOf_tehran (A := A) (D := D) h0 h1 hE
  have be := iExact_bounds D
  have hq0 : (1721000 : ℚ) ≤ D := by exact_mod_cast h0
  have hq1 : (D : ℚ) ≤ 2820000 := by exact_mod_cast h1
  rw [exact_int (M := D) (by linarith) (by linarith)]
  rw [fl_sub_small hf _ be.1 (by omega) (by linarith) (by linarith)]

theorem exact_ssE {A : Astro} (hE : TehranEvening A) {P : ℤ} (h0 : 1721010 ≤ P)
    (h1 : P ≤ 2819900) (hg : ¬ (2299149 ≤ P ∧ P ≤ 2299158)) :
    exactFromMeeus (ssOf A tehranLat tehranLon (P + iLookup P iMeeusTable)) = .ok (ssE A P) := by
  have bm := iMeeus_bounds P
  obtain ⟨a, b⟩ := exact_of_meeus hg
  rw [exact_ss hE (by omega) (by omega), if_neg a, b]; rfl

/-! ### Forward -/

theorem checkTail_day {C : Cal} {y m d c : ℤ} (hm0 : 0 ≤ m) (hm1 : m ≤ 19)
    (hc : C.cycleOf y m = .ok c) (hd0 : 1 ≤ d) (hd1 : d < c) :
    C.checkTail y m (d : ℚ) [] = .ok () := by
  unfold Cal.checkTail
  simp only [getHms, List.getD_nil]
  rw [pyAssert_true (by omega), pyOk_bind, hc, pyOk_bind,
    pyAssert_true (by constructor <;> exact_mod_cast (by omega)), pyOk_bind]
  simp [checkValidBadiTime, pyAssert, bind, Except.bind, checkFractions]

/-- Days before a month of a year, on integers. -/
def dBefore (leap : Bool) (m : ℤ) : ℤ :=
  if m = 0 then 342 else if m < 19 then (m - 1) * 19 else if leap then 347 else 346

theorem daysBefore_eq {C : Cal} {y : ℤ} {leap : Bool} (hl : C.isLeapYear y = .ok leap) (m : ℤ) :
    C.daysBefore y m = .ok (dBefore leap m) := by
  unfold Cal.daysBefore dBefore
  split_ifs <;> simp_all [bind, Except.bind]

theorem dBefore_range {leap : Bool} {m d : ℤ} (hv : ValidMD leap m d) :
    1 ≤ dBefore leap m + d ∧ dBefore leap m + d ≤ 365 + (if leap then 1 else 0) := by
  unfold ValidMD at hv
  unfold dBefore
  cases leap <;> simp at * <;> split_ifs <;> omega

theorem cycleOf_valid {C : Cal} {y m d : ℤ} {leap : Bool} (hl : C.isLeapYear y = .ok leap)
    (hv : ValidMD leap m d) : ∃ c, C.cycleOf y m = .ok c ∧ 1 ≤ d ∧ d < c ∧ 0 ≤ m ∧ m ≤ 19 := by
  unfold Cal.cycleOf
  rcases hv with ⟨a, b, c, e⟩ | ⟨rfl, a, b⟩
  · exact ⟨20, by rw [if_neg (by omega)], by omega, by omega, by omega, by omega⟩
  · refine ⟨5 + if leap then 1 else 0, by simp [hl, bind, Except.bind], by omega, ?_, by omega,
      by omega⟩
    split_ifs at * <;> omega

theorem checkShort_day {C : Cal} {y m d : ℤ} {leap : Bool} (hl : C.isLeapYear y = .ok leap)
    (hy0 : -1843 ≤ y) (hy1 : y ≤ 1162) (hv : ValidMD leap m d) :
    C.checkShort ⟨y, m, d, []⟩ = .ok () := by
  obtain ⟨c, hc, d0, d1, m0, m1⟩ := cycleOf_valid hl hv
  unfold Cal.checkShort
  rw [pyAssert_true (by simp [minYear, maxYear]; omega), pyOk_bind]
  exact checkTail_day m0 m1 hc d0 d1

/-- JD of the start of a date: the sunset of its day. -/
theorem date_jd {C : Cal} (hE : TehranEvening C.astro) {y m d : ℤ} {leap : Bool}
    (hy0 : -1843 ≤ y) (hy1 : y ≤ 1162) (hl : C.isLeapYear y = .ok leap) (hv : ValidMD leap m d)
    {P : ℤ} (hP : P = ysInt y + 1721422 + dBefore leap m + d) (hb : P ∉ badDays) :
    C.jdFromBadiDateDefault ⟨y, m, d, []⟩ = .ok (ssE C.astro P) := by
  have hr := dBefore_range hv
  have hr2 : dBefore leap m + d ≤ 366 := by split_ifs at hr <;> omega
  have hnb := nrN_bounds hy0 hy1
  set N := daysInYears (y - 1) + 2394644 + dBefore leap m + d with hN
  have hPN : P = N + getDayCoeff y := by rw [hP, hN]; unfold ysInt; ring
  have hnr : nrN y = daysInYears (y - 1) + 2394645 := rfl
  have bc := getDayCoeff_cases y
  obtain ⟨g1, g2, g3⟩ := good_day (y := y) (N := N) (by omega) (by omega) (by rw [← hPN]; exact hb)
  rw [← hPN] at g2 g3
  obtain ⟨v1, v2⟩ := exact_of_meeus g3
  have := jd_int (C := C) hE (y := y) (m := m) (d := d) (days := dBefore leap m)
    (checkShort_day hl hy0 hy1 hv) (daysBefore_eq hl m) (N := N) hN
    (by unfold eraFirst; omega) (by unfold eraLast; omega) g1 (by rw [g2]; exact v1)
  rw [this, g2, v2]; rfl

/-! ### Backward -/

theorem lookup_floor {x : ℚ} (t : List (ℚ × ℤ)) (s : List (ℤ × ℤ))
    (hts : t = s.map (fun p => ((p.1 : ℚ) + 1 / 2, p.2))) :
    lookupDiff x t = iLookup ⌊x + 1 / 2⌋ s := by
  subst hts
  have key : ∀ K : ℤ, x < (K : ℚ) + 1 / 2 ↔ ⌊x + 1 / 2⌋ ≤ K := by
    intro K
    rw [← Int.lt_add_one_iff, Int.floor_lt]
    push_cast
    constructor <;> intro h <;> linarith
  induction s with
  | nil => rfl
  | cons p r ih =>
    simp only [List.map_cons, lookupDiff, iLookup]
    rw [ih]
    by_cases h : ⌊x + 1 / 2⌋ ≤ p.1
    · rw [if_pos h, if_pos ((key _).mpr h)]
    · rw [if_neg h, if_neg (fun hh => h ((key _).mp hh))]

theorem roundHalfEven_sub_even (z : ℚ) (k : ℤ) :
    roundHalfEven (z - ((2 * k : ℤ) : ℚ)) = roundHalfEven z - 2 * k := by
  unfold roundHalfEven
  simp only [Int.floor_sub_intCast]
  have e : z - ((2 * k : ℤ) : ℚ) - ((⌊z⌋ - 2 * k : ℤ) : ℚ) = z - ⌊z⌋ := by push_cast; ring
  rw [e]
  have e2 : (⌊z⌋ - 2 * k) % 2 = ⌊z⌋ % 2 := by omega
  rw [e2]
  split_ifs <;> ring

/-- Inside one binade rounding commutes with a shift by one. -/
theorem fl_sub_one {y : ℚ} {e : ℕ} (he : e ≤ 50) (h0 : pow2 e ≤ y - 1) (h1 : y < pow2 (e + 1)) :
    fl (y - 1) = fl y - 1 := by
  have hp := pow2_pos (e : ℤ)
  have i1 : ilog2 (y - 1) = e := ilog2_unique (by rw [abs_of_pos (by linarith)]; exact h0)
    (by rw [abs_of_pos (by linarith)]; linarith)
  have i2 : ilog2 y = e := ilog2_unique (by rw [abs_of_pos (by linarith)]; linarith)
    (by rw [abs_of_pos (by linarith)]; exact h1)
  rw [fl_ne (show y - 1 ≠ 0 by linarith), fl_ne (show y ≠ 0 by linarith), i1, i2]
  have up := pow2_pos ((e : ℤ) - 52)
  set u := pow2 ((e : ℤ) - 52) with hu
  have hone : ((2 * 2 ^ (51 - e) : ℤ) : ℚ) * u = 1 := by
    rw [hu, pow2_eq]
    push_cast
    rw [← pow_succ', ← zpow_natCast, ← zpow_add₀ (by norm_num)]
    have : ((51 - e + 1 : ℕ) : ℤ) + ((e : ℤ) - 52) = 0 := by omega
    rw [this, zpow_zero]
  have e1 : (y - 1) / u = y / u - ((2 * 2 ^ (51 - e) : ℤ) : ℚ) := by
    rw [div_eq_iff up.ne', sub_mul, hone, div_mul_cancel₀ _ up.ne']
  rw [e1, roundHalfEven_sub_even]
  have : ((roundHalfEven (y / u) - 2 * 2 ^ (51 - e) : ℤ) : ℚ) * u
      = roundHalfEven (y / u) * u - ((2 * 2 ^ (51 - e) : ℤ) : ℚ) * u := by push_cast; ring
  rw [this, hone]

/-- The civil day one day earlier. -/
theorem civilDay_pred {x lf : ℚ} (hl : |lf| ≤ 1 / 2)
    (hx : (1048580 ≤ x ∧ x ≤ 2097150) ∨ (2097155 ≤ x ∧ x ≤ 4194300)) :
    civilDay (x - 1) lf = civilDay x lf - 1 := by
  have ha := abs_le.mp hl
  unfold civilDay
  have er := abs_le.mp (fl_err_le (x := x + lf) (B := 4194304)
    (abs_le.mpr ⟨by rcases hx with h | h <;> linarith, by rcases hx with h | h <;> linarith⟩))
  have key : ∀ y : ℚ, (1048578 ≤ y ∧ y ≤ 2097151 + 1 / 2 ) ∨ (2097154 ≤ y ∧ y ≤ 4194302) →
      fl (y - 1) = fl y - 1 := by
    intro y hy
    rcases hy with h | h
    · apply fl_sub_one (e := 20) (by norm_num)
      · have : pow2 (20 : ℕ) = 1048576 := by rw [pow2_nat]; norm_num
        rw [this]; linarith
      · have : pow2 ((20 : ℕ) + 1) = 2097152 := by
          rw [show ((20 : ℕ) : ℤ) + 1 = ((21 : ℕ) : ℤ) by norm_num, pow2_nat]; norm_num
        rw [this]; linarith
    · apply fl_sub_one (e := 21) (by norm_num)
      · have : pow2 (21 : ℕ) = 2097152 := by rw [pow2_nat]; norm_num
        rw [this]; linarith
      · have : pow2 ((21 : ℕ) + 1) = 4194304 := by
          rw [show ((21 : ℕ) : ℤ) + 1 = ((22 : ℕ) : ℤ) by norm_num, pow2_nat]; norm_num
        rw [this]; linarith
  have e1 : fl (x - 1 + lf) = fl (x + lf) - 1 := by
    rw [show x - 1 + lf = x + lf - 1 by ring]
    apply key
    rcases hx with h | h
    · left; constructor <;> linarith
    · right; constructor <;> linarith
  rw [e1, show fl (x + lf) - 1 + 1 / 2 = fl (x + lf) + 1 / 2 - 1 by ring, key]
  · have : fl (fl (x + lf) + 1 / 2) - 1 = fl (fl (x + lf) + 1 / 2) - ((1 : ℤ) : ℚ) := by norm_num
    rw [this, Int.floor_sub_intCast]
  · rcases hx with h | h
    · left; constructor <;> linarith
    · right; constructor <;> linarith

/-- The civil day one day earlier in Tehran: only one midnight is left out, that of the day on which the power of two is passed. -/
theorem civilDay_pred_tehran {x lf : ℚ} (hl0 : 14 / 100 ≤ lf) (hl1 : lf ≤ 15 / 100)
    (hx : (1048580 ≤ x ∧ x ≤ 2097151 + 1 / 2) ∨ (2097153 + 3 / 10 ≤ x ∧ x ≤ 4194300)) :
    civilDay (x - 1) lf = civilDay x lf - 1 := by
  unfold civilDay
  have er := abs_le.mp (fl_err_le (x := x + lf) (B := 4194304)
    (abs_le.mpr ⟨by rcases hx with h | h <;> linarith, by rcases hx with h | h <;> linarith⟩))
  have key : ∀ y : ℚ, (1048578 ≤ y ∧ y < 2097152) ∨ (2097153 ≤ y ∧ y ≤ 4194302) → fl (y - 1) = fl y - 1 := by
    intro y hy
    rcases hy with h | h
    · apply fl_sub_one (e := 20) (by norm_num)
      · have : pow2 (20 : ℕ) = 1048576 := by rw [pow2_nat]; norm_num
        rw [this]; linarith
      · have : pow2 ((20 : ℕ) + 1) = 2097152 := by
          rw [show ((20 : ℕ) : ℤ) + 1 = ((21 : ℕ) : ℤ) by norm_num, pow2_nat]; norm_num
        rw [this]; linarith
    · apply fl_sub_one (e := 21) (by norm_num)
      · have : pow2 (21 : ℕ) = 2097152 := by rw [pow2_nat]; norm_num
        rw [this]; linarith
      · have : pow2 ((21 : ℕ) + 1) = 4194304 := by
          rw [show ((21 : ℕ) : ℤ) + 1 = ((22 : ℕ) : ℤ) by norm_num, pow2_nat]; norm_num
        rw [this]; linarith
  have e1 : fl (x - 1 + lf) = fl (x + lf) - 1 := by
    rw [show x - 1 + lf = x + lf - 1 by ring]
    apply key
    rcases hx with h | h
    · left; constructor <;> linarith
    · right; constructor <;> linarith
  rw [e1, show fl (x + lf) - 1 + 1 / 2 = fl (x + lf) + 1 / 2 - 1 by ring]
  by_cases hb : (2097152 ≤ fl (x + lf) + 1 / 2 ∧ fl (x + lf) + 1 / 2 < 2097153)
  · have hx1 : x ≤ 2097151 + 1 / 2 := by
      rcases hx with h | h
      · exact h.2
      · linarith [hb.2]
    have a := abs_le.mp (fl_err_le (x := fl (x + lf) + 1 / 2) (B := 4194304) (abs_le.mpr ⟨by linarith, by linarith⟩))
    have b := abs_le.mp (fl_err_le (x := fl (x + lf) + 1 / 2 - 1) (B := 4194304) (abs_le.mpr ⟨by linarith, by linarith⟩))
    have c0 : ((2097152 : ℤ) : ℚ) ≤ fl (fl (x + lf) + 1 / 2) := by
      have := fl_mono (show ((2097152 : ℤ) : ℚ) ≤ fl (x + lf) + 1 / 2 by push_cast; exact hb.1)
      rwa [fl_int (n := 2097152) (by norm_num)] at this
    have c1 : ((2097151 : ℤ) : ℚ) ≤ fl (fl (x + lf) + 1 / 2 - 1) := by
      have := fl_mono (show ((2097151 : ℤ) : ℚ) ≤ fl (x + lf) + 1 / 2 - 1 by push_cast; linarith [hb.1])
      rwa [fl_int (n := 2097151) (by norm_num)] at this
    rw [Int.floor_eq_iff.mpr (⟨c0, by push_cast; linarith⟩ : ((2097152 : ℤ) : ℚ) ≤ fl (fl (x + lf) + 1 / 2) ∧ _ < ((2097152 : ℤ) : ℚ) + 1),
      Int.floor_eq_iff.mpr (⟨c1, by push_cast; linarith⟩ : ((2097151 : ℤ) : ℚ) ≤ fl (fl (x + lf) + 1 / 2 - 1) ∧ _ < ((2097151 : ℤ) : ℚ) + 1)]
    norm_num
  · rw [key]
    · have : fl (fl (x + lf) + 1 / 2) - 1 = fl (fl (x + lf) + 1 / 2) - ((1 : ℤ) : ℚ) := by norm_num
      rw [this, Int.floor_sub_intCast]
    · rcases hx with h | h
      · left
        refine ⟨by linarith, ?_⟩
        by_contra hc
        exact hb ⟨by linarith, by linarith⟩
      · right; constructor <;> linarith

/-- The choice made by `_utc_to_badi_time` between the two sunsets. -/
def pickSs (x s0 s1 : ℚ) : ℚ :=
  let a := if s1 ≤ x then s1 else s0
  let delta := fl (x - a)
  if delta < 0 then fl (a - 1) else if 1 ≤ delta then fl (a + 1) else a

theorem utc_core {C : Cal} {x lat lon h s0 s1 : ℚ} (hm : meeusFromExact x = .ok h)
    (h0 : exactFromMeeus (ssOf C.astro lat lon (civilDay (fl (h + (-1))) (fl (lon / 360)))) = .ok s0)
    (h1 : exactFromMeeus (ssOf C.astro lat lon (civilDay (fl (h + 0)) (fl (lon / 360)))) = .ok s1) :
    C.utcToBadiTime x lat lon = .ok (pickSs x s0 s1, fl (x - pickSs x s0 s1)) := by
  unfold Cal.utcToBadiTime
  rw [hm, pyOk_bind, sunSetting_eq, h0, pyOk_bind, sunSetting_eq, h1, pyOk_bind]
  rfl

theorem utc_err0 {C : Cal} {x lat lon : ℚ} {e : PyErr} (hm : meeusFromExact x = .error e) :
    C.utcToBadiTime x lat lon = .error e := by
  unfold Cal.utcToBadiTime
  rw [hm, pyErr_bind]

theorem utc_err1 {C : Cal} {x lat lon h : ℚ} {e : PyErr} (hm : meeusFromExact x = .ok h)
    (h0 : exactFromMeeus (ssOf C.astro lat lon (civilDay (fl (h + (-1))) (fl (lon / 360))))
      = .error e) : C.utcToBadiTime x lat lon = .error e := by
  unfold Cal.utcToBadiTime
  rw [hm, pyOk_bind, sunSetting_eq, h0, pyErr_bind]

theorem utc_err2 {C : Cal} {x lat lon h s0 : ℚ} {e : PyErr} (hm : meeusFromExact x = .ok h)
    (h0 : exactFromMeeus (ssOf C.astro lat lon (civilDay (fl (h + (-1))) (fl (lon / 360)))) = .ok s0)
    (h1 : exactFromMeeus (ssOf C.astro lat lon (civilDay (fl (h + 0)) (fl (lon / 360))))
      = .error e) : C.utcToBadiTime x lat lon = .error e := by
  unfold Cal.utcToBadiTime
  rw [hm, pyOk_bind, sunSetting_eq, h0, pyOk_bind, sunSetting_eq, h1, pyErr_bind]

end Verif
