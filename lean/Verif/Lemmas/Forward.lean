import Verif.Lemmas.BadiJd

/-!
# `jd_from_badi_date` in Tehran: all outcomes, with a time of day
-/

namespace Verif

theorem jd_time {C : Cal} (hE : TehranEvening C.astro) {y m d days : ℤ} {t : List ℚ}
    (hchk : C.checkShort ⟨y, m, d, t⟩ = .ok ()) (hdays : C.daysBefore y m = .ok days)
    {N : ℤ} (hN : N = daysInYears (y - 1) + 2394644 + days + d)
    (h0 : eraFirst + 10 ≤ N) (h1 : N ≤ eraLast - 20) :
    C.jdFromBadiDateDefault ⟨y, m, d, t⟩ =
      if 2299149 ≤ N ∧ N ≤ 2299158 then .error .value
      else if histDay y N ∈ iInvalid then .error .value
      else (decimalDayFromHms (getHms t).1 (getHms t).2.1 (getHms t).2.2.1 (getHms t).2.2.2 >>=
        fun f => .ok (pyRound (fl (ssOf C.astro tehranLat tehranLon (histDay y N)
          - iLookup (histDay y N) iExactTable + f)) 12)) := by
  have e0 : eraFirst = 1721000 := rfl
  have e1 : eraLast = 2820000 := rfl
  have bm := iMeeus_bounds N
  have be := iExact_bounds (histDay y N)
  have bc := getDayCoeff_cases y
  have hM : histDay y N = N + iLookup N iMeeusTable + getDayCoeff y := rfl
  have hM0 : eraFirst ≤ histDay y N := by omega
  have hM1 : histDay y N ≤ eraLast := by omega
  obtain ⟨hf, hs0, hs1⟩ := ssOf_tehran hM0 hM1 hE
  have hMq0 : (1721000 : ℚ) ≤ histDay y N := by exact_mod_cast hM0
  have hMq1 : (histDay y N : ℚ) ≤ 2820000 := by exact_mod_cast hM1
  have ebe : (iLookup (histDay y N) iExactTable : ℚ) ≤ 12 := by exact_mod_cast be.2
  unfold Cal.jdFromBadiDateDefault Cal.jdFromBadiDate
  rw [hchk, pyOk_bind]
  simp only []
  rw [hdays, pyOk_bind, epochFloor]
  have hjd : fl (((daysInYears (y - 1) + 2394644 + days : ℤ) : ℚ) + (d : ℚ)) = (N : ℚ) := by
    have : ((daysInYears (y - 1) + 2394644 + days : ℤ) : ℚ) + (d : ℚ) = (N : ℚ) := by
      rw [hN]; push_cast; ring
    rw [this]; apply fl_int; rw [abs_le]; constructor <;> norm_num <;> omega
  rw [hjd, meeus_int (le_refl _) (by linarith)]
  split_ifs with hg hv
  · rfl
  all_goals
    rw [pyOk_bind]
    have hj0 : fl ((N : ℚ) + (iLookup N iMeeusTable : ℚ))
        = ((N + iLookup N iMeeusTable : ℤ) : ℚ) := by
      rw [← Int.cast_add]; apply fl_int; rw [abs_le]; constructor <;> norm_num <;> omega
    have hj1 : fl (((N + iLookup N iMeeusTable : ℤ) : ℚ) + (getDayCoeff y : ℚ))
        = ((histDay y N : ℤ) : ℚ) := by
      rw [← Int.cast_add, hM]; apply fl_int; rw [abs_le]; constructor <;> norm_num <;> omega
    rw [hj0, hj1, sunSetting_eq]
    have l0 := lonFracT_lo; have l1 := lonFracT_hi
    have hc : civilDay ((histDay y N : ℤ) : ℚ) (fl (tehranLon / 360)) = histDay y N := by
      unfold lonFracT at l0 l1
      apply civilDay_eq _ _ lonT_abs <;> linarith
    rw [hc, exact_int (M := histDay y N) (by linarith) (by linarith)]
  · rw [if_pos hv]; rfl
  · rw [if_neg hv, pyOk_bind, fl_sub_small hf _ be.1 (by omega) (by linarith) (by linarith)]

/-- The bad days with their dates. -/
def lostTable : List (ℤ × ℤ × ℤ × ℤ) :=
  (changeDays.zip changeEves) ++
  ((changeDays.map (· + 1)).zip changeDates) ++
  (([2299148, 2299149, 2299150, 2299151, 2299152, 2299153, 2299154, 2299155, 2299156,
    2299157] : List ℤ).zip reformDates) ++ [(2299158, reformEnd)]

theorem lostTable_day {A : Astro} (hE : TehranEvening A) :
    ∀ q ∈ lostTable, DayNumber (Cal.init A) q.2.1 q.2.2.1 q.2.2.2 (q.1 - 1721423) := by
  have h : ∀ q ∈ lostTable, -1843 ≤ q.2.1 ∧ q.2.1 ≤ 1161 ∧
      ((1 ≤ q.2.2.1 ∧ q.2.2.1 ≤ 19 ∧ 1 ≤ q.2.2.2 ∧ q.2.2.2 ≤ 19) ∨
        (q.2.2.1 = 0 ∧ 1 ≤ q.2.2.2 ∧ q.2.2.2 ≤ if leapOf q.2.1 then 5 else 4)) ∧
      q.1 - 1721423 = ysInt q.2.1 + dBefore (leapOf q.2.1) q.2.2.1 + q.2.2.2 - 1 := by
    decide +kernel
  intro q hq
  exact (dayNumber_iff hE).mpr (h q hq)

theorem lost_of_day {A : Astro} (hE : TehranEvening A) {y m d n : ℤ}
    (hd : DayNumber (Cal.init A) y m d n) (L : List (ℤ × ℤ × ℤ × ℤ)) (hL : ∀ q ∈ L, q ∈ lostTable)
    (h : n + 1721423 ∈ L.map (·.1)) : (y, m, d) ∈ L.map (·.2) := by
  obtain ⟨q, hq, e⟩ := List.mem_map.mp h
  have := lostTable_day hE q (hL q hq)
  rw [e, show n + 1721423 - 1721423 = n by ring] at this
  obtain ⟨a, b, c⟩ := dayNumber_unique hE hd this
  exact List.mem_map.mpr ⟨q, hq, by rw [a, b, c]⟩

theorem day_of_lost {A : Astro} (hE : TehranEvening A) {y m d n : ℤ}
    (hd : DayNumber (Cal.init A) y m d n) (L : List (ℤ × ℤ × ℤ × ℤ)) (hL : ∀ q ∈ L, q ∈ lostTable)
    (h : (y, m, d) ∈ L.map (·.2)) : n + 1721423 ∈ L.map (·.1) := by
  obtain ⟨q, hq, e⟩ := List.mem_map.mp h
  have h' := lostTable_day hE q (hL q hq)
  rw [e] at h'
  have := dayNumber_fun hE hd h'
  exact List.mem_map.mpr ⟨q, hq, by omega⟩

/-- The days of `badDays` with their dates. -/
def badTable : List (ℤ × ℤ × ℤ × ℤ) :=
  (changeDays.zip changeEves) ++ (([2299148, 2299149, 2299150, 2299151, 2299152,
    2299153, 2299154, 2299155, 2299156, 2299157] : List ℤ).zip reformDates) ++ [(2299158, reformEnd)]

theorem notin_badDays {A : Astro} (hE : TehranEvening A) {y m d n : ℤ}
    (hd : DayNumber (Cal.init A) y m d n) (h : (y, m, d) ∉ changeEves) (h' : (y, m, d) ∉ reformDates)
    (h'' : (y, m, d) ≠ reformEnd) : n + 1721423 ∉ badDays := by
  intro hb
  have e : badDays = badTable.map (·.1) := by decide
  rw [e] at hb
  have := lost_of_day hE hd badTable (by decide) hb
  have e2 : badTable.map (·.2) = changeEves ++ reformDates ++ [reformEnd] := by decide
  rw [e2] at this
  simp only [List.mem_append, List.mem_singleton] at this
  tauto

theorem notin_changeDays {A : Astro} (hE : TehranEvening A) {y m d n : ℤ}
    (hd : DayNumber (Cal.init A) y m d n) (h : (y, m, d) ∉ changeDates) :
    n + 1721423 - 1 ∉ changeDays := by
  intro hb
  have e : (changeDays.map (· + 1)) = ((changeDays.map (· + 1)).zip changeDates).map (·.1) := by
    decide
  have hb' : n + 1721423 ∈ changeDays.map (· + 1) :=
    List.mem_map.mpr ⟨_, hb, by ring⟩
  rw [e] at hb'
  have := lost_of_day hE hd _ (by decide) hb'
  have e2 : ((changeDays.map (· + 1)).zip changeDates).map (·.2) = changeDates := by decide
  rw [e2] at this
  exact h this

/-- Start of the day of a date. -/
theorem date_jd' {A : Astro} (hE : TehranEvening A) {y m d n : ℤ}
    (hd : DayNumber (Cal.init A) y m d n) (hb : n + 1721423 ∉ badDays) :
    (Cal.init A).jdFromBadiDateDefault ⟨y, m, d, []⟩ = .ok (ssE A (n + 1721423)) := by
  obtain ⟨h0, h1, hv, hn⟩ := (dayNumber_iff hE).mp hd
  exact date_jd (C := Cal.init A) hE h0 (by omega) (init_isLeap hE h0 h1) hv
    (by rw [hn]; unfold leapOf; ring) hb

/-- The same with a time of day. -/
theorem date_jd_time {A : Astro} (hE : TehranEvening A) {y m d n : ℤ} {t : List ℚ}
    (hd : DayNumber (Cal.init A) y m d n) (hb : n + 1721423 ∉ badDays)
    (hchk : (Cal.init A).checkShort ⟨y, m, d, t⟩ = .ok ()) :
    (Cal.init A).jdFromBadiDateDefault ⟨y, m, d, t⟩ =
      (decimalDayFromHms (getHms t).1 (getHms t).2.1 (getHms t).2.2.1 (getHms t).2.2.2 >>=
        fun f => .ok (pyRound (fl (ssE A (n + 1721423) + f)) 12)) := by
  obtain ⟨h0, h1, hv, hn⟩ := (dayNumber_iff hE).mp hd
  have hr := dBefore_range hv
  have hr2 : dBefore (leapOf y) m + d ≤ 366 := by split_ifs at hr <;> omega
  have hnb := nrN_bounds h0 (by omega)
  have hl := init_isLeap hE h0 h1
  set N := daysInYears (y - 1) + 2394644 + dBefore (leapOf y) m + d with hN
  have hPN : n + 1721423 = N + getDayCoeff y := by rw [hn, hN]; unfold ysInt; ring
  have hnr : nrN y = daysInYears (y - 1) + 2394645 := rfl
  have bc := getDayCoeff_cases y
  obtain ⟨g1, g2, g3⟩ := good_day (y := y) (N := N) (by omega) (by omega) (by rw [← hPN]; exact hb)
  rw [← hPN] at g2 g3
  obtain ⟨v1, v2⟩ := exact_of_meeus g3
  have := jd_time (C := Cal.init A) hE (y := y) (m := m) (d := d) (days := dBefore (leapOf y) m)
    hchk (daysBefore_eq hl m) (N := N) hN (by unfold eraFirst; omega) (by unfold eraLast; omega)
  rw [this, if_neg g1, g2, if_neg v1, v2]; rfl

/-- The dates whose conversion raises. -/
theorem date_jd_err {A : Astro} (hE : TehranEvening A) {y m d n : ℤ} {t : List ℚ}
    (hd : DayNumber (Cal.init A) y m d n) (hb : (y, m, d) ∈ changeEves ++ reformDates)
    (hchk : (Cal.init A).checkShort ⟨y, m, d, t⟩ = .ok ()) :
    (Cal.init A).jdFromBadiDateDefault ⟨y, m, d, t⟩ = .error .value := by
  obtain ⟨h0, h1, hv, hn⟩ := (dayNumber_iff hE).mp hd
  have hl := init_isLeap hE h0 h1
  have key : ∀ q ∈ changeEves ++ reformDates,
      let N := daysInYears (q.1 - 1) + 2394644 + dBefore (leapOf q.1) q.2.1 + q.2.2
      1721010 ≤ N ∧ N ≤ 2819980 ∧ ((2299149 ≤ N ∧ N ≤ 2299158) ∨ histDay q.1 N ∈ iInvalid) := by
    decide +kernel
  obtain ⟨k0, k1, k2⟩ := key _ hb
  have := jd_time (C := Cal.init A) hE (y := y) (m := m) (d := d) (days := dBefore (leapOf y) m)
    hchk (daysBefore_eq hl m) rfl k0 k1
  rw [this]
  rcases k2 with k | k
  · rw [if_pos k]
  · rw [if_pos k, ite_self]

/-- The date after the reform gap is given the JD of a day ten days earlier. -/
theorem date_jd_reform {A : Astro} (hE : TehranEvening A) :
    (Cal.init A).jdFromBadiDateDefault ⟨-261, 11, 19, []⟩ = .ok (ssE A 2299148) := by
  have hd := lostTable_day hE (2299158, reformEnd) (by decide)
  simp only [reformEnd] at hd
  obtain ⟨h0, h1, hv, hn⟩ := (dayNumber_iff hE).mp hd
  have hl := init_isLeap hE h0 h1
  have hchk := checkShort_day hl h0 (by omega) hv
  have := jd_time (C := Cal.init A) hE (y := -261) (m := 11) (d := 19)
    (days := dBefore (leapOf (-261)) 11) (N := 2299159)
    hchk (daysBefore_eq hl 11) (by decide +kernel) (by decide) (by decide)
  have e1 : histDay (-261) 2299159 = 2299160 := by decide +kernel
  have e2 : iLookup 2299160 iExactTable = 12 := by decide
  have e3 : iLookup 2299148 iMeeusTable = 12 := by decide
  rw [if_neg (by omega), e1, if_neg (by decide), e2] at this
  simp only [getHms, List.getD_nil] at this
  rw [decimalDay_zero, pyOk_bind, add_zero] at this
  have es : ssOf (Cal.init A).astro tehranLat tehranLon 2299160 - ((12 : ℤ) : ℚ) = ssE A 2299148 := by
    unfold ssE; rw [e3]; rfl
  obtain ⟨sf, s0, s1⟩ := ssE_bounds hE (P := 2299148) (by omega) (by omega)
  rw [es, sf, pyRound12_id sf (by rw [abs_of_nonneg] <;> push_cast at s0 <;> linarith)] at this
  exact_mod_cast this

/-- Value of a time of day in days. -/
theorem decimalDay_err {h mi : ℤ} {s : ℚ} (h0 : 0 ≤ h) (h1 : h ≤ 24) (mi0 : 0 ≤ mi) (mi1 : mi < 60)
    (s0 : 0 ≤ s) (s1 : s < 60) :
    ∃ f, decimalDayFromHms h mi s 0 = .ok f ∧ 0 ≤ f ∧
      |f - (3600 * h + 60 * mi + s) / 86400| ≤ 1 / 100000000000000 := by
  unfold decimalDayFromHms
  have hc : (pyMod1 s ≠ 0 ∧ (0 : ℚ) = 0) ∨ (pyMod1 s = 0 ∧ (0 : ℚ) ≠ 0) ∨
      (pyMod1 s = 0 ∧ (0 : ℚ) = 0) := by
    by_cases h : pyMod1 s = 0
    · exact Or.inr (Or.inr ⟨h, rfl⟩)
    · exact Or.inl ⟨h, rfl⟩
  rw [if_pos hc]
  have hq0 : (0 : ℚ) ≤ h := by exact_mod_cast h0
  have hq1 : (h : ℚ) ≤ 24 := by exact_mod_cast h1
  have mq0 : (0 : ℚ) ≤ mi := by exact_mod_cast mi0
  have mq1 : (mi : ℚ) ≤ 59 := by exact_mod_cast (by omega : mi ≤ 59)
  have e1 : fl ((h : ℚ) * 3600) = h * 3600 := by
    have := fl_int (h * 3600) (by rw [abs_le]; constructor <;> omega)
    exact_mod_cast this
  have e2 : fl ((mi : ℚ) * 60) = mi * 60 := by
    have := fl_int (mi * 60) (by rw [abs_le]; constructor <;> omega)
    exact_mod_cast this
  have e3 : fl ((h : ℚ) * 3600 + mi * 60) = h * 3600 + mi * 60 := by
    have := fl_int (h * 3600 + mi * 60) (by rw [abs_le]; constructor <;> omega)
    exact_mod_cast this
  rw [e1, e2, e3]
  simp only [zero_div, fl_zero, add_zero]
  rw [fl_idem]
  refine ⟨_, rfl, fl_nonneg (div_nonneg (fl_nonneg (by positivity)) (by norm_num)), ?_⟩
  have a := abs_le.mp (fl_err_le (x := (h : ℚ) * 3600 + mi * 60 + s) (B := 90000)
    (by rw [abs_of_nonneg (by positivity)]; linarith))
  have hT : 0 ≤ fl ((h : ℚ) * 3600 + mi * 60 + s) := fl_nonneg (by positivity)
  have b := abs_le.mp (fl_err_le (x := fl ((h : ℚ) * 3600 + mi * 60 + s) / 86400) (B := 2)
    (by rw [abs_of_nonneg (by positivity)]; linarith))
  rw [abs_le]; constructor <;> linarith

/-- The day number an instant is given. -/
theorem ymd_day {A : Astro} (hE : TehranEvening A) {x fr : ℚ} {y m d P : ℤ} (hx : IsF64 x)
    (hP0 : 1721100 ≤ P) (hP1 : P ≤ 2819700) (h0 : ssE A P ≤ x) (h1 : x < ssE A (P + 1))
    (hr : (Cal.init A).badiYmdFromJd x tehranLat tehranLon = .ok (y, m, d, fr)) :
    ∃ n, DayNumber (Cal.init A) y m d n ∧ 0 ≤ fr ∧
      ((n + 1721423 = P ∧ x - ssE A P < 1 ∧ ¬ (2299149 ≤ P ∧ P ≤ 2299158)) ∨
       (n + 1721423 = P + 1 ∧ 1 ≤ x - ssE A P ∧ ¬ (2299148 ≤ P ∧ P ≤ 2299158)) ∨
       (n + 1721423 = 2299149 ∧ P = 2299158)) := by
  have hP0q : (1721100 : ℚ) ≤ P := by exact_mod_cast hP0
  have hP1q : (P : ℚ) ≤ 2819700 := by exact_mod_cast hP1
  obtain ⟨sf, s0, s1⟩ := ssE_bounds hE (P := P) (by omega) (by omega)
  obtain ⟨tf, t0, t1⟩ := ssE_bounds hE (P := P + 1) (by omega) (by omega)
  obtain ⟨uf, u0, u1⟩ := ssE_bounds hE (P := P - 1) (by omega) (by omega)
  push_cast at t0 t1 u0 u1
  have l0 := lonFracT_lo; have l1 := lonFracT_hi
  have fin : ∀ (a fr' : ℚ) (Q : ℤ), (Cal.init A).utcToBadiTime x tehranLat tehranLon = .ok (a, fr') →
      1721010 ≤ Q → Q ≤ 2819900 → (Q : ℚ) + 1 / 100 ≤ a → a ≤ Q + 2 / 10 →
      ∃ n, DayNumber (Cal.init A) y m d n ∧ n + 1721423 = Q ∧ fr = fr' := by
    intro a fr' Q hu q0 q1 a0 a1
    have hc := civilDay_ssE q0 q1 a0 a1
    by_cases hn : -287 ≤ Q - 1721423 ∧ Q - 1721423 ≤ 1096902
    · obtain ⟨y', m', d', hd⟩ := dayNumber_exists hE hn.1 (by omega)
      have := ymd_ok hE hu (n := Q - 1721423) (by rw [hc]; ring) hn.2 hd
      rw [hr] at this
      injection this with this
      simp only [Prod.mk.injEq] at this
      obtain ⟨rfl, rfl, rfl, rfl⟩ := this
      exact ⟨_, hd, by ring, rfl⟩
    · have := ymd_late hE hu (n := Q - 1721423) (by rw [hc]; ring) (by omega)
      rw [hr] at this; cases this
  have shift : ∀ Q : ℤ, 1721010 ≤ Q → Q ≤ 2819800 → |fl (ssE A Q + 1) - (ssE A Q + 1)| ≤ 1 / 100000 := by
    intro Q q0 q1
    obtain ⟨-, v0, v1⟩ := ssE_bounds hE (P := Q) (by omega) (by omega)
    have q0 : (1721010 : ℚ) ≤ Q := by exact_mod_cast q0
    have q1 : (Q : ℚ) ≤ 2819800 := by exact_mod_cast q1
    exact (fl_err_le (B := 4194304) (by rw [abs_of_nonneg] <;> linarith)).trans (by norm_num)
  rcases utc_cases hE hx hP0 hP1 h0 h1 with ⟨h, -⟩ | ⟨h, a, b⟩ | ⟨h, a, b⟩ | ⟨h, a⟩ | ⟨h, a, c⟩
  · rw [ymd_err h] at hr; cases hr
  · obtain ⟨n, hd, hn, hf⟩ := fin _ _ P h (by omega) (by omega) (by linarith) (by linarith)
    exact ⟨n, hd, by rw [hf]; linarith, Or.inl ⟨hn, a, b⟩⟩
  · have sh := abs_le.mp (shift P (by omega) (by omega))
    obtain ⟨n, hd, hn, hf⟩ := fin _ _ (P + 1) h (by omega) (by omega) (by push_cast; linarith)
      (by push_cast; linarith)
    refine ⟨n, hd, ?_, Or.inr (Or.inl ⟨hn, a, b⟩)⟩
    rw [hf]
    apply fl_nonneg
    have := fl_le_of_le (x := ssE A P + 1) (y := x) (by linarith) hx
    linarith
  · subst a
    have sh := abs_le.mp (shift 2299148 (by omega) (by omega))
    obtain ⟨-, v0, v1⟩ := ssE_bounds hE (P := 2299148) (by omega) (by omega)
    push_cast at v0 v1 s0 s1
    obtain ⟨n, hd, hn, hf⟩ := fin _ _ 2299149 h (by omega) (by omega) (by push_cast; linarith)
      (by push_cast; linarith)
    refine ⟨n, hd, ?_, Or.inr (Or.inr ⟨hn, rfl⟩)⟩
    rw [hf]
    apply fl_nonneg
    linarith
  · have sh := abs_le.mp (shift (P - 1) (by omega) (by omega))
    have c := abs_le.mp c
    obtain ⟨n, hd, hn, hf⟩ := fin _ _ P h (by omega) (by omega) (by linarith) (by linarith)
    refine ⟨n, hd, ?_, Or.inl ⟨hn, by linarith, by omega⟩⟩
    rw [hf]
    apply fl_nonneg
    linarith

/-- An instant away from the one midnight where the sunset of the day before is taken. -/
theorem not_midnight {x : ℚ} {n : ℤ} (hn : n + 1721423 = 2097144) (h : n = 375721 → 1 / 1000000 < |x - 2097144.3575315|) :
    ¬ |x + lonFracT + 1 / 2 - ((n + 1721423 : ℤ) + 1)| ≤ 1 / 50000000 := by
  intro h'
  rw [hn] at h'
  have h := h (by omega)
  have l0 := lonFracT_lo; have l1 := lonFracT_hi
  have h' := abs_le.mp h'
  rw [lt_abs] at h
  norm_num at h h'
  rcases h with h | h <;> linarith

end Verif
