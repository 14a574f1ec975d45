import Verif.Lemmas.Utc
import Verif.Lemmas.YearFromRd
import Verif.Lemmas.Hms
import Verif.Spec.Days

/-!
# `badi_date_from_jd` in Tehran
-/

namespace Verif

/-- Whether a year of the table is leap. -/
def leapOf (y : ℤ) : Bool := ysInt (y + 1) - ysInt y == 366

theorem specYear_length (leap : Bool) :
    (specYear leap).length = (if leap then 366 else 365) := by cases leap <;> decide +kernel

theorem leapOf_len {y : ℤ} (h0 : -1843 ≤ y) (h1 : y ≤ 1161) :
    ysInt (y + 1) = ysInt y + (if leapOf y then 366 else 365) := by
  unfold leapOf
  rcases ysInt_step h0 h1 with h | h <;> rw [h] <;> simp <;> omega

theorem monthDay_valid {leap : Bool} {n m d : ℤ} (h0 : 1 ≤ n)
    (h1 : n ≤ (if leap then 366 else 365)) (h : monthDayFromDoy n (ayyam leap) = (m, d)) :
    ValidMD leap m d ∧ dBefore leap m + d = n := by
  unfold monthDayFromDoy ayyam at h
  unfold ValidMD dBefore
  cases leap <;> simp only [Bool.false_eq_true, if_false, if_true] at h h1 ⊢ <;>
    split_ifs at h <;> obtain ⟨rfl, rfl⟩ := Prod.mk.inj h <;>
    refine ⟨by omega, ?_⟩ <;> split_ifs <;> omega

theorem monthDay_of_valid {leap : Bool} {m d : ℤ} (hv : ValidMD leap m d) :
    monthDayFromDoy (dBefore leap m + d) (ayyam leap) = (m, d) := by
  unfold ValidMD at hv
  unfold monthDayFromDoy ayyam dBefore
  cases leap <;> simp only [Bool.false_eq_true, if_false, if_true] at hv ⊢ <;>
    split_ifs <;> first | omega | (congr 1 <;> omega)

theorem dayNumber_iff {A : Astro} (hE : TehranEvening A) {y m d n : ℤ} :
    DayNumber (Cal.init A) y m d n ↔
      -1843 ≤ y ∧ y ≤ 1161 ∧ ValidMD (leapOf y) m d ∧
        n = ysInt y + dBefore (leapOf y) m + d - 1 := by
  constructor
  · rintro ⟨a, b, ha, hb, i, hn, hi⟩
    rw [init_yearStart hE] at ha hb
    have hu0 : -1843 ≤ y ∧ y ≤ 1162 := by by_contra h; rw [if_neg h] at ha; cases ha
    have hu1 : -1843 ≤ y + 1 ∧ y + 1 ≤ 1162 := by by_contra h; rw [if_neg h] at hb; cases hb
    rw [if_pos hu0] at ha
    rw [if_pos hu1] at hb
    obtain rfl := Option.some.inj ha
    obtain rfl := Option.some.inj hb
    change (specYear (leapOf y))[i]? = some (m, d) at hi
    have hlen : i < (specYear (leapOf y)).length := by
      by_contra hc
      rw [List.getElem?_eq_none (by omega)] at hi
      cases hi
    rw [monthDay_spec _ i hlen] at hi
    rw [specYear_length] at hlen
    obtain ⟨hv, he⟩ := monthDay_valid (leap := leapOf y) (n := (i : ℤ) + 1) (m := m) (d := d)
      (by omega) (by split_ifs at hlen ⊢ <;> omega) (Option.some.inj hi)
    exact ⟨hu0.1, by omega, hv, by omega⟩
  · rintro ⟨h0, h1, hv, hn⟩
    have ha := init_yearStart hE y
    have hb := init_yearStart hE (y + 1)
    rw [if_pos (by omega)] at ha hb
    have hr := dBefore_range hv
    refine ⟨_, _, ha, hb, (dBefore (leapOf y) m + d - 1).toNat, by omega, ?_⟩
    change (specYear (leapOf y))[_]? = some (m, d)
    rw [monthDay_spec _ _ (by rw [specYear_length]; split_ifs at hr ⊢ <;> omega)]
    rw [show ((dBefore (leapOf y) m + d - 1).toNat : ℤ) + 1 = dBefore (leapOf y) m + d by omega,
      monthDay_of_valid hv]

/-- The year of a day number, with the place in it. -/
theorem dayNumber_year {A : Astro} (hE : TehranEvening A) {y m d n : ℤ}
    (h : DayNumber (Cal.init A) y m d n) :
    -1843 ≤ y ∧ y ≤ 1161 ∧ ysInt y ≤ n ∧ n < ysInt (y + 1) := by
  obtain ⟨h0, h1, hv, hn⟩ := (dayNumber_iff hE).mp h
  have hr := dBefore_range hv
  have hl := leapOf_len h0 h1
  refine ⟨h0, h1, by omega, ?_⟩
  split_ifs at hr hl <;> omega

theorem dayNumber_exists {A : Astro} (hE : TehranEvening A) {n : ℤ} (h0 : -287 ≤ n)
    (h1 : n < 1097268) : ∃ y m d, DayNumber (Cal.init A) y m d n := by
  obtain ⟨t, t0, t1, t2, t3⟩ := year_of_rd (n := n) (a := -1843) (b := 1162) (by omega)
    (by rw [ysInt_m1843]; omega) (by rw [ysInt_1162]; omega)
  have hl := leapOf_len t0 (by omega)
  obtain ⟨hv, he⟩ := monthDay_valid (leap := leapOf t) (n := n - ysInt t + 1)
    (m := (monthDayFromDoy (n - ysInt t + 1) (ayyam (leapOf t))).1)
    (d := (monthDayFromDoy (n - ysInt t + 1) (ayyam (leapOf t))).2) (by omega) (by omega) rfl
  exact ⟨t, _, _, (dayNumber_iff hE).mpr ⟨t0, by omega, hv, by omega⟩⟩

theorem dayNumber_unique {A : Astro} (hE : TehranEvening A) {y m d n y' m' d' : ℤ}
    (h : DayNumber (Cal.init A) y m d n) (h' : DayNumber (Cal.init A) y' m' d' n) :
    y = y' ∧ m = m' ∧ d = d' := by
  obtain ⟨a0, a1, a2, a3⟩ := dayNumber_year hE h
  obtain ⟨b0, b1, b2, b3⟩ := dayNumber_year hE h'
  have e : y = y' := by
    rcases lt_trichotomy y y' with h | h | h
    · have := ysInt_mono (a := y + 1) (b := y') (by omega) (by omega) (by omega); omega
    · exact h
    · have := ysInt_mono (a := y' + 1) (b := y) (by omega) (by omega) (by omega); omega
  subst e
  obtain ⟨-, -, hv, hn⟩ := (dayNumber_iff hE).mp h
  obtain ⟨-, -, hv', hn'⟩ := (dayNumber_iff hE).mp h'
  have e1 := monthDay_of_valid hv
  have e2 := monthDay_of_valid hv'
  rw [show dBefore (leapOf y) m + d = dBefore (leapOf y) m' + d' by omega, e2] at e1
  obtain ⟨rfl, rfl⟩ := Prod.mk.inj e1
  exact ⟨rfl, rfl, rfl⟩

theorem dayNumber_fun {A : Astro} (hE : TehranEvening A) {y m d n n' : ℤ}
    (h : DayNumber (Cal.init A) y m d n) (h' : DayNumber (Cal.init A) y m d n') : n = n' := by
  have a := ((dayNumber_iff hE).mp h).2.2.2
  have b := ((dayNumber_iff hE).mp h').2.2.2
  omega

theorem civilEpoch : ⌊fl (prolepticGreg1stDay + 1 / 2)⌋ = 1721424 := by decide +kernel

theorem doyOf {A : Astro} (hE : TehranEvening A) {y m d n : ℤ}
    (h : DayNumber (Cal.init A) y m d n) :
    monthDayFromDoy (n - ysInt y + 1) (4 + if leapOf y then 1 else 0) = (m, d) := by
  obtain ⟨-, -, hv, hn⟩ := (dayNumber_iff hE).mp h
  have := monthDay_of_valid hv
  rw [show n - ysInt y + 1 = dBefore (leapOf y) m + d by omega]
  rw [show (4 + if leapOf y = true then 1 else 0 : ℤ) = ayyam (leapOf y) by
    unfold ayyam; split_ifs <;> rfl]
  exact this

/-- The date of an instant from the sunset the code picked. -/
theorem ymd_ok {A : Astro} (hE : TehranEvening A) {x a fr lat lon : ℚ} {y m d n : ℤ}
    (hu : (Cal.init A).utcToBadiTime x lat lon = .ok (a, fr))
    (hc : civilDay a (fl (lon / 360)) = n + 1721423) (hn : n ≤ 1096902)
    (hd : DayNumber (Cal.init A) y m d n) :
    (Cal.init A).badiYmdFromJd x lat lon = .ok (y, m, d, fr) := by
  obtain ⟨h0, h1, h2, h3⟩ := dayNumber_year hE hd
  have hy := init_yearStart hE y
  rw [if_pos (by omega)] at hy
  have hl := init_isLeap hE h0 h1
  unfold Cal.badiYmdFromJd
  rw [hu, pyOk_bind]
  change civilDay a _ = _ at hc
  unfold civilDay at hc
  simp only [hc, civilEpoch]
  rw [show n + 1721423 - 1721424 + 1 = n by ring, badiYearFromRd_ok hE h0 h1 h2 h3 hn, pyOk_bind]
  simp only [hy, hl, pyOk_bind]
  have := doyOf hE hd
  unfold leapOf at this
  rw [this]

theorem ymd_late {A : Astro} (hE : TehranEvening A) {x a fr lat lon : ℚ} {n : ℤ}
    (hu : (Cal.init A).utcToBadiTime x lat lon = .ok (a, fr))
    (hc : civilDay a (fl (lon / 360)) = n + 1721423) (hn : 1096902 < n ∨ n < -287) :
    (Cal.init A).badiYmdFromJd x lat lon = .error .assertion := by
  unfold Cal.badiYmdFromJd
  rw [hu, pyOk_bind]
  unfold civilDay at hc
  simp only [hc, civilEpoch]
  rw [show n + 1721423 - 1721424 + 1 = n by ring, badiYearFromRd_err hE (by omega), pyErr_bind]

theorem ymd_err {C : Cal} {x lat lon : ℚ} {e : PyErr}
    (hu : C.utcToBadiTime x lat lon = .error e) :
    C.badiYmdFromJd x lat lon = .error e := by
  unfold Cal.badiYmdFromJd
  rw [hu, pyErr_bind]

/-- Sunset of day `P` (and the next one, a day earlier) is on civil day `P`. -/
theorem civilDay_ssE {a : ℚ} {P : ℤ} (h0 : 1721010 ≤ P) (h1 : P ≤ 2819900)
    (ha : (P : ℚ) + 1 / 100 ≤ a) (hb : a ≤ P + 2 / 10) :
    civilDay a (fl (tehranLon / 360)) = P := by
  have hP0q : (1721010 : ℚ) ≤ P := by exact_mod_cast h0
  have hP1q : (P : ℚ) ≤ 2819900 := by exact_mod_cast h1
  have l0 := lonFracT_lo; have l1 := lonFracT_hi
  unfold lonFracT at l0 l1
  apply civilDay_eq (by linarith) (by linarith) lonT_abs <;> linarith

/-- Every instant of the era lies in one sunset-to-sunset day. -/
theorem day_of_instant {A : Astro} (hE : TehranEvening A) {x : ℚ} (h0 : 1721100 ≤ x)
    (h1 : x ≤ 2819700) :
    ∃ P : ℤ, 1721099 ≤ P ∧ P ≤ 2819700 ∧ ssE A P ≤ x ∧ x < ssE A (P + 1) := by
  have f0 := Int.floor_le x
  have f1 := Int.lt_floor_add_one x
  have g0 : 1721100 ≤ ⌊x⌋ := Int.le_floor.mpr (by exact_mod_cast h0)
  have g1 : ⌊x⌋ ≤ 2819700 := by
    have : (⌊x⌋ : ℚ) ≤ ((2819700 : ℤ) : ℚ) := by push_cast; linarith
    exact_mod_cast this
  obtain ⟨-, a0, a1⟩ := ssE_bounds hE (P := ⌊x⌋) (by omega) (by omega)
  obtain ⟨-, b0, b1⟩ := ssE_bounds hE (P := ⌊x⌋ - 1) (by omega) (by omega)
  obtain ⟨-, c0, c1⟩ := ssE_bounds hE (P := ⌊x⌋ + 1) (by omega) (by omega)
  push_cast at b0 b1 c0 c1
  by_cases h : ssE A ⌊x⌋ ≤ x
  · exact ⟨⌊x⌋, by omega, by omega, h, by linarith⟩
  · exact ⟨⌊x⌋ - 1, by omega, by omega, by linarith,
      by rw [show ⌊x⌋ - 1 + 1 = ⌊x⌋ by ring]; linarith⟩

/-- What the code picks for an instant of day `P`: an error on or next to the bad days, the sunset
that starts the day, a sunset of the day before shifted by a day, or, at the end of a day longer
than 24 hours, the next day. -/
theorem utc_cases {A : Astro} (hE : TehranEvening A) {x : ℚ} {P : ℤ} (hx : IsF64 x)
    (hP0 : 1721100 ≤ P) (hP1 : P ≤ 2819700) (h0 : ssE A P ≤ x) (h1 : x < ssE A (P + 1)) :
    let r := (Cal.init A).utcToBadiTime x tehranLat tehranLon
    (r = .error .value ∧
      (P ∈ badDays ∨ (P - 1 ∈ changeDays ∧ x + lonFracT + 1 / 2 < P + 1 + 1 / 50000000))) ∨
    (r = .ok (ssE A P, x - ssE A P) ∧ x - ssE A P < 1 ∧ ¬ (2299149 ≤ P ∧ P ≤ 2299158)) ∨
    (r = .ok (fl (ssE A P + 1), fl (x - fl (ssE A P + 1))) ∧ 1 ≤ x - ssE A P ∧
      ¬ (2299148 ≤ P ∧ P ≤ 2299158)) ∨
    (r = .ok (fl (ssE A 2299148 + 1), fl (x - fl (ssE A 2299148 + 1))) ∧ P = 2299158) ∨
    (r = .ok (fl (ssE A (P - 1) + 1), fl (x - fl (ssE A (P - 1) + 1))) ∧ P = 2097144 ∧
      |x + lonFracT + 1 / 2 - (P + 1)| ≤ 1 / 50000000) := by
  intro r
  have hP0q : (1721100 : ℚ) ≤ P := by exact_mod_cast hP0
  have hP1q : (P : ℚ) ≤ 2819700 := by exact_mod_cast hP1
  obtain ⟨sf, s0, s1⟩ := ssE_bounds hE (P := P) (by omega) (by omega)
  obtain ⟨tf, t0, t1⟩ := ssE_bounds hE (P := P + 1) (by omega) (by omega)
  push_cast at t0 t1
  have l0 := lonFracT_lo; have l1 := lonFracT_hi
  have hC : (Cal.init A).astro = A := rfl
  have hfl : fl (x - ssE A P) = x - ssE A P :=
    fl_sub_jd hx sf (by linarith) (by linarith) (by rw [abs_le]; constructor <;> linarith)
  have hcb : ∀ Q ∈ changeDays, Q ∈ badDays := fun Q hQ => List.mem_append_left _ hQ
  have hgb : ∀ Q : ℤ, 2299148 ≤ Q → Q ≤ 2299158 → Q ∈ badDays := by
    intro Q q0 q1
    apply List.mem_append_right
    simp only [List.mem_cons, List.not_mem_nil, or_false]
    omega
  rcases lt_or_ge x (P + 1 / 2) with hn | hn
  · -- before midnight UT
    by_cases hg : 2299149 ≤ P ∧ P ≤ 2299158
    · left
      exact ⟨utc_err0 (hist_err (by linarith) (by linarith) hg), Or.inl (hgb _ (by omega) hg.2)⟩
    · rcases lt_or_ge ((P : ℚ) + 1 - 1 / 50000000) (x + lonFracT + 1 / 2) with ha | ha
      · rcases lt_or_ge (x + lonFracT + 1 / 2) (P + 1 + 1 / 50000000) with hb | hb
        · have hab : |x + lonFracT + 1 / 2 - (P + 1)| ≤ 1 / 50000000 := by
            rw [abs_le]; constructor <;> linarith
          rcases utc_midnight hE hC hx hP0 hP1 hab hg with ⟨h, h'⟩ | h | ⟨h, h'⟩
          · left
            refine ⟨h, ?_⟩
            rcases h' with h' | h'
            · exact Or.inr ⟨h', by linarith⟩
            · exact Or.inl (hcb _ h')
          · right; left
            rw [hfl] at h
            exact ⟨h, by linarith, hg⟩
          · right; right; right; right
            exact ⟨h, h', hab⟩
        · have h := utc_night hE hC hx hP0 hP1 hb hn hg
          rw [hfl] at h
          split_ifs at h with hk
          · exact Or.inl ⟨h, Or.inl (hcb _ hk)⟩
          · exact Or.inr (Or.inl ⟨h, by linarith, hg⟩)
      · have h := utc_evening hE hC hx hP0 hP1 h0 ha hg
        rw [hfl] at h
        split_ifs at h with hk
        · exact Or.inl ⟨h, Or.inr ⟨hk, by linarith⟩⟩
        · exact Or.inr (Or.inl ⟨h, by linarith, hg⟩)
  · by_cases hr : P = 2299158
    · subst hr
      right; right; right; left
      refine ⟨?_, rfl⟩
      exact utc_reform hE hC hx (by push_cast at hn; linarith) (by simpa using h1)
    · by_cases hg : 2299149 ≤ P + 1 ∧ P + 1 ≤ 2299158
      · left
        exact ⟨utc_err0 (hist_err (N := P + 1) (by push_cast; linarith) (by push_cast; linarith) hg),
          Or.inl (hgb _ (by omega) (by omega))⟩
      · have h := utc_day hE hC hx hP0 hP1 hn h1 hg hr
        rw [hfl] at h
        split_ifs at h with hk hf
        · exact Or.inl ⟨h, Or.inl (hcb _ hk)⟩
        · exact Or.inr (Or.inr (Or.inl ⟨h, hf, by omega⟩))
        · exact Or.inr (Or.inl ⟨h, by linarith, by omega⟩)

/-! ### The public result -/

theorem dayNumber_cycle {A : Astro} (hE : TehranEvening A) {y m d n : ℤ}
    (h : DayNumber (Cal.init A) y m d n) :
    ∃ c, (Cal.init A).cycleOf y m = .ok c ∧ 1 ≤ d ∧ d < c ∧ 0 ≤ m ∧ m ≤ 19 := by
  obtain ⟨h0, h1, hv, -⟩ := (dayNumber_iff hE).mp h
  exact cycleOf_valid (init_isLeap hE h0 h1) hv

/-- `badi_date_from_jd` without options, from its first half, for a fraction that does not decode
to hour 24 (or any fraction in the long form). -/
theorem badiDate_ok {A : Astro} (hE : TehranEvening A) {x fr lat lon : ℚ} {y m d n : ℤ} (short trim : Bool)
    (hd : DayNumber (Cal.init A) y m d n)
    (hy : (Cal.init A).badiYmdFromJd x lat lon = .ok (y, m, d, fr))
    (h0 : 0 ≤ fr) (h1 : short = true → fr ≤ 1 - 1 / 40000000) :
    ∃ k v w : ℤ, DenotesYear k v w y ∧
    (Cal.init A).badiDateFromJd x lat lon { short := short, trim := trim } =
      .ok (if short then .short ⟨y, m, d, trimHms [((hmsFromDecimalDay fr).1 : ℚ),
          ((hmsFromDecimalDay fr).2.1 : ℚ), (hmsFromDecimalDay fr).2.2]⟩
        else .long ⟨k, v, w, m, d, trimHms [((hmsFromDecimalDay fr).1 : ℚ),
          ((hmsFromDecimalDay fr).2.1 : ℚ), (hmsFromDecimalDay fr).2.2]⟩) := by
  obtain ⟨y0, y1, -, -⟩ := dayNumber_year hE hd
  obtain ⟨c, hc, d0, d1, m0, m1⟩ := dayNumber_cycle hE hd
  obtain ⟨hden, k0, k1⟩ := kvy_range y (by omega) (by omega)
  have hs := hms_spec h0
  simp only at hs
  obtain ⟨a1, a2, a3, a4, a5, a6, -, a8, -⟩ := hs
  have a8 : short = true → _ := fun h => a8 (by
    have := h1 h
    rw [Int.fract_eq_self.mpr ⟨h0, by linarith⟩]; exact this)
  generalize hh : (hmsFromDecimalDay fr).1 = h at *
  generalize hmi : (hmsFromDecimalDay fr).2.1 = mi at *
  generalize hss : (hmsFromDecimalDay fr).2.2 = s at *
  refine ⟨_, _, _, hden, ?_⟩
  have hl := longFromShort_ok (Cal.init A) ⟨y, m, d, [(h : ℚ), (mi : ℚ), s]⟩ true
    (by simp only; omega) (by simp only; omega)
  simp only at hl
  rw [checkTail_hms m0 m1 hc d0 d1 a1 (by omega) a3 a4 a5 a6, pyOk_bind] at hl
  have hk := kvymdhms_ok (C := Cal.init A) (s := s) short hden k0 k1 y0 (by omega) m0 m1 hc d0 d1 a1 a2 a8 a3 a4
    a5 a6
  unfold Cal.badiDateFromJd
  rw [show xorBoolean [false, false, false] = true by decide]
  simp only [pyAssert, hy, pyOk_bind, Bool.false_eq_true, if_false, if_true]
  rw [hh, hmi, hss, hl, pyOk_bind]
  exact hk

end Verif
