import Verif.Props.Ordinal

/-!
# Properties C09 to C11: weekdays and ISO weeks
-/

namespace Verif

theorem year_of_isDay {A : Astro} (hE : TehranEvening A) {o : DateObj} {n : ℤ} (h : IsDay (Cal.init A) o n)
    (h0 : 78 ≤ n) : ∃ y m d, (Cal.init A).dateShort o = .ok (y, m, d) ∧ DayNumber (Cal.init A) y m d n ∧
      -1842 ≤ y := by
  obtain ⟨y, m, d, hd, e⟩ := dateShort_ok hE h
  refine ⟨y, m, d, e, hd, ?_⟩
  obtain ⟨y0, -, -, n1⟩ := dayNumber_year hE hd
  by_contra c
  have : y = -1843 := by omega
  subst this
  rw [show (-1843 : ℤ) + 1 = -1842 by norm_num, ysInt_m1842] at n1
  omega

theorem minYear_lo {A : Astro} (hE : TehranEvening A) {n a : ℤ} (ha : (Cal.init A).yearStart (-1842) = some a)
    (h : a ≤ n) : 78 ≤ n := by
  rw [init_yearStart hE, if_pos (by omega), ysInt_m1842] at ha
  obtain rfl := Option.some.inj ha
  exact h

/-! ## C09 -/

/-- C09. The accessors agree, the weekday is between 0 and 6, and it advances by one, modulo seven, from a day
to the next. -/
theorem C09_weekdays (A : Astro) (hE : TehranEvening A) (hO : NewYearOrder (Cal.init A)) (o p : DateObj) (n a : ℤ)
    (ha : (Cal.init A).yearStart (-1842) = some a) (hn : a ≤ n) (ho : IsDay (Cal.init A) o n)
    (hp : IsDay (Cal.init A) p (n + 1)) :
    ∃ w, 0 ≤ w ∧ w ≤ 6 ∧ (Cal.init A).weekday o = .ok w ∧ (Cal.init A).isoWeekday o = .ok (w + 1) ∧
      (∃ Y W, (Cal.init A).isoCalendar o = .ok (Y, W, w + 1)) ∧ (∃ yd, (Cal.init A).timetupleDays o = .ok (w, yd)) ∧
      (Cal.init A).weekday p = .ok ((w + 1) % 7) := by
  have h78 := minYear_lo hE ha hn
  obtain ⟨y, m, d, e, hd, hy⟩ := year_of_isDay hE ho h78
  obtain ⟨y', m', d', e', hd', -⟩ := year_of_isDay hE hp (by omega)
  obtain ⟨Y, hY, -, -, -, -, -⟩ := yearWeekDay_ok hE hO hd hy
  refine ⟨(n + 1) % 7, by omega, by omega, ?_, ?_, ⟨Y, (n - week1 Y) / 7 + 1, ?_⟩,
    ⟨dBefore (leapOf y) m + d, ?_⟩, ?_⟩
  · unfold Cal.weekday; rw [e, pyOk_bind]; exact dayOfWeek_ok hE hO hd
  · unfold Cal.isoWeekday; rw [e, pyOk_bind]; simp only; rw [dayOfWeek_ok hE hO hd]; rfl
  · unfold Cal.isoCalendar; rw [e, pyOk_bind]; simp only; rw [hY]
    have : week1 Y % 7 = 6 := by unfold week1; omega
    congr 3
    omega
  · obtain ⟨y0, y1, hv, -⟩ := (dayNumber_iff hE).mp hd
    unfold Cal.timetupleDays; rw [e, pyOk_bind]; simp only
    rw [dayOfWeek_ok hE hO hd, pyOk_bind, daysBeforeMonth_ok (init_isLeap hE y0 y1) hv]; rfl
  · unfold Cal.weekday; rw [e', pyOk_bind]; simp only; rw [dayOfWeek_ok hE hO hd']
    congr 1
    omega

example : ∃ a, (Cal.init newYearSun).yearStart (-1842) = some a ∧ a ≤ 739675 ∧
    IsDay (Cal.init newYearSun) (.short 182 0 5) 739675 ∧
    IsDay (Cal.init newYearSun) (.long 1 10 11 19 1) (739675 + 1) :=
  ⟨78, by rw [init_yearStart newYearSun_tehran, if_pos (by omega), ysInt_m1842], by omega, witness_days⟩

/-- C09. The day of the year in the time tuple counts from 1 on the first day of the year. -/
theorem C09_day_of_year (A : Astro) (hE : TehranEvening A) (hO : NewYearOrder (Cal.init A)) (y m d n a : ℤ)
    (hd : DayNumber (Cal.init A) y m d n) (ha : (Cal.init A).yearStart y = some a) :
    ∃ w, (Cal.init A).timetupleDays (.short y m d) = .ok (w, n - a + 1) := by
  obtain ⟨y0, y1, hv, hn⟩ := (dayNumber_iff hE).mp hd
  rw [init_yearStart hE, if_pos (by omega)] at ha
  obtain rfl := Option.some.inj ha
  refine ⟨(n + 1) % 7, ?_⟩
  unfold Cal.timetupleDays
  rw [show (Cal.init A).dateShort (.short y m d) = .ok (y, m, d) from rfl, pyOk_bind]
  simp only
  rw [dayOfWeek_ok hE hO hd, pyOk_bind, daysBeforeMonth_ok (init_isLeap hE y0 y1) hv, pyOk_bind]
  congr 2
  change dBefore (leapOf y) m + d = n - ysInt y + 1
  omega

example : DayNumber (Cal.init newYearSun) 182 0 5 739675 ∧ ∃ a, (Cal.init newYearSun).yearStart 182 = some a :=
  ⟨witness_days.1, _, by rw [init_yearStart newYearSun_tehran, if_pos (by omega)]⟩

/-! ## C10 -/

theorem firstWeek_week1 (y : ℤ) : FirstWeek (ysInt y) (week1 y) := by
  unfold FirstWeek week1
  omega

theorem firstWeek_unique {a s s' : ℤ} (h : FirstWeek a s) (h' : FirstWeek a s') : s = s' := by
  unfold FirstWeek at *
  omega

theorem isoCalendar_ok {A : Astro} (hE : TehranEvening A) (hO : NewYearOrder (Cal.init A)) {o : DateObj} {n : ℤ}
    (ho : IsDay (Cal.init A) o n) (h78 : 78 ≤ n) :
    ∃ y Y W D, (Cal.init A).isoCalendar o = .ok (Y, W, D) ∧ (∃ m d, (Cal.init A).dateShort o = .ok (y, m, d)) ∧
      -1842 ≤ y ∧ y ≤ 1161 ∧ y - 1 ≤ Y ∧ Y ≤ y + 1 ∧ 1 ≤ W ∧ W ≤ 53 ∧ 1 ≤ D ∧ D ≤ 7 ∧
      n = week1 Y + 7 * (W - 1) + (D - 1) ∧ (Y ≤ 1161 → n < week1 (Y + 1)) := by
  obtain ⟨y, m, d, e, hd, hy⟩ := year_of_isDay hE ho h78
  obtain ⟨-, y1, -, -⟩ := dayNumber_year hE hd
  obtain ⟨Y, hY, a0, a1, a2, a3, a4⟩ := yearWeekDay_ok hE hO hd hy
  refine ⟨y, Y, (n - week1 Y) / 7 + 1, (n - week1 Y) % 7 + 1, ?_, ⟨m, d, e⟩, hy, y1, a0, a1, by omega, by omega, by omega, by omega, by omega, a4⟩
  unfold Cal.isoCalendar
  rw [e, pyOk_bind]
  exact hY

/-- C10. Every date from the first day of MINYEAR on has a week between 1 and 53 and a weekday between 1 and
7, in the sense of the ISO rule, and an ISO year that differs by at most one from its year. -/
theorem C10_iso_week (A : Astro) (hE : TehranEvening A) (hO : NewYearOrder (Cal.init A)) (o : DateObj) (n a : ℤ)
    (ha : (Cal.init A).yearStart (-1842) = some a) (hn : a ≤ n) (ho : IsDay (Cal.init A) o n) :
    ∃ y m d Y W D, (Cal.init A).dateShort o = .ok (y, m, d) ∧ (Cal.init A).isoCalendar o = .ok (Y, W, D) ∧
      IsoWeekOf (Cal.init A) n Y W D ∧ W ≤ 53 ∧ |Y - y| ≤ 1 := by
  obtain ⟨y, Y, W, D, e, ⟨m, d, e'⟩, y0, y1, a0, a1, w0, w1, d0, d1, hw, hl⟩ :=
    isoCalendar_ok hE hO ho (minYear_lo hE ha hn)
  refine ⟨y, m, d, Y, W, D, e', e, ⟨⟨ysInt Y, week1 Y, ?_, firstWeek_week1 Y, hw⟩, w0, d0, d1, ?_⟩, w1, ?_⟩
  · rw [init_yearStart hE, if_pos (by omega)]
  · intro b s hb hs
    rw [init_yearStart hE] at hb
    split_ifs at hb with c
    obtain rfl := Option.some.inj hb
    rw [firstWeek_unique hs (firstWeek_week1 (Y + 1))]
    exact hl (by omega)
  · rw [abs_le]; constructor <;> omega

example : ∃ a, (Cal.init newYearSun).yearStart (-1842) = some a ∧ a ≤ 739675 :=
  ⟨78, by rw [init_yearStart newYearSun_tehran, if_pos (by omega), ysInt_m1842], by omega⟩

theorem week1_mono {a b : ℤ} (h0 : -1843 ≤ a) (hab : a < b) (h1 : b ≤ 1162) : week1 a + 364 ≤ week1 b := by
  obtain ⟨k, rfl⟩ : ∃ k : ℕ, b = a + 1 + k := ⟨(b - (a + 1)).toNat, by omega⟩
  clear hab
  induction k with
  | zero => have := (week1_step (y := a) h0 (by push_cast at h1; omega)).1; simp; omega
  | succ k ih =>
    have h := ih (by push_cast at *; omega)
    have := (week1_step (y := a + 1 + k) (by omega) (by push_cast at h1; omega)).1
    rw [show a + 1 + ((k + 1 : ℕ) : ℤ) = a + 1 + k + 1 by push_cast; ring]
    omega

/-- C10. From a day to the next the weekday advances within the week, and after weekday 7 comes weekday 1 of
the next week, which is week 1 when the ISO year changes. -/
theorem C10_next_day (A : Astro) (hE : TehranEvening A) (hO : NewYearOrder (Cal.init A)) (o p : DateObj) (n a : ℤ)
    (ha : (Cal.init A).yearStart (-1842) = some a) (hn : a ≤ n) (ho : IsDay (Cal.init A) o n)
    (hp : IsDay (Cal.init A) p (n + 1)) :
    ∃ Y W D Y' W' D', (Cal.init A).isoCalendar o = .ok (Y, W, D) ∧ (Cal.init A).isoCalendar p = .ok (Y', W', D') ∧
      ((D < 7 ∧ Y' = Y ∧ W' = W ∧ D' = D + 1) ∨
        (D = 7 ∧ D' = 1 ∧ ((Y' = Y ∧ W' = W + 1) ∨ (Y' = Y + 1 ∧ W' = 1)))) := by
  have h78 := minYear_lo hE ha hn
  obtain ⟨y, Y, W, D, e, -, y0, y1, a0, a1, w0, w1, d0, d1, hw, hl⟩ := isoCalendar_ok hE hO ho h78
  obtain ⟨y', Y', W', D', e', -, y0', y1', a0', a1', w0', w1', d0', d1', hw', hl'⟩ :=
    isoCalendar_ok hE hO hp (by omega)
  refine ⟨Y, W, D, Y', W', D', e, e', ?_⟩
  have m1 : week1 Y % 7 = 6 := by unfold week1; omega
  have m2 : week1 Y' % 7 = 6 := by unfold week1; omega
  have hge : Y ≤ Y' := by
    by_contra c
    have h := hl' (by omega)
    rcases (show Y' + 1 = Y ∨ Y' + 1 < Y by omega) with c' | c'
    · rw [c'] at h; omega
    · have := week1_mono (a := Y' + 1) (b := Y) (by omega) c' (by omega); omega
  have hle : Y' ≤ Y + 1 := by
    by_contra c
    have h := hl (by omega)
    have := week1_mono (a := Y + 1) (b := Y') (by omega) (by omega) (by omega)
    omega
  rcases (show Y' = Y ∨ Y' = Y + 1 by omega) with c | c
  · subst c; omega
  · subst c
    have h := hl (by omega)
    omega

example : ∃ a, (Cal.init newYearSun).yearStart (-1842) = some a ∧ a ≤ 739675 ∧
    IsDay (Cal.init newYearSun) (.short 182 0 5) 739675 ∧
    IsDay (Cal.init newYearSun) (.long 1 10 11 19 1) (739675 + 1) :=
  ⟨78, by rw [init_yearStart newYearSun_tehran, if_pos (by omega), ysInt_m1842], by omega, witness_days⟩

/-! ## C11 -/

theorem midweek_iff {A : Astro} (hE : TehranEvening A) {Y : ℤ} (h0 : -1843 ≤ Y) (h1 : Y ≤ 1162) :
    MidweekStart (Cal.init A) Y ↔ (ysInt Y + 1) % 7 = 2 ∨ (ysInt Y + 1) % 7 = 3 := by
  unfold MidweekStart
  constructor
  · rintro ⟨a, ha, h⟩
    rw [init_yearStart hE, if_pos (by omega)] at ha
    obtain rfl := Option.some.inj ha
    exact h
  · intro h
    exact ⟨_, by rw [init_yearStart hE, if_pos (by omega)], h⟩

/-- C11. The round trip. Missing from the full property: weeks 52 and 53 of years that begin on the third or
fourth day of the week (see the `_negation` theorems) and the days that cannot be converted (C07). -/
theorem C11_round_trip_partial (A : Astro) (hE : TehranEvening A) (hO : NewYearOrder (Cal.init A)) (o : DateObj)
    (n Y W D : ℤ) (hc : Reachable (Cal.init A) n) (ho : IsDay (Cal.init A) o n)
    (hi : (Cal.init A).isoCalendar o = .ok (Y, W, D)) (hw : W ≤ 51 ∨ ¬ MidweekStart (Cal.init A) Y) :
    (Cal.init A).fromIsoCalendar Y W D o.isShort = .ok o := by
  obtain ⟨y, Y', W', D', e, -, y0, y1, a0, a1, w0, w1, d0, d1, hn, hl⟩ :=
    isoCalendar_ok hE hO ho (reachable_lo hE hc)
  rw [hi] at e
  injection e with e
  simp only [Prod.mk.injEq] at e
  obtain ⟨rfl, rfl, rfl⟩ := e
  rw [midweek_iff hE (by omega) (by omega)] at hw
  rw [fromIso_ok hE hO o.isShort (by omega) (by omega) d0 d1 (by omega)]
  rw [show week1 Y + (W - 1) * 7 + (D - 1) = n by omega]
  obtain ⟨p, h, hp, hf⟩ := fromOrdinal_ok hE hc.2 o.isShort
  rw [h, isDay_unique hE hp ho hf]

/-- The last day of Ayyám-i-Há of year 182, which does not begin in the middle of a week. -/
example : ∃ Y W D, Reachable (Cal.init newYearSun) 739675 ∧
    (Cal.init newYearSun).isoCalendar (.short 182 0 5) = .ok (Y, W, D) ∧ W ≤ 51 := by
  obtain ⟨y, Y, W, D, e, ⟨m, d, e'⟩, y0, y1, a0, a1, w0, w1, d0, d1, hn, hl⟩ :=
    isoCalendar_ok newYearSun_tehran newYearSun_order witness_days.1 (by omega)
  refine ⟨Y, W, D, reachable_modern newYearSun_tehran (by omega) (by omega), e, ?_⟩
  obtain ⟨rfl, -, -⟩ : (182 : ℤ) = y ∧ (0 : ℤ) = m ∧ (5 : ℤ) = d := by
    injection e' with e'; simpa using e'
  have k : week1 182 = 739332 ∧ week1 183 = 739696 ∧ week1 181 = 738961 := by decide +kernel
  rcases (show Y = 181 ∨ Y = 182 ∨ Y = 183 by omega) with rfl | rfl | rfl
  · have := hl (by omega); norm_num at this; omega
  · omega
  · omega

/-- C11 is false in week 52 of the years that begin on the third or fourth day of the week: the triple comes
back as the day a week later. -/
theorem C11_week_52_negation (A : Astro) (hE : TehranEvening A) (hO : NewYearOrder (Cal.init A)) (o : DateObj)
    (n Y D : ℤ) (h0 : Reachable (Cal.init A) n) (hc : Reachable (Cal.init A) (n + 7)) (ho : IsDay (Cal.init A) o n)
    (hi : (Cal.init A).isoCalendar o = .ok (Y, 52, D)) (hw : MidweekStart (Cal.init A) Y) :
    ∃ p, (Cal.init A).fromIsoCalendar Y 52 D o.isShort = .ok p ∧ IsDay (Cal.init A) p (n + 7) ∧ p ≠ o := by
  obtain ⟨y, Y', W', D', e, -, y0, y1, a0, a1, w0, w1, d0, d1, hn, hl⟩ :=
    isoCalendar_ok hE hO ho (reachable_lo hE h0)
  rw [hi] at e
  injection e with e
  simp only [Prod.mk.injEq] at e
  obtain ⟨rfl, rfl, rfl⟩ := e
  rw [midweek_iff hE (by omega) (by omega)] at hw
  rw [fromIso_52 hE hO o.isShort (by omega) (by omega) d0 d1 (by omega)]
  rw [show week1 Y + 52 * 7 + (D - 1) = n + 7 by omega]
  obtain ⟨p, h, hp, -⟩ := fromOrdinal_ok hE hc.2 o.isShort
  refine ⟨p, h, hp, ?_⟩
  rintro rfl
  have := isDay_day hE hp ho
  omega

/-- The triple of a day between the first weeks of two years. -/
theorem iso_witness {o : DateObj} {n Y : ℤ} (hY : -1843 ≤ Y) (hY1 : Y ≤ 1161) (ho : IsDay (Cal.init newYearSun) o n)
    (h78 : 78 ≤ n) (h0 : week1 Y ≤ n) (h1 : n < week1 (Y + 1)) :
    (Cal.init newYearSun).isoCalendar o = .ok (Y, (n - week1 Y) / 7 + 1, (n - week1 Y) % 7 + 1) := by
  obtain ⟨y, Y', W, D, e, ⟨m, d, e'⟩, y0, y1, a0, a1, w0, w1, d0, d1, hn, hl⟩ :=
    isoCalendar_ok newYearSun_tehran newYearSun_order ho h78
  have hy : Y' = Y := by
    by_contra c
    rcases (show Y' < Y ∨ Y < Y' by omega) with c | c
    · have h := hl (by omega)
      rcases (show Y' + 1 = Y ∨ Y' + 1 < Y by omega) with c' | c'
      · rw [c'] at h; omega
      · have := week1_mono (a := Y' + 1) (b := Y) (by omega) c' (by omega); omega
    · rcases (show Y + 1 = Y' ∨ Y + 1 < Y' by omega) with c' | c'
      · rw [c'] at h1; omega
      · have := week1_mono (a := Y + 1) (b := Y') (by omega) c' (by omega); omega
  subst hy
  rw [e]
  congr 3 <;> omega

example : ∃ o D, Reachable (Cal.init newYearSun) 738956 ∧ Reachable (Cal.init newYearSun) (738956 + 7) ∧
    IsDay (Cal.init newYearSun) o 738956 ∧ (Cal.init newYearSun).isoCalendar o = .ok (180, 52, D) ∧
    MidweekStart (Cal.init newYearSun) 180 := by
  obtain ⟨o, ho, -⟩ := C06_every_day newYearSun newYearSun_tehran 738956 (-287) 1097268
    (by rw [init_yearStart newYearSun_tehran, if_pos (by omega), ysInt_m1843])
    (by rw [init_yearStart newYearSun_tehran, if_pos (by omega), ysInt_1162]) (by omega) (by omega) true
  have k : week1 180 = 738597 ∧ week1 (180 + 1) = 738961 ∧ (ysInt 180 + 1) % 7 = 2 := by decide +kernel
  have e := iso_witness (Y := 180) (by omega) (by omega) ho (by omega) (by omega) (by omega)
  rw [k.1] at e
  exact ⟨o, _, reachable_modern newYearSun_tehran (by omega) (by omega),
    reachable_modern newYearSun_tehran (by omega) (by omega), ho, e,
    (midweek_iff newYearSun_tehran (by omega) (by omega)).mpr (Or.inl k.2.2)⟩

/-- C11 is false in every week 53: the triple is refused. -/
theorem C11_week_53_negation (A : Astro) (hE : TehranEvening A) (hO : NewYearOrder (Cal.init A)) (o : DateObj)
    (n a Y D : ℤ) (ha : (Cal.init A).yearStart (-1842) = some a) (hn : a ≤ n) (ho : IsDay (Cal.init A) o n)
    (hi : (Cal.init A).isoCalendar o = .ok (Y, 53, D)) (short : Bool) :
    (Cal.init A).fromIsoCalendar Y 53 D short = .error .assertion := by
  obtain ⟨y, Y', W', D', e, ⟨m, d, e'⟩, y0, y1, a0, a1, w0, w1, d0, d1, hn, hl⟩ :=
    isoCalendar_ok hE hO ho (minYear_lo hE ha hn)
  rw [hi] at e
  injection e with e
  simp only [Prod.mk.injEq] at e
  obtain ⟨rfl, rfl, rfl⟩ := e
  have hY : Y ≤ 1161 := by
    by_contra c
    have : Y = 1162 := by omega
    subst this
    obtain ⟨y', m', d', hd, -⟩ := dateShort_ok hE ho
    obtain ⟨b0, b1, -, b3⟩ := dayNumber_year hE hd
    have := ysInt_mono (a := y' + 1) (b := 1162) (by omega) (by omega) (by omega)
    have : ysInt 1162 - 3 ≤ week1 1162 := by unfold week1; omega
    omega
  have hs := week1_step (y := Y) (by omega) hY
  have := hl hY
  exact fromIso_err hE hO short (by omega) (by omega) (by omega) (hs.2 (by omega))

example : ∃ o D, IsDay (Cal.init newYearSun) o 739326 ∧
    (Cal.init newYearSun).isoCalendar o = .ok (181, 53, D) := by
  obtain ⟨o, ho, -⟩ := C06_every_day newYearSun newYearSun_tehran 739326 (-287) 1097268
    (by rw [init_yearStart newYearSun_tehran, if_pos (by omega), ysInt_m1843])
    (by rw [init_yearStart newYearSun_tehran, if_pos (by omega), ysInt_1162]) (by omega) (by omega) true
  have k : week1 181 = 738961 ∧ week1 (181 + 1) = 739332 := by decide +kernel
  have e := iso_witness (Y := 181) (by omega) (by omega) ho (by omega) (by omega) (by omega)
  rw [k.1] at e
  exact ⟨o, _, ho, e⟩

/-- C11, refusals. A weekday outside 1..7 is always refused, and in the years that begin on the third or
fourth day of the week a week outside 1..52. Missing from the full property: weeks outside the year in the
other years are accepted, see `C11_unchecked_week_negation`. -/
theorem C11_refusals_partial (A : Astro) (hE : TehranEvening A) (hO : NewYearOrder (Cal.init A)) (Y W D a : ℤ)
    (hY : (Cal.init A).yearStart Y = some a) (short : Bool) :
    (D < 1 ∨ 7 < D → (Cal.init A).fromIsoCalendar Y W D short = .error .assertion) ∧
    (MidweekStart (Cal.init A) Y → W < 1 ∨ 52 < W →
      (Cal.init A).fromIsoCalendar Y W D short = .error .assertion) := by
  rw [init_yearStart hE] at hY
  split_ifs at hY with c
  refine ⟨fun h => fromIso_day hE hO short c.1 c.2 h, fun hm h => ?_⟩
  rw [midweek_iff hE c.1 c.2] at hm
  exact fromIso_err hE hO short c.1 c.2 h hm

example : ∃ a, (Cal.init newYearSun).yearStart 180 = some a ∧ MidweekStart (Cal.init newYearSun) 180 := by
  have k : (ysInt 180 + 1) % 7 = 2 := by decide +kernel
  exact ⟨_, by rw [init_yearStart newYearSun_tehran, if_pos (by omega)],
    (midweek_iff newYearSun_tehran (by omega) (by omega)).mpr (Or.inl k)⟩

/-- C11 is false for weeks in the other years: any week number whatever is accepted as long as the day it
leads to can be converted; the day then lies in another year, and its own triple is different. -/
theorem C11_unchecked_week_negation (A : Astro) (hE : TehranEvening A) (hO : NewYearOrder (Cal.init A))
    (Y W D a s : ℤ) (hY : (Cal.init A).yearStart Y = some a) (hm : ¬ MidweekStart (Cal.init A) Y)
    (hs : FirstWeek a s) (hW : W < 1 ∨ 53 < W) (hD0 : 1 ≤ D) (hD1 : D ≤ 7)
    (hc : Reachable (Cal.init A) (s + 7 * (W - 1) + (D - 1))) (short : Bool) :
    ∃ p t, (Cal.init A).fromIsoCalendar Y W D short = .ok p ∧ (Cal.init A).isoCalendar p = .ok t ∧
      t ≠ (Y, W, D) := by
  rw [init_yearStart hE] at hY
  split_ifs at hY with c
  obtain rfl := Option.some.inj hY
  rw [midweek_iff hE c.1 c.2] at hm
  rw [firstWeek_unique hs (firstWeek_week1 Y)] at hc
  rw [fromIso_ok hE hO short c.1 c.2 hD0 hD1 (Or.inr hm)]
  rw [show week1 Y + (W - 1) * 7 + (D - 1) = week1 Y + 7 * (W - 1) + (D - 1) by ring]
  obtain ⟨p, h, hp, -⟩ := fromOrdinal_ok hE hc.2 short
  obtain ⟨y, Y', W', D', e, -, y0, y1, a0, a1, w0, w1, d0, d1, hn, hl⟩ :=
    isoCalendar_ok hE hO hp (reachable_lo hE hc)
  refine ⟨p, _, h, e, ?_⟩
  simp only [ne_eq, Prod.mk.injEq, not_and]
  intro _ h
  omega

/-- Week 60 of year 182. -/
example : ∃ a s, (Cal.init newYearSun).yearStart 182 = some a ∧ ¬ MidweekStart (Cal.init newYearSun) 182 ∧
    FirstWeek a s ∧ Reachable (Cal.init newYearSun) (s + 7 * (60 - 1) + (1 - 1)) := by
  have k : week1 182 = 739332 ∧ ¬ ((ysInt 182 + 1) % 7 = 2 ∨ (ysInt 182 + 1) % 7 = 3) := by decide +kernel
  refine ⟨_, _, by rw [init_yearStart newYearSun_tehran, if_pos (by omega)], ?_, firstWeek_week1 182, ?_⟩
  · rw [midweek_iff newYearSun_tehran (by omega) (by omega)]; exact k.2
  · rw [k.1]; exact reachable_modern newYearSun_tehran (by omega) (by omega)

end Verif
