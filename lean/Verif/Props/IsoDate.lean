import Verif.Lemmas.IsoText
import Verif.Lemmas.WitnessOrdinal

/-!
# C18 and C19: dates as ISO text
-/

namespace Verif

/-- The long form made from a valid short one. -/
theorem newLong_of_short {A : Astro} (hE : TehranEvening A) {y m d n : ℤ} (hd : DayNumber (Cal.init A) y m d n) :
    ∃ o, ((Cal.init A).longFromShort ⟨y, m, d, []⟩ true >>= fun b => (Cal.init A).newDateOf (.long b)) = .ok o ∧
      IsDay (Cal.init A) o n ∧ o.isShort = false := by
  obtain ⟨y0, y1, -, -⟩ := (dayNumber_iff hE).mp hd
  obtain ⟨hden, k0, k1⟩ := kvy_range y (by omega) (by omega)
  have hday : IsDay (Cal.init A) (.long (kvyFromYear y).1 (kvyFromYear y).2.1 (kvyFromYear y).2.2 m d) n :=
    ⟨y, hden, hd⟩
  refine ⟨_, ?_, hday, rfl⟩
  have hl := longFromShort_ok (Cal.init A) ⟨y, m, d, []⟩ true (by simp only; omega) (by simp only; omega)
  simp only at hl
  rw [checkTail_of_day hE hd, pyOk_bind] at hl
  have hz : trimHms [(getHms []).1, (getHms []).2.1, (getHms []).2.2.1, (getHms []).2.2.2] = [] := by
    decide +kernel
  have := newDate_ok hE hday
  rw [hl, pyOk_bind]
  simp only [if_true, hz]
  simpa [Cal.newDateOf] using this

/-- `fromisoformat` once the parser has found year, month and day. -/
theorem dateFromIso_of_parse {A : Astro} (hE : TehranEvening A) {o : DateObj} {y m d n : ℤ}
    (ho : IsDay (Cal.init A) o n) (hd : DayNumber (Cal.init A) y m d n) {s : Str}
    (hs : s.any (fun c => c = 'T' || c = ' ') = false)
    (hp : (Cal.init A).parseDate s = .ok (some (y, m, d))) :
    (Cal.init A).dateFromIso s o.isShort = .ok o := by
  unfold Cal.dateFromIso
  rw [hs, if_neg Bool.false_ne_true, hp]
  unfold Cal.dateOfParsed
  simp only
  cases hb : o.isShort with
  | true =>
    have hx : IsDay (Cal.init A) (.short y m d) n := hd
    rw [if_pos rfl, newDate_ok hE hx, isDay_unique hE ho hx (by rw [hb]; rfl)]
  | false =>
    obtain ⟨p, e, hp, hs⟩ := newLong_of_short hE hd
    rw [if_neg Bool.false_ne_true, isDay_unique hE ho hp (by rw [hb, hs])]
    exact e

theorem any_T_ext (y m d : ℕ) : (extDate y m d).any (fun c => c = 'T' || c = ' ') = false := by
  have h : ∀ c, isDig c = true → (decide (c = 'T') || decide (c = ' ')) = false := by
    intro c hc
    rw [Bool.or_eq_false_iff, decide_eq_false_iff_not, decide_eq_false_iff_not]
    constructor <;> (rintro rfl; exact absurd hc (by decide))
  simp only [extDate, List.any_append, List.any_cons, any_digits _ _ _ h]
  decide

theorem md_range {A : Astro} (hE : TehranEvening A) {y m d n : ℤ} (hd : DayNumber (Cal.init A) y m d n) :
    0 ≤ m ∧ m ≤ 19 ∧ 1 ≤ d ∧ d ≤ 19 := by
  obtain ⟨-, -, hv, -⟩ := (dayNumber_iff hE).mp hd
  rcases hv with h | ⟨h0, h1, h2⟩
  · omega
  · split_ifs at h2 <;> omega

/-- C18: the ISO text of a date is read back as the same date, in the short and in the long form. Missing from
the full property: the years -999 to -1, where it is false (below); and the year -1843, which the constructor
lets through but the parser refuses. -/
theorem C18_round_trip_partial (A : Astro) (hE : TehranEvening A) (o : DateObj) (n y m d : ℤ)
    (ho : IsDay (Cal.init A) o n) (hd : DayNumber (Cal.init A) y m d n) (h0 : -1842 ≤ y) (h1 : y ≤ 1161)
    (hy : 0 ≤ y ∨ y ≤ -1000) :
    ((Cal.init A).dateIso o >>= fun s => (Cal.init A).dateFromIso s o.isShort) = .ok o := by
  obtain ⟨y', m', d', hd', e⟩ := dateShort_ok hE ho
  obtain ⟨rfl, rfl, rfl⟩ := dayNumber_unique hE hd hd'
  obtain ⟨m0, m1, d0, d1⟩ := md_range hE hd
  unfold Cal.dateIso
  rw [e, pyOk_bind, pyOk_bind]
  lift m to ℕ using m0
  lift d to ℕ using (by omega)
  rcases hy with hy | hy
  · lift y to ℕ using hy
    simp only [formatDate_pos (show y < 10000 by omega) (show m < 100 by omega) (show d < 100 by omega)]
    exact dateFromIso_of_parse hE ho hd (any_T_ext _ _ _)
      (parseDate_pos _ (by omega) (by omega) (by omega))
  · obtain ⟨k, rfl⟩ : ∃ k : ℕ, y = -(k : ℤ) := ⟨y.natAbs, by omega⟩
    simp only [formatDate_neg (show 1000 ≤ k by omega) (show k < 10000 by omega) (show m < 100 by omega)
      (show d < 100 by omega)]
    refine dateFromIso_of_parse hE ho hd ?_ (parseDate_neg _ (by omega) (by omega) (by omega))
    rw [List.any_cons, any_T_ext]; decide

example : ∃ n, IsDay (Cal.init newYearSun) (.short 181 9 6) n ∧ DayNumber (Cal.init newYearSun) 181 9 6 n :=
  ⟨_, (dayNumber_iff newYearSun_tehran).mpr ⟨by norm_num, by norm_num, Or.inl (by norm_num), rfl⟩,
    (dayNumber_iff newYearSun_tehran).mpr ⟨by norm_num, by norm_num, Or.inl (by norm_num), rfl⟩⟩

/-- C18 is false for every date of the years -999 to -1: the text has a year of three digits after the sign,
and `fromisoformat` raises ValueError. -/
theorem C18_negative_year_negation (A : Astro) (hE : TehranEvening A) (o : DateObj) (n y m d : ℤ) (short : Bool)
    (ho : IsDay (Cal.init A) o n) (hd : DayNumber (Cal.init A) y m d n) (h0 : -999 ≤ y) (h1 : y ≤ -1) :
    ((Cal.init A).dateIso o >>= fun s => (Cal.init A).dateFromIso s short) = .error .value := by
  obtain ⟨y', m', d', hd', e⟩ := dateShort_ok hE ho
  obtain ⟨rfl, rfl, rfl⟩ := dayNumber_unique hE hd hd'
  obtain ⟨m0, m1, d0, d1⟩ := md_range hE hd
  unfold Cal.dateIso
  rw [e, pyOk_bind, pyOk_bind]
  lift m to ℕ using m0
  lift d to ℕ using (by omega)
  obtain ⟨k, rfl⟩ : ∃ k : ℕ, y = -(k : ℤ) := ⟨y.natAbs, by omega⟩
  simp only [formatDate_small (show 1 ≤ k by omega) (show k < 1000 by omega) (show m < 100 by omega)
    (show d < 100 by omega)]
  unfold Cal.dateFromIso
  rw [parseDate_small]
  simp [Cal.dateOfParsed]

example : ∃ n, DayNumber (Cal.init newYearSun) (-5) 1 1 n :=
  ⟨_, (dayNumber_iff newYearSun_tehran).mpr ⟨by norm_num, by norm_num, Or.inl (by norm_num), rfl⟩⟩

/-! ## C19 -/

/-- `YYYYMMDD`. -/
def basicDate (y m d : ℕ) : Str := digitsW 4 y ++ digitsW 2 m ++ digitsW 2 d
/-- `YYYY-DDD`. -/
def extDoy (y k : ℕ) : Str := digitsW 4 y ++ '-' :: digitsW 3 k
/-- `YYYYDDD`. -/
def basicDoy (y k : ℕ) : Str := digitsW 4 y ++ digitsW 3 k
/-- `YYYY-Www-D`. -/
def extWeek (y w d : ℕ) : Str := digitsW 4 y ++ '-' :: 'W' :: digitsW 2 w ++ '-' :: digitsW 1 d
/-- `YYYYWwwD`. -/
def basicWeek (y w d : ℕ) : Str := digitsW 4 y ++ 'W' :: digitsW 2 w ++ digitsW 1 d

/-- Characters of a date text. -/
def DateChars (s : Str) : Prop := ∀ c ∈ s, isDig c = true ∨ c = '-' ∨ c = 'W'

theorem dateChars_any {s : Str} (h : DateChars s) :
    s.any (fun c => !isDig c && c ≠ '-' && c ≠ 'W') = false ∧ s.any (fun c => c = 'T' || c = ' ') = false := by
  constructor
  · rw [List.any_eq_false]
    intro c hc
    rcases h c hc with h | h | h
    · simp [h]
    · simp [h]
    · simp [h]
  · rw [List.any_eq_false]
    intro c hc
    rw [Bool.or_eq_true, decide_eq_true_iff, decide_eq_true_iff]
    rintro (rfl | rfl)
    · have := h _ hc; revert this; decide
    · have := h _ hc; revert this; decide

theorem dateChars_digits (w n : ℕ) : DateChars (digitsW w n) := fun c hc => Or.inl (digitsW_isDig w n c hc)

/-- The parser on a text that begins with four digits. -/
theorem parseDate_year (C : Cal) {y : ℕ} (hy : y ≤ 1161) (r : Str) (hr : DateChars r) :
    C.parseDate (digitsW 4 y ++ r) = C.parseDateTail (y : ℤ) (digitsW 4 y ++ r) := by
  have hc : DateChars (digitsW 4 y ++ r) := by
    intro c hc
    rcases List.mem_append.1 hc with h | h
    · exact dateChars_digits _ _ c h
    · exact hr c h
  unfold Cal.parseDate
  rw [(dateChars_any hc).1, if_neg Bool.false_ne_true]
  have e : digitsW 4 y ++ r = dg (y / 10 ^ 3) :: (digitsW 4 y ++ r).drop 1 := rfl
  have n : dg (y / 10 ^ 3) ≠ '-' := dg_ne _ _ rfl
  have e4 : (digitsW 4 y ++ r).take 4 = digitsW 4 y := rfl
  have e0 : minYear = -1842 := rfl
  have e5 : maxYear = 1161 := rfl
  rw [e]
  simp only [n, if_false]
  rw [← e, e4, intOf_digits (by norm_num) (by norm_num; omega), pyOk_bind, pyAssert_true (by omega), pyOk_bind]

theorem fromIso_year (C : Cal) {y : ℕ} (hy : y ≤ 1161) {r : Str} (hr : DateChars r) (short : Bool) :
    C.dateFromIso (digitsW 4 y ++ r) short =
      C.dateOfParsed short (C.parseDateTail (y : ℤ) (digitsW 4 y ++ r)) := by
  have hc : DateChars (digitsW 4 y ++ r) := by
    intro c hc
    rcases List.mem_append.1 hc with h | h
    · exact dateChars_digits _ _ c h
    · exact hr c h
  unfold Cal.dateFromIso
  rw [(dateChars_any hc).2, if_neg Bool.false_ne_true, parseDate_year C hy r hr]

/-- C19, week dates: `YYYYWwwD` and `YYYY-Www-D` are read alike, for all digits. -/
theorem C19_week (C : Cal) (y w d : ℕ) (short : Bool) (hy : y ≤ 1161) :
    C.dateFromIso (basicWeek y w d) short = C.dateFromIso (extWeek y w d) short := by
  have k1 : DateChars ('W' :: digitsW 2 w ++ digitsW 1 d) := by
    intro c hc
    simp only [List.mem_cons, List.mem_append, List.cons_append] at hc
    rcases hc with rfl | h | h
    · exact Or.inr (Or.inr rfl)
    · exact dateChars_digits _ _ c h
    · exact dateChars_digits _ _ c h
  have k2 : DateChars ('-' :: 'W' :: digitsW 2 w ++ '-' :: digitsW 1 d) := by
    intro c hc
    simp only [List.mem_cons, List.mem_append, List.cons_append] at hc
    rcases hc with rfl | rfl | h | rfl | h
    · exact Or.inr (Or.inl rfl)
    · exact Or.inr (Or.inr rfl)
    · exact dateChars_digits _ _ c h
    · exact Or.inr (Or.inl rfl)
    · exact dateChars_digits _ _ c h
  have b1 : basicWeek y w d = digitsW 4 y ++ ('W' :: digitsW 2 w ++ digitsW 1 d) := by simp [basicWeek]
  have b2 : extWeek y w d = digitsW 4 y ++ ('-' :: 'W' :: digitsW 2 w ++ '-' :: digitsW 1 d) := by simp [extWeek]
  have key : C.parseDateTail (y : ℤ) (basicWeek y w d) = C.parseDateTail (y : ℤ) (extWeek y w d) := by
    have c1 : (basicWeek y w d).count '-' = 0 := by
      simp [basicWeek, List.count_append, count_digits _ _ '-' rfl]
    have c2 : (basicWeek y w d).count 'W' = 1 := by
      simp [basicWeek, List.count_append, count_digits _ _ 'W' rfl]
    have c3 : (extWeek y w d).count '-' = 2 := by
      simp [extWeek, List.count_append, count_digits _ _ '-' rfl]
    have c4 : (extWeek y w d).count 'W' = 1 := by
      simp [extWeek, List.count_append, count_digits _ _ 'W' rfl]
    have l1 : (basicWeek y w d).length = 8 := by simp [basicWeek, digitsW_length]
    have l2 : (extWeek y w d).length = 10 := by simp [extWeek, digitsW_length]
    have s1 : slice (basicWeek y w d) 5 7 = digitsW 2 w := rfl
    have s2 : slice (extWeek y w d) 6 8 = digitsW 2 w := rfl
    have s3 : (basicWeek y w d).drop 7 = digitsW 1 d := rfl
    have s4 : (extWeek y w d).drop 9 = digitsW 1 d := rfl
    unfold Cal.parseDateTail Cal.parseWeek
    simp only [c1, c2, c3, c4, l1, l2]
    simp [pyAssert, pyOk_bind, s1, s2, s3, s4]
  rw [b1, b2, fromIso_year C hy k1, fromIso_year C hy k2, ← b1, ← b2, key]

example : (Cal.init sixPm).dateFromIso "0181W017".toList true =
    (Cal.init sixPm).dateFromIso "0181-W01-7".toList true := C19_week _ 181 1 7 true (by norm_num)

theorem parseTail_extDoy (C : Cal) (y k : ℕ) (hk : k < 1000) (leap : Bool) (hl : C.isLeapYear y = .ok leap) :
    C.parseDateTail (y : ℤ) (extDoy y k) =
      .ok (some ((y : ℤ), (doyLoop (badiMonthDays leap) 0 k).1, (doyLoop (badiMonthDays leap) 0 k).2)) := by
  have c1 : (extDoy y k).count '-' = 1 := by
    simp [extDoy, List.count_append, count_digits _ _ '-' rfl]
  have c2 : (extDoy y k).count 'W' = 0 := by
    simp [extDoy, List.count_append, count_digits _ _ 'W' rfl]
  have l1 : (extDoy y k).length = 8 := by simp [extDoy, digitsW_length]
  have s1 : slice (extDoy y k) 5 8 = digitsW 3 k := rfl
  unfold Cal.parseDateTail
  simp only [c1, c2, l1, s1]
  rw [pyAssert_true (by norm_num), pyOk_bind]
  have i1 := intOf_digits (w := 3) (n := k) (by norm_num) (by omega)
  simp [Cal.parseDoy, hl, pyOk_bind, i1, Except.map]

theorem parseTail_basicDoy (C : Cal) (y k : ℕ) (hk : k < 1000) (leap : Bool) (hl : C.isLeapYear y = .ok leap) :
    C.parseDateTail (y : ℤ) (basicDoy y k) =
      .ok (some ((y : ℤ), (doyLoop (badiMonthDays leap) 0 k).1, (doyLoop (badiMonthDays leap) 0 k).2)) := by
  have c1 : (basicDoy y k).count '-' = 0 := by
    simp [basicDoy, List.count_append, count_digits _ _ '-' rfl]
  have c2 : (basicDoy y k).count 'W' = 0 := by
    simp [basicDoy, List.count_append, count_digits _ _ 'W' rfl]
  have l1 : (basicDoy y k).length = 7 := by simp [basicDoy, digitsW_length]
  have s1 : slice (basicDoy y k) 4 7 = digitsW 3 k := rfl
  unfold Cal.parseDateTail
  simp only [c1, c2, l1, s1]
  rw [pyAssert_true (by norm_num), pyOk_bind]
  have i1 := intOf_digits (w := 3) (n := k) (by norm_num) (by omega)
  simp [Cal.parseDoy, hl, pyOk_bind, i1, Except.map]

/-- The loop over the months against the layout of the year: day of year `k` is the `k`-th day; numbers past the
end come out as days of month 19 once more. -/
theorem doyLoop_spec (leap : Bool) : ∀ k < 1000,
    (1 ≤ k ∧ k ≤ (specYear leap).length → (specYear leap)[k - 1]? = some (doyLoop (badiMonthDays leap) 0 k)) ∧
    ((specYear leap).length < k → doyLoop (badiMonthDays leap) 0 k = (19, (k : ℤ) - (specYear leap).length)) ∧
    (k = 0 → doyLoop (badiMonthDays leap) 0 k = (1, 0)) := by
  cases leap <;> decide +kernel

theorem extDoy_chars (y k : ℕ) : DateChars (extDoy y k) := by
  intro c hc
  simp only [extDoy, List.mem_cons, List.mem_append] at hc
  rcases hc with h | rfl | h
  · exact dateChars_digits _ _ c h
  · exact Or.inr (Or.inl rfl)
  · exact dateChars_digits _ _ c h

theorem basicDoy_chars (y k : ℕ) : DateChars (basicDoy y k) := by
  intro c hc
  simp only [basicDoy, List.mem_append] at hc
  rcases hc with h | h <;> exact dateChars_digits _ _ c h

theorem year_length {A : Astro} (hE : TehranEvening A) {y a b : ℤ} (ha : (Cal.init A).yearStart y = some a)
    (hb : (Cal.init A).yearStart (y + 1) = some b) : b - a = 365 ∨ b - a = 366 := by
  rw [init_yearStart hE] at ha hb
  split_ifs at ha hb with h1 h2
  have e1 := Option.some.inj ha
  have e2 := Option.some.inj hb
  rw [← e1, ← e2]
  exact ysInt_step (by omega) (by omega)

/-- C19, day of the year: `YYYYDDD` and `YYYY-DDD` are both read as the `DDD`-th day of the year. -/
theorem C19_day_of_year (A : Astro) (hE : TehranEvening A) (o : DateObj) (y k : ℕ) (a b : ℤ) (hy : y ≤ 1161)
    (ha : (Cal.init A).yearStart y = some a) (hb : (Cal.init A).yearStart (y + 1) = some b)
    (h0 : 1 ≤ k) (h1 : (k : ℤ) ≤ b - a) (ho : IsDay (Cal.init A) o (a + (k - 1))) :
    (Cal.init A).dateFromIso (extDoy y k) o.isShort = .ok o ∧
    (Cal.init A).dateFromIso (basicDoy y k) o.isShort = .ok o := by
  have hl : (Cal.init A).isLeapYear y = .ok (b - a == 366) := by
    unfold Cal.isLeapYear; rw [ha, hb]
  have eb := year_length hE ha hb
  have hk : k < 1000 ∧ k ≤ (specYear (b - a == 366)).length := by
    rw [specYear_length]
    rcases eb with e | e <;> rw [e] <;> simp <;> omega
  have hd : DayNumber (Cal.init A) y (doyLoop (badiMonthDays (b - a == 366)) 0 k).1
      (doyLoop (badiMonthDays (b - a == 366)) 0 k).2 (a + (k - 1)) :=
    ⟨a, b, ha, hb, k - 1, by omega, (doyLoop_spec _ k hk.1).1 ⟨h0, hk.2⟩⟩
  constructor
  · refine dateFromIso_of_parse hE ho hd (dateChars_any (extDoy_chars y k)).2 ?_
    unfold extDoy
    rw [parseDate_year _ hy]
    · exact parseTail_extDoy _ y k hk.1 _ hl
    · exact fun c hc => extDoy_chars y k c (List.mem_append_right _ hc)
  · refine dateFromIso_of_parse hE ho hd (dateChars_any (basicDoy_chars y k)).2 ?_
    unfold basicDoy
    rw [parseDate_year _ hy]
    · exact parseTail_basicDoy _ y k hk.1 _ hl
    · exact fun c hc => basicDoy_chars y k c (List.mem_append_right _ hc)

example : ∃ a b n, (Cal.init newYearSun).yearStart 181 = some a ∧ (Cal.init newYearSun).yearStart (181 + 1) = some b ∧
    (365 : ℤ) ≤ b - a ∧ IsDay (Cal.init newYearSun) (.short 181 19 19) n ∧ n = a + (365 - 1) := by
  refine ⟨738964, 739329, 739328, ?_, ?_, by norm_num, (dayNumber_iff newYearSun_tehran).mpr
    ⟨by norm_num, by norm_num, Or.inl (by norm_num), by decide +kernel⟩, by norm_num⟩
  · rw [init_yearStart newYearSun_tehran]; decide +kernel
  · rw [init_yearStart newYearSun_tehran]; decide +kernel

theorem fromIso_doy {A : Astro} {y k : ℕ} {a b : ℤ} (hy : y ≤ 1161)
    (ha : (Cal.init A).yearStart y = some a) (hb : (Cal.init A).yearStart (y + 1) = some b) (hk : k < 1000)
    (s : Str) (hs : s = extDoy y k ∨ s = basicDoy y k) :
    (Cal.init A).dateFromIso s true = (Cal.init A).newDate
      (.short y (doyLoop (badiMonthDays (b - a == 366)) 0 k).1 (doyLoop (badiMonthDays (b - a == 366)) 0 k).2) := by
  have hl : (Cal.init A).isLeapYear y = .ok (b - a == 366) := by
    unfold Cal.isLeapYear; rw [ha, hb]
  rcases hs with rfl | rfl
  · have h := fromIso_year (Cal.init A) hy (fun c hc => extDoy_chars y k c (List.mem_append_right _ hc)) true
    change (Cal.init A).dateFromIso (extDoy y k) true = _ at h
    rw [h]
    change (Cal.init A).dateOfParsed true ((Cal.init A).parseDateTail y (extDoy y k)) = _
    rw [parseTail_extDoy _ y k hk _ hl]
    rfl
  · have h := fromIso_year (Cal.init A) hy (fun c hc => basicDoy_chars y k c (List.mem_append_right _ hc)) true
    change (Cal.init A).dateFromIso (basicDoy y k) true = _ at h
    rw [h]
    change (Cal.init A).dateOfParsed true ((Cal.init A).parseDateTail y (basicDoy y k)) = _
    rw [parseTail_basicDoy _ y k hk _ hl]
    rfl

/-- C19 is false for days past the end of the year: the first nineteen of them are accepted and read as the days
of month 19. -/
theorem C19_day_of_year_negation (A : Astro) (hE : TehranEvening A) (y k : ℕ) (a b : ℤ) (hy : y ≤ 1161)
    (ha : (Cal.init A).yearStart y = some a) (hb : (Cal.init A).yearStart (y + 1) = some b)
    (h0 : b - a < k) (h1 : (k : ℤ) ≤ b - a + 19) (s : Str) (hs : s = extDoy y k ∨ s = basicDoy y k) :
    (Cal.init A).dateFromIso s true = .ok (.short y 19 (k - (b - a))) := by
  have eb := year_length hE ha hb
  have hl : ((specYear (b - a == 366)).length : ℤ) = b - a := by
    rw [specYear_length]; rcases eb with e | e <;> rw [e] <;> simp
  rw [fromIso_doy hy ha hb (by omega) s hs, (doyLoop_spec _ k (by omega)).2.1 (by omega), hl]
  have hyr : (Cal.init A).isLeapYear y = .ok (b - a == 366) := by
    unfold Cal.isLeapYear; rw [ha, hb]
  rw [newDate_short (by omega), (checkTail_dec hyr).1 (Or.inl (by omega))]
  rfl

example : (365 : ℤ) < (366 : ℕ) ∧ ((366 : ℕ) : ℤ) ≤ 365 + 19 := by norm_num

/-- C19: day 000 and days more than nineteen past the end of the year are refused. -/
theorem C19_day_of_year_refused (A : Astro) (hE : TehranEvening A) (y k : ℕ) (a b : ℤ) (hy : y ≤ 1161)
    (ha : (Cal.init A).yearStart y = some a) (hb : (Cal.init A).yearStart (y + 1) = some b)
    (hk : k < 1000) (h : k = 0 ∨ b - a + 19 < k) (s : Str) (hs : s = extDoy y k ∨ s = basicDoy y k) :
    (Cal.init A).dateFromIso s true = .error .assertion := by
  have eb := year_length hE ha hb
  have hl : ((specYear (b - a == 366)).length : ℤ) = b - a := by
    rw [specYear_length]; rcases eb with e | e <;> rw [e] <;> simp
  have hyr : (Cal.init A).isLeapYear y = .ok (b - a == 366) := by
    unfold Cal.isLeapYear; rw [ha, hb]
  rw [fromIso_doy hy ha hb hk s hs]
  rcases h with h | h
  · rw [(doyLoop_spec _ k hk).2.2 h, newDate_short (by omega), (checkTail_dec hyr).2 (by
      rintro (h | h) <;> omega)]
    rfl
  · rw [(doyLoop_spec _ k hk).2.1 (by omega), hl, newDate_short (by omega), (checkTail_dec hyr).2 (by
      rintro (h | h) <;> omega)]
    rfl

example : (365 : ℤ) + 19 < (400 : ℕ) ∧ 400 < 1000 := by norm_num

theorem ext_chars (y m d : ℕ) : DateChars (extDate y m d) := by
  intro c hc
  simp only [extDate, List.mem_cons, List.mem_append] at hc
  rcases hc with (h | rfl | h) | rfl | h
  · exact dateChars_digits _ _ c h
  · exact Or.inr (Or.inl rfl)
  · exact dateChars_digits _ _ c h
  · exact Or.inr (Or.inl rfl)
  · exact dateChars_digits _ _ c h

/-- C19, `YYYY-MM-DD`: the constructor decides, so that an impossible month or day is refused (see C22). -/
theorem fromIso_ext (C : Cal) {y m d : ℕ} (hy : y ≤ 1161) (hm : m < 100) (hd : d < 100) :
    C.dateFromIso (extDate y m d) true = C.newDate (.short y m d) := by
  unfold Cal.dateFromIso
  rw [(dateChars_any (ext_chars y m d)).2, if_neg Bool.false_ne_true, parseDate_pos C hy hm hd]
  rfl

theorem basic_chars (y m d : ℕ) : DateChars (basicDate y m d) := by
  intro c hc
  simp only [basicDate, List.mem_append] at hc
  rcases hc with (h | h) | h <;> exact dateChars_digits _ _ c h

/-- `YYYYMMDD`: only the last digit of the day is read. -/
theorem fromIso_basic (C : Cal) {y m d : ℕ} (hy : y ≤ 1161) (hm : m < 100) :
    C.dateFromIso (basicDate y m d) true = C.newDate (.short y m (d % 10 : ℕ)) := by
  have c1 : (basicDate y m d).count '-' = 0 := by
    simp [basicDate, List.count_append, count_digits _ _ '-' rfl]
  have c2 : (basicDate y m d).count 'W' = 0 := by
    simp [basicDate, List.count_append, count_digits _ _ 'W' rfl]
  have l1 : (basicDate y m d).length = 8 := by simp [basicDate, digitsW_length]
  have s1 : slice (basicDate y m d) 4 6 = digitsW 2 m := rfl
  have s2 : slice (basicDate y m d) 7 9 = digitsW 1 (d % 10) := by
    have : slice (basicDate y m d) 7 9 = [dg (d / 10 ^ 0)] := rfl
    rw [this, digitsW, digitsW]
    simp only [pow_zero, Nat.div_one]
    rw [← dg_mod]
  have key : C.parseDateTail (y : ℤ) (basicDate y m d) = .ok (some ((y : ℤ), (m : ℤ), ((d % 10 : ℕ) : ℤ))) := by
    unfold Cal.parseDateTail
    simp only [c1, c2, l1, s1, s2]
    rw [pyAssert_true (by norm_num), pyOk_bind]
    simp only [intOf_digits (w := 2) (by norm_num) (show m < 10 ^ 2 by norm_num; exact hm),
      intOf_digits (w := 1) (by norm_num) (show d % 10 < 10 ^ 1 by omega), pyOk_bind]
    norm_num
  have b1 : basicDate y m d = digitsW 4 y ++ (digitsW 2 m ++ digitsW 2 d) := by simp [basicDate]
  rw [b1, fromIso_year C hy (fun c hc => basic_chars y m d c (by rw [b1]; exact List.mem_append_right _ hc)) true,
    ← b1, key]
  rfl

/-- C19 for calendar dates. Extended form: exactly the days of the calendar are accepted, each as itself; everything
else is refused. Basic form: the same for days written `01` to `09`. Missing from the full property: days from `10`
on in the basic form, where it is false (below). -/
theorem C19_calendar_partial (A : Astro) (hE : TehranEvening A) (y m d : ℕ) (hy : y ≤ 1161) (hm : m < 100)
    (hd : d < 100) :
    ((∃ n, DayNumber (Cal.init A) y m d n) →
      (Cal.init A).dateFromIso (extDate y m d) true = .ok (.short y m d)) ∧
    (¬ (∃ n, DayNumber (Cal.init A) y m d n) →
      (Cal.init A).dateFromIso (extDate y m d) true = .error .assertion) ∧
    (d < 10 → (Cal.init A).dateFromIso (basicDate y m d) true = (Cal.init A).dateFromIso (extDate y m d) true) := by
  rw [fromIso_ext _ hy hm hd, fromIso_basic _ hy hm]
  refine ⟨fun ⟨n, h⟩ => newDate_ok hE (o := .short y m d) h, fun h => ?_, fun h => by rw [Nat.mod_eq_of_lt h]⟩
  rw [newDate_short (by omega), (checkTail_dec (init_isLeap hE (y := y) (by omega) (by omega))).2]
  · rfl
  · intro hv
    exact h ⟨_, (dayNumber_iff hE).mpr ⟨by omega, by omega, hv, rfl⟩⟩

example : ∃ n, DayNumber (Cal.init newYearSun) 181 9 6 n :=
  ⟨_, (dayNumber_iff newYearSun_tehran).mpr ⟨by norm_num, by norm_num, Or.inl (by norm_num), rfl⟩⟩

/-- C19 is false for days from 10 on in the basic form: day 10 of every month is refused, days 11 to 19 are read
as days 1 to 9, and impossible days such as 25 are accepted. -/
theorem C19_basic_negation (A : Astro) (hE : TehranEvening A) (y m d : ℕ) (hy : y ≤ 1161) (hm0 : 1 ≤ m)
    (hm : m ≤ 19) (hd0 : 10 ≤ d) (hd : d < 100) :
    (d % 10 = 0 → (Cal.init A).dateFromIso (basicDate y m d) true = .error .assertion) ∧
    (d % 10 ≠ 0 → (Cal.init A).dateFromIso (basicDate y m d) true = .ok (.short y m (d % 10 : ℕ)) ∧
      (Cal.init A).dateFromIso (basicDate y m d) true ≠ (Cal.init A).dateFromIso (extDate y m d) true) := by
  have hyr := init_isLeap hE (y := y) (by omega) (by omega)
  rw [fromIso_basic _ hy (by omega), fromIso_ext _ hy (by omega) hd]
  constructor
  · intro h
    rw [newDate_short (by omega), (checkTail_dec hyr).2 (by rintro (h | h) <;> omega)]
    rfl
  · intro h
    rw [newDate_short (by omega), (checkTail_dec hyr).1 (Or.inl (by omega)), newDate_short (by omega)]
    refine ⟨rfl, ?_⟩
    by_cases hv : ValidMD (ysInt ((y : ℤ) + 1) - ysInt y == 366) m d
    · rw [(checkTail_dec hyr).1 hv]
      intro e
      have e := Except.ok.inj e
      simp only [DateObj.short.injEq] at e
      omega
    · rw [(checkTail_dec hyr).2 hv]
      intro e; cases e

example : (Cal.init newYearSun).dateFromIso "01810125".toList true = .ok (.short 181 1 5) :=
  ((C19_basic_negation newYearSun newYearSun_tehran 181 1 25 (by norm_num) (by norm_num) (by norm_num) (by norm_num)
    (by norm_num)).2 (by norm_num)).1

end Verif
