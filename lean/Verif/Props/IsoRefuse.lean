import Verif.Props.IsoTime
import Verif.Props.DateTimeNew
import Verif.Lemmas.IsoWeek

/-!
# C90: what the ISO readers do with every text

`date.fromisoformat`, `time.fromisoformat` and `datetime.fromisoformat` on arbitrary texts: what they accept is a
date or a time of day, and which exceptions refuse the rest.
-/

namespace Verif

/-- The two kinds of refusal that the parsers themselves use. -/
def Refusal (e : PyErr) : Prop := e = .value ∨ e = .assertion

/-- A computation that returns or is refused. -/
def Refuses {α : Type} (p : Py α) : Prop := ∀ e, p = .error e → Refusal e

theorem refuses_ok {α : Type} (a : α) : Refuses (.ok a : Py α) := fun _ h => by cases h
theorem refuses_value {α : Type} : Refuses (.error .value : Py α) := fun _ h => by cases h; exact Or.inl rfl
theorem refuses_assertion {α : Type} : Refuses (.error .assertion : Py α) := fun _ h => by cases h; exact Or.inr rfl

theorem refuses_bind {α β : Type} {p : Py α} {f : α → Py β} (hp : Refuses p) (hf : ∀ a, p = .ok a → Refuses (f a)) :
    Refuses (p >>= f) := by
  cases p with
  | error e => exact fun e' h => by cases h; exact hp e rfl
  | ok a => exact hf a rfl

theorem refuses_map {α β : Type} {p : Py α} {f : α → β} (hp : Refuses p) : Refuses (p.map f) := by
  cases p with
  | error e => exact fun e' h => by cases h; exact hp e rfl
  | ok a => exact fun e' h => by cases h

theorem refuses_assert (p : Prop) [Decidable p] : Refuses (pyAssert p) := by
  by_cases h : p
  · rw [pyAssert_true h]; exact refuses_ok _
  · rw [pyAssert_false h]; exact refuses_assertion

theorem refuses_ite {α : Type} {p : Prop} [Decidable p] {a b : Py α} (ha : p → Refuses a) (hb : ¬ p → Refuses b) :
    Refuses (if p then a else b) := by
  by_cases h : p
  · rw [if_pos h]; exact ha h
  · rw [if_neg h]; exact hb h

theorem refuses_digits (s : Str) : Refuses (intOfDigits s) := by
  unfold intOfDigits
  split
  · exact refuses_ok _
  · exact refuses_value

theorem refuses_int (s : Str) : Refuses (intOf s) := by
  unfold intOf
  split
  · exact refuses_bind (refuses_digits _) fun _ _ => refuses_ok _
  · exact refuses_digits _
  · exact refuses_digits _

theorem refuses_float (s : Str) : Refuses (floatOf s) := by
  unfold floatOf
  simp only
  split_ifs
  · split
    · exact refuses_ok _
    · exact refuses_value
  · exact refuses_value

/-! ## Dates -/

theorem parseTail_year {C : Cal} {year y m d : ℤ} {s : Str} (hw : 'W' ∉ s)
    (h : C.parseDateTail year s = .ok (some (y, m, d))) : y = year := by
  unfold Cal.parseDateTail at h
  have w0 : s.count 'W' = 0 := List.count_eq_zero.2 hw
  simp only [w0] at h
  by_cases ha : 0 ≤ 1 ∧ s.count '-' ≤ 2
  · rw [pyAssert_true ha, pyOk_bind] at h
    split_ifs at h with h1 h2 h3 h4 h5 h6
    all_goals first
      | (cases hx : intOf (slice s 5 7) with
          | error e => rw [hx] at h; cases h
          | ok a =>
            rw [hx, pyOk_bind] at h
            first
              | (injection h with h; injection h with h; injection h with h; exact h.symm)
              | (cases hy : intOf (slice s 8 10) with
                  | error e => rw [hy] at h; cases h
                  | ok b =>
                    rw [hy, pyOk_bind] at h
                    injection h with h; injection h with h; injection h with h; exact h.symm))
      | (cases hx : intOf (slice s 4 6) with
          | error e => rw [hx] at h; cases h
          | ok a =>
            rw [hx, pyOk_bind] at h
            cases hy : intOf (slice s 7 9) with
            | error e => rw [hy] at h; cases h
            | ok b =>
              rw [hy, pyOk_bind] at h
              injection h with h; injection h with h; injection h with h; exact h.symm)
      | (exfalso; omega)
      | (unfold Cal.parseDoy at h
         cases hl : C.isLeapYear year with
         | error e => rw [hl] at h; cases h
         | ok l =>
           rw [hl, pyOk_bind] at h
           first
             | (cases hx : intOf (slice s 4 7) with
                | error e => rw [hx] at h; cases h
                | ok a =>
                  rw [hx, pyOk_bind] at h
                  injection h with h; injection h with h; injection h with h; exact h.symm)
             | (cases hx : intOf (slice s 5 8) with
                | error e => rw [hx] at h; cases h
                | ok a =>
                  rw [hx, pyOk_bind] at h
                  injection h with h; injection h with h; injection h with h; exact h.symm))
      | (injection h with h; cases h)
  · rw [pyAssert_false ha] at h; cases h

theorem parseTail_refuses {A : Astro} (hE : TehranEvening A) {year : ℤ} (h0 : -1843 ≤ year) (h1 : year ≤ 1161)
    {s : Str} (hw : 'W' ∉ s) : Refuses ((Cal.init A).parseDateTail year s) := by
  unfold Cal.parseDateTail
  have w0 : s.count 'W' = 0 := List.count_eq_zero.2 hw
  simp only [w0]
  refine refuses_bind (refuses_assert _) fun _ _ => ?_
  split_ifs
  · exact refuses_bind (refuses_int _) fun _ _ => refuses_ok _
  · exact refuses_bind (refuses_int _) fun _ _ => refuses_bind (refuses_int _) fun _ _ => refuses_ok _
  · exact refuses_bind (refuses_int _) fun _ _ => refuses_bind (refuses_int _) fun _ _ => refuses_ok _
  · exfalso; omega
  all_goals first
    | exact refuses_ok _
    | (refine refuses_map ?_
       unfold Cal.parseDoy
       rw [init_isLeap hE h0 h1, pyOk_bind]
       exact refuses_bind (refuses_int _) fun _ _ => refuses_ok _)

/-- The characters that are read as the year: four, or five if the first is a minus sign. -/
def yearText (s : Str) : Str := s.take (if s.take 1 = ['-'] then 5 else 4)

theorem parseDate_year_of {C : Cal} {y m d : ℤ} {s : Str} (hw : 'W' ∉ s)
    (h : C.parseDate s = .ok (some (y, m, d))) : intOf (yearText s) = .ok y ∧ -1842 ≤ y ∧ y ≤ 1161 := by
  unfold Cal.parseDate at h
  split_ifs at h with ha
  cases s with
  | nil =>
    have : C.parseDateTail 0 [] = .ok none := rfl
    rw [this] at h
    cases h
  | cons c r =>
    simp only at h
    have e : yearText (c :: r) = (c :: r).take (if c = '-' then 5 else 4) := by
      unfold yearText
      simp
    rw [e]
    cases hi : intOf ((c :: r).take (if c = '-' then 5 else 4)) with
    | error e => rw [hi] at h; cases h
    | ok year =>
      rw [hi, pyOk_bind] at h
      by_cases hr : minYear ≤ year ∧ year ≤ maxYear
      · rw [pyAssert_true hr, pyOk_bind] at h
        have := parseTail_year (by
          split_ifs
          · exact fun hm => hw (List.mem_cons_of_mem _ hm)
          · exact hw) h
        subst this
        exact ⟨rfl, hr.1, hr.2⟩
      · rw [pyAssert_false hr] at h; cases h

theorem parseDate_refuses {A : Astro} (hE : TehranEvening A) {s : Str} (hw : 'W' ∉ s) :
    Refuses ((Cal.init A).parseDate s) := by
  unfold Cal.parseDate
  split_ifs
  · exact refuses_value
  · cases s with
    | nil => exact parseTail_refuses hE (by norm_num) (by norm_num) hw
    | cons c r =>
      refine refuses_bind (refuses_int _) fun y _ => ?_
      by_cases hr : minYear ≤ y ∧ y ≤ maxYear
      · rw [pyAssert_true hr, pyOk_bind]
        have e0 : minYear = -1842 := rfl
        have e5 : maxYear = 1161 := rfl
        refine parseTail_refuses hE (by omega) (by omega) ?_
        split_ifs
        · exact fun hm => hw (List.mem_cons_of_mem _ hm)
        · exact hw
      · rw [pyAssert_false hr]; exact refuses_assertion

theorem natValFrom_lt {s : Str} {a n : ℕ} (h : natValFrom s a = some n) : n < (a + 1) * 10 ^ s.length := by
  induction s generalizing a with
  | nil => cases h; simp
  | cons c r ih =>
    unfold natValFrom at h
    split_ifs at h with hc
    have := ih h
    have hb : c.toNat - 48 ≤ 9 := by
      unfold isDig at hc
      simp only [Bool.and_eq_true, decide_eq_true_eq] at hc
      omega
    calc n < (a * 10 + (c.toNat - 48) + 1) * 10 ^ r.length := this
      _ ≤ ((a + 1) * 10) * 10 ^ r.length := Nat.mul_le_mul_right _ (by omega)
      _ = (a + 1) * 10 ^ (c :: r).length := by rw [List.length_cons, pow_succ]; ring

theorem intOfDigits_range {s : Str} {v : ℤ} (h : intOfDigits s = .ok v) : 0 ≤ v ∧ v < 10 ^ s.length := by
  unfold intOfDigits at h
  split at h
  · rename_i n hn
    cases h
    unfold natVal at hn
    split_ifs at hn
    have := natValFrom_lt hn
    simp only [zero_add, one_mul] at this
    exact ⟨by positivity, by exact_mod_cast this⟩
  · cases h

theorem strip_length (s : Str) : (strip s).length ≤ s.length := by
  unfold strip
  rw [List.length_reverse]
  refine le_trans (List.dropWhile_sublist _).length_le ?_
  rw [List.length_reverse]
  exact (List.dropWhile_sublist _).length_le

theorem intOf_two {s : Str} {v : ℤ} (hl : s.length ≤ 2) (h : intOf s = .ok v) : -9 ≤ v ∧ v ≤ 99 := by
  have hs := strip_length s
  have low : ∀ {t : Str} {w : ℤ}, t.length ≤ 1 → intOfDigits t = .ok w → 0 ≤ w ∧ w ≤ 9 := by
    intro t w ht hw
    obtain ⟨a, b⟩ := intOfDigits_range hw
    have : (10 : ℤ) ^ t.length ≤ 10 ^ 1 := pow_le_pow_right₀ (by norm_num) ht
    exact ⟨a, by norm_num at this; omega⟩
  have high : ∀ {t : Str} {w : ℤ}, t.length ≤ 2 → intOfDigits t = .ok w → 0 ≤ w ∧ w ≤ 99 := by
    intro t w ht hw
    obtain ⟨a, b⟩ := intOfDigits_range hw
    have : (10 : ℤ) ^ t.length ≤ 10 ^ 2 := pow_le_pow_right₀ (by norm_num) ht
    exact ⟨a, by norm_num at this; omega⟩
  unfold intOf at h
  split at h
  · rename_i r hr
    rw [hr, List.length_cons] at hs
    cases hq : intOfDigits r with
    | error e => rw [hq] at h; cases h
    | ok w =>
      rw [hq] at h
      cases h
      have := low (by omega) hq
      omega
  · rename_i r hr
    rw [hr, List.length_cons] at hs
    have := low (by omega) h
    omega
  · have := high (by omega) h
    omega

theorem slice_length (s : Str) (a b : ℕ) : (slice s a b).length ≤ b - a := by
  unfold slice
  rw [List.length_drop, List.length_take]
  omega

theorem parseWeek_cases {A : Astro} (hE : TehranEvening A) (hO : NewYearOrder (Cal.init A)) {year : ℤ}
    (h0 : -1842 ≤ year) (h1 : year ≤ 1161) (s : Str) (dc : ℕ) :
    Refuses ((Cal.init A).parseWeek year s dc) ∧ ∀ y m d, (Cal.init A).parseWeek year s dc = .ok (y, m, d) →
      ∃ n, DayNumber (Cal.init A) y m d n := by
  have key : ∀ p : Py (ℤ × ℤ × ℤ), p = (Cal.init A).parseWeek year s dc → (∃ e, p = .error e ∧ Refusal e) ∨
      ∃ y m d n, p = .ok (y, m, d) ∧ DayNumber (Cal.init A) y m d n := by
    rintro p rfl
    unfold Cal.parseWeek
    simp only
    generalize hpos : (if dc = 0 then 5 else 6) = pos
    cases hi : intOf (slice s pos (pos + 2)) with
    | error e => exact Or.inl ⟨e, rfl, refuses_int _ _ hi⟩
    | ok w =>
      rw [pyOk_bind]
      have hw := intOf_two (le_trans (slice_length _ _ _) (by omega)) hi
      by_cases a1 : 7 < s.length
      swap
      · rw [pyAssert_false a1]; exact Or.inl ⟨_, rfl, Or.inr rfl⟩
      rw [pyAssert_true a1, pyOk_bind]
      by_cases a2 : (dc = 1 ∧ s.length = 8) ∨ dc = 0 ∨ dc = 2
      swap
      · rw [pyAssert_false a2]; exact Or.inl ⟨_, rfl, Or.inr rfl⟩
      rw [pyAssert_true a2, pyOk_bind]
      have hwd : Refuses (weekDayOf (s.drop (pos + if dc = 0 then 2 else 3))) :=
        refuses_ite (fun _ => refuses_int _) fun _ => refuses_ok _
      cases hx : weekDayOf (s.drop (pos + if dc = 0 then 2 else 3)) with
      | error e => exact Or.inl ⟨e, rfl, hwd e hx⟩
      | ok wd =>
        rw [pyOk_bind]
        rcases isoweek_cases hE hO (d := wd) h0 h1 hw.1 hw.2 with e | e | ⟨r, n, e, hn⟩
        · rw [e]; exact Or.inl ⟨_, rfl, Or.inl rfl⟩
        · rw [e]; exact Or.inl ⟨_, rfl, Or.inr rfl⟩
        · rw [e]; exact Or.inr ⟨r.y, r.m, ⌊r.d⌋, n, rfl, hn⟩
  rcases key _ rfl with ⟨e, h, hr⟩ | ⟨y, m, d, n, h, hn⟩
  · refine ⟨fun e' h' => ?_, fun y m d h' => ?_⟩
    · rw [h] at h'; cases h'; exact hr
    · rw [h] at h'; cases h'
  · refine ⟨fun e' h' => ?_, fun y' m' d' h' => ?_⟩
    · rw [h] at h'; cases h'
    · rw [h] at h'; cases h'; exact ⟨n, hn⟩

/-- The text after the year with a `W`: a refusal, nothing, or a day of the calendar. -/
theorem parseTail_week {A : Astro} (hE : TehranEvening A) (hO : NewYearOrder (Cal.init A)) {year : ℤ}
    (h0 : -1842 ≤ year) (h1 : year ≤ 1161) {s : Str} (hw : 'W' ∈ s) :
    Refuses ((Cal.init A).parseDateTail year s) ∧
    ∀ y m d, (Cal.init A).parseDateTail year s = .ok (some (y, m, d)) → ∃ n, DayNumber (Cal.init A) y m d n := by
  have w0 : s.count 'W' ≠ 0 := fun h => List.count_eq_zero.1 h hw
  obtain ⟨r, k⟩ := parseWeek_cases hE hO h0 h1 s (s.count '-')
  unfold Cal.parseDateTail
  simp only
  by_cases ha : s.count 'W' ≤ 1 ∧ s.count '-' ≤ 2
  swap
  · rw [pyAssert_false ha]
    exact ⟨refuses_assertion, fun y m d h => by cases h⟩
  rw [pyAssert_true ha, pyOk_bind, if_neg (by tauto), if_neg (by tauto), if_neg (by tauto)]
  by_cases hb : s.count 'W' ≠ 0 ∧ 7 ≤ s.length ∧ s.length ≤ 10
  · rw [if_pos hb]
    refine ⟨refuses_map r, fun y m d h => ?_⟩
    cases hp : (Cal.init A).parseWeek year s (s.count '-') with
    | error e => rw [hp] at h; cases h
    | ok q =>
      rw [hp] at h
      cases h
      exact k _ _ _ hp
  · have hc : ¬ (s.length = 7 ∨ s.length = 8) := fun h => hb ⟨w0, by omega, by omega⟩
    rw [if_neg hb, if_neg hc]
    exact ⟨refuses_ok _, fun y m d h => by cases h⟩

theorem parseDate_week {A : Astro} (hE : TehranEvening A) (hO : NewYearOrder (Cal.init A)) {s : Str} (hw : 'W' ∈ s) :
    Refuses ((Cal.init A).parseDate s) ∧
    ∀ y m d, (Cal.init A).parseDate s = .ok (some (y, m, d)) → ∃ n, DayNumber (Cal.init A) y m d n := by
  unfold Cal.parseDate
  by_cases hc : (s.any fun c => !isDig c && c ≠ '-' && c ≠ 'W') = true
  · rw [if_pos hc]; exact ⟨refuses_value, fun y m d h => by cases h⟩
  rw [if_neg hc]
  cases s with
  | nil => cases hw
  | cons c r =>
    simp only
    cases hi : intOf ((c :: r).take (if c = '-' then 5 else 4)) with
    | error e => exact ⟨fun e' h => by cases h; exact refuses_int _ _ hi, fun y m d h => by cases h⟩
    | ok y =>
      rw [pyOk_bind]
      by_cases hr : minYear ≤ y ∧ y ≤ maxYear
      swap
      · rw [pyAssert_false hr]; exact ⟨refuses_assertion, fun y m d h => by cases h⟩
      rw [pyAssert_true hr, pyOk_bind]
      have e0 : minYear = -1842 := rfl
      have e5 : maxYear = 1161 := rfl
      refine parseTail_week hE hO (by omega) (by omega) ?_
      split_ifs with hm
      · subst hm
        exact (List.mem_cons.1 hw).resolve_left (by decide)
      · exact hw

/-- What the date parser does with any text. -/
theorem parseDate_any {A : Astro} (hE : TehranEvening A) (hO : NewYearOrder (Cal.init A)) (s : Str) :
    Refuses ((Cal.init A).parseDate s) ∧
    ∀ y m d, (Cal.init A).parseDate s = .ok (some (y, m, d)) → -1843 ≤ y ∧ y ≤ 1161 ∧
      ('W' ∈ s → ∃ n, DayNumber (Cal.init A) y m d n) ∧
      ('W' ∉ s → intOf (yearText s) = .ok y ∧ -1842 ≤ y) := by
  by_cases hw : 'W' ∈ s
  · obtain ⟨r, k⟩ := parseDate_week hE hO hw
    refine ⟨r, fun y m d h => ?_⟩
    obtain ⟨n, hn⟩ := k y m d h
    obtain ⟨a, b, -, -⟩ := (dayNumber_iff hE).mp hn
    exact ⟨a, b, fun _ => ⟨n, hn⟩, fun h' => absurd hw h'⟩
  · refine ⟨parseDate_refuses hE hw, fun y m d h => ?_⟩
    obtain ⟨a, b, c⟩ := parseDate_year_of hw h
    exact ⟨by omega, c, fun h' => absurd h' hw, fun _ => ⟨a, b⟩⟩

theorem newDate_kinds {A : Astro} (hE : TehranEvening A) {y m d : ℤ} (h0 : -1843 ≤ y) (h1 : y ≤ 1161) :
    (∃ n, DayNumber (Cal.init A) y m d n) ∨
    ((Cal.init A).newDate (.short y m d) = .error .assertion ∧
      (Cal.init A).longFromShort ⟨y, m, d, []⟩ true = .error .assertion) := by
  by_cases hv : ValidMD (ysInt (y + 1) - ysInt y == 366) m d
  · exact Or.inl ⟨_, (dayNumber_iff hE).mpr ⟨h0, h1, hv, rfl⟩⟩
  · right
    have hc := (checkTail_dec (m := m) (d := d) (init_isLeap hE h0 h1)).2 hv
    constructor
    · rw [newDate_short (by omega), hc]; rfl
    · rw [longFromShort_ok _ _ _ (by simp only; omega) (by simp only; omega)]
      simp only
      rw [hc]; rfl

/-- C90 for dates. Whatever the text is, `date.fromisoformat` either returns a day of the calendar in the form asked
for, in the year that the text begins with unless it is a week text (C19 and C11 say which day that is), or raises
ValueError or AssertionError; if it is a week text the refusal is a ValueError. Missing from the full property:
that every refusal is a ValueError and that only ISO texts are accepted, where it is false (below). -/
theorem C90_date_partial (A : Astro) (hE : TehranEvening A) (hO : NewYearOrder (Cal.init A)) (s : Str)
    (short : Bool) :
    (∃ o n y, (Cal.init A).dateFromIso s short = .ok o ∧ IsDay (Cal.init A) o n ∧ o.isShort = short ∧
      YearOf o y ∧ -1843 ≤ y ∧ y ≤ 1161 ∧ ('W' ∉ s → intOf (yearText s) = .ok y ∧ -1842 ≤ y)) ∨
    (Cal.init A).dateFromIso s short = .error .value ∨
    ((Cal.init A).dateFromIso s short = .error .assertion ∧ 'W' ∉ s) := by
  unfold Cal.dateFromIso
  split_ifs
  · exact Or.inr (Or.inl rfl)
  · cases hp : (Cal.init A).parseDate s with
    | error e => exact Or.inr (Or.inl rfl)
    | ok p =>
      rcases p with _ | ⟨y, m, d⟩
      · exact Or.inr (Or.inl rfl)
      · obtain ⟨y0, y1, hW, hy⟩ := (parseDate_any hE hO s).2 _ _ _ hp
        unfold Cal.dateOfParsed
        simp only
        rcases newDate_kinds (m := m) (d := d) hE y0 y1 with ⟨n, hn⟩ | ⟨e1, e2⟩
        · left
          cases short with
          | true => exact ⟨.short y m d, n, y, newDate_ok hE (o := .short y m d) hn, hn, rfl, rfl, y0, y1, hy⟩
          | false =>
            obtain ⟨o, e, ho, hs⟩ := newLong_of_short hE hn
            refine ⟨o, n, y, e, ho, hs, ?_, y0, y1, hy⟩
            cases o with
            | short y' m' d' => cases hs
            | long k v w m' d' =>
              obtain ⟨y', hd', hn'⟩ := ho
              obtain ⟨a0, a1, a2, a3⟩ := (dayNumber_iff hE).mp hn'
              obtain ⟨b0, b1, b2, b3⟩ := (dayNumber_iff hE).mp hn
              have : y' = y := by
                have := dayNumber_year hE hn
                have := dayNumber_year hE hn'
                by_contra hne
                rcases lt_or_gt_of_ne hne with hlt | hlt
                · have := ysInt_mono (a := y' + 1) (b := y) (by omega) (by omega) (by omega)
                  omega
                · have := ysInt_mono (a := y + 1) (b := y') (by omega) (by omega) (by omega)
                  omega
              subst this
              exact hd'
        · right; right
          refine ⟨?_, fun hw => ?_⟩
          · cases short with
            | true => exact e1
            | false => simp only [Bool.false_eq_true, if_false]; rw [e2]; rfl
          · obtain ⟨n, hn⟩ := hW hw
            rw [newDate_ok hE (o := .short y m d) hn] at e1
            cases e1

example : TehranEvening newYearSun ∧ NewYearOrder (Cal.init newYearSun) := ⟨newYearSun_tehran, newYearSun_order⟩

/-- C90 is false: digits after a date are not looked at. -/
theorem C90_trailing_negation (A : Astro) (hE : TehranEvening A) (y m d : ℕ) (n : ℤ) (t : Str)
    (hd : DayNumber (Cal.init A) y m d n) (ht : ∀ c ∈ t, isDig c = true) :
    (Cal.init A).dateFromIso (extDate y m d ++ t) true = .ok (.short y m d) := by
  obtain ⟨-, hy, -, -⟩ := (dayNumber_iff hE).mp hd
  obtain ⟨-, m1, -, d1⟩ := md_range hE hd
  have nt : ∀ c, isDig c = false → t.count c = 0 := fun c hc => List.count_eq_zero.2 fun hm => by
    rw [ht c hm] at hc; cases hc
  have b1 : extDate y m d ++ t = digitsW 4 y ++ ('-' :: digitsW 2 m ++ '-' :: digitsW 2 d ++ t) := by
    simp [extDate]
  have c1 : (extDate y m d ++ t).count '-' = 2 := by
    simp [extDate, List.count_append, count_digits _ _ '-' rfl, nt '-' rfl]
  have c2 : (extDate y m d ++ t).count 'W' = 0 := by
    simp [extDate, List.count_append, count_digits _ _ 'W' rfl, nt 'W' rfl]
  have s1 : slice (extDate y m d ++ t) 5 7 = digitsW 2 m := rfl
  have s2 : slice (extDate y m d ++ t) 8 10 = digitsW 2 d := rfl
  have key : (Cal.init A).parseDateTail (y : ℤ) (extDate y m d ++ t) = .ok (some ((y : ℤ), (m : ℤ), (d : ℤ))) := by
    unfold Cal.parseDateTail
    simp only [c1, c2, s1, s2]
    rw [pyAssert_true (by norm_num), pyOk_bind]
    simp only [intOf_digits (w := 2) (by norm_num) (show m < 10 ^ 2 by omega),
      intOf_digits (w := 2) (by norm_num) (show d < 10 ^ 2 by omega), pyOk_bind]
    norm_num
  rw [b1, fromIso_year _ (by omega) (fun c hc => by
    simp only [List.mem_cons, List.mem_append] at hc
    rcases hc with ((rfl | h) | rfl | h) | h
    · exact Or.inr (Or.inl rfl)
    · exact dateChars_digits _ _ c h
    · exact Or.inr (Or.inl rfl)
    · exact dateChars_digits _ _ c h
    · exact Or.inl (ht c h)) true, ← b1, key]
  exact newDate_ok hE (o := .short y m d) hd

/-- The day of the examples. -/
theorem dayNumber_181 : ∃ n, DayNumber (Cal.init newYearSun) ((181 : ℕ) : ℤ) ((9 : ℕ) : ℤ) ((6 : ℕ) : ℤ) n :=
  ⟨_, (dayNumber_iff newYearSun_tehran).mpr ⟨by norm_num, by norm_num, Or.inl (by norm_num), rfl⟩⟩

example : (Cal.init newYearSun).dateFromIso "0181-09-06777".toList true = .ok (.short 181 9 6) := by
  obtain ⟨n, hn⟩ := dayNumber_181
  exact C90_trailing_negation _ newYearSun_tehran 181 9 6 n "777".toList hn (by decide)

/-- C90 is false: the separators may be anything, the hyphens are only counted. -/
theorem C90_separator_negation (A : Astro) (hE : TehranEvening A) (y m d : ℕ) (n : ℤ) (a b : Char)
    (hd : DayNumber (Cal.init A) y m d n) (ha : isDig a = true) (hb : isDig b = true) :
    (Cal.init A).dateFromIso (digitsW 4 y ++ a :: digitsW 2 m ++ b :: digitsW 2 d ++ ['-', '-']) true =
      .ok (.short y m d) := by
  obtain ⟨-, hy, -, -⟩ := (dayNumber_iff hE).mp hd
  obtain ⟨-, m1, -, d1⟩ := md_range hE hd
  have na : ∀ c, isDig c = false → a ≠ c := by rintro c hc rfl; rw [ha] at hc; cases hc
  have nb : ∀ c, isDig c = false → b ≠ c := by rintro c hc rfl; rw [hb] at hc; cases hc
  obtain ⟨t, ht⟩ : ∃ t, t = digitsW 4 y ++ a :: digitsW 2 m ++ b :: digitsW 2 d ++ ['-', '-'] := ⟨_, rfl⟩
  have b1 : digitsW 4 y ++ a :: digitsW 2 m ++ b :: digitsW 2 d ++ ['-', '-'] =
    digitsW 4 y ++ (a :: digitsW 2 m ++ b :: digitsW 2 d ++ ['-', '-']) := by simp
  have c1 : t.count '-' = 2 := by
    simp [ht, List.count_append, count_digits _ _ '-' rfl, na '-' rfl, nb '-' rfl]
  have c2 : t.count 'W' = 0 := by
    simp [ht, List.count_append, count_digits _ _ 'W' rfl, na 'W' rfl, nb 'W' rfl]
  have s1 : slice t 5 7 = digitsW 2 m := by rw [ht]; rfl
  have s2 : slice t 8 10 = digitsW 2 d := by rw [ht]; rfl
  have key : (Cal.init A).parseDateTail (y : ℤ) t = .ok (some ((y : ℤ), (m : ℤ), (d : ℤ))) := by
    unfold Cal.parseDateTail
    simp only [c1, c2, s1, s2]
    rw [pyAssert_true (by norm_num), pyOk_bind]
    simp only [intOf_digits (w := 2) (by norm_num) (show m < 10 ^ 2 by omega),
      intOf_digits (w := 2) (by norm_num) (show d < 10 ^ 2 by omega), pyOk_bind]
    norm_num
  rw [b1, fromIso_year _ (by omega) (fun c hc => by
    simp only [List.mem_cons, List.mem_append, List.not_mem_nil, or_false] at hc
    rcases hc with ((rfl | h) | rfl | h) | rfl | rfl
    · exact Or.inl ha
    · exact dateChars_digits _ _ c h
    · exact Or.inl hb
    · exact dateChars_digits _ _ c h
    · exact Or.inr (Or.inl rfl)
    · exact Or.inr (Or.inl rfl)) true, ← b1, ← ht, key]
  exact newDate_ok hE (o := .short y m d) hd

example : (Cal.init newYearSun).dateFromIso "0181309406--".toList true = .ok (.short 181 9 6) := by
  obtain ⟨n, hn⟩ := dayNumber_181
  exact C90_separator_negation _ newYearSun_tehran 181 9 6 n '3' '4' hn rfl rfl

/-! ## Times -/

theorem checkArgs_cases (h mi : ℤ) (sec : ℚ) :
    (checkTimeArgs h mi sec 0 = .ok () ∧ 0 ≤ h ∧ h ≤ 24 ∧ 0 ≤ mi ∧ mi ≤ 59 ∧ 0 ≤ sec ∧ sec < 61) ∨
    checkTimeArgs h mi sec 0 = .error .assertion := by
  unfold checkTimeArgs
  by_cases h1 : 0 ≤ (h : ℚ) ∧ (h : ℚ) < 25
  · rw [pyAssert_true h1, pyOk_bind]
    by_cases h2 : 0 ≤ (mi : ℚ) ∧ (mi : ℚ) < 60
    · rw [pyAssert_true h2, pyOk_bind]
      by_cases h3 : 0 ≤ sec ∧ sec < 61
      · rw [pyAssert_true h3, pyOk_bind]
        obtain ⟨a, b⟩ := h1
        obtain ⟨c, d⟩ := h2
        have b' : h < 25 := by exact_mod_cast b
        have d' : mi < 60 := by exact_mod_cast d
        exact Or.inl ⟨rfl, by exact_mod_cast a, by omega, by exact_mod_cast c, by omega, h3.1, h3.2⟩
      · rw [pyAssert_false h3]; exact Or.inr rfl
    · rw [pyAssert_false h2]; exact Or.inr rfl
  · rw [pyAssert_false h1]; exact Or.inr rfl

/-- C90 for times: whatever the text is, `time.fromisoformat` returns a time of day or raises ValueError. -/
theorem C90_time (s : Str) :
    (∃ (h mi : ℤ) (sec : ℚ), timeFromIso s = .ok (h, mi, sec) ∧ 0 ≤ h ∧ h ≤ 24 ∧ 0 ≤ mi ∧ mi ≤ 59 ∧ 0 ≤ sec ∧
      sec < 61) ∨ timeFromIso s = .error .value := by
  unfold timeFromIso
  cases hp : parseTime s with
  | error e => exact Or.inr rfl
  | ok t =>
    simp only
    generalize t.getD (0, 0, 0) = q
    obtain ⟨h, mi, sec⟩ := q
    simp only
    rcases checkArgs_cases h mi sec with ⟨e, hr⟩ | e
    · rw [e]; exact Or.inl ⟨h, mi, sec, rfl, hr⟩
    · rw [e]; exact Or.inr rfl

example : timeFromIso "T23:59:60".toList = .ok (23, 59, 60) ∧ timeFromIso "T24:60:00".toList = .error .value ∧
    timeFromIso "T1a".toList = .error .value := by decide +kernel

/-! ## Datetimes -/

theorem splitAt_count (c : Char) (s : Str) : (splitAt c s).length = s.count c + 1 := by
  induction s with
  | nil => rfl
  | cons x xs ih =>
    unfold splitAt
    by_cases h : x = c
    · rw [if_pos h, List.length_cons, ih, h, List.count_cons_self]
    · rw [if_neg h, List.count_cons_of_ne h, ← ih]
      split
      · rename_i e; rw [e] at ih; simp at ih
      · rename_i e; rw [e]; rfl

theorem refuses_offset {l : List Str} (h0 : 1 ≤ l.length) (h1 : l.length ≤ 2) : Refuses (offsetParts l) := by
  match l with
  | [] => simp at h0
  | [a] => exact refuses_bind (refuses_int _) fun _ _ => refuses_ok _
  | [a, b] => exact refuses_bind (refuses_int _) fun _ _ => refuses_bind (refuses_int _) fun _ _ => refuses_ok _
  | a :: b :: c :: r => simp at h1

theorem refuses_newZone (fresh : ℕ) (off : ℤ) (name : Option Str) : Refuses (newZone fresh off name) := by
  unfold newZone
  split_ifs
  · exact refuses_ok _
  · exact refuses_ok _
  · exact refuses_value

theorem refuses_zone (fresh : ℕ) (s : Str) : Refuses (parseZone fresh s) := by
  unfold parseZone
  refine refuses_ite (fun _ => refuses_value) fun _ => refuses_bind (refuses_assert _) fun _ _ =>
    refuses_ite (fun _ => refuses_value) fun _ => refuses_bind (refuses_assert _) fun _ ha =>
    refuses_ite (fun _ => refuses_ok _) fun _ => refuses_ite (fun _ => refuses_ok _) fun _ =>
    refuses_ite (fun _ => refuses_ok _) fun _ => ?_
  have hc : s.count ':' < 2 := by
    by_contra hc
    rw [pyAssert_false hc] at ha
    cases ha
  refine refuses_bind (refuses_offset ?_ ?_) fun p _ => refuses_map (refuses_newZone _ _ _)
  · rw [splitAt_count]; omega
  · rw [splitAt_count]
    have := (List.drop_sublist 1 s).count_le ':'
    omega

theorem refuses_timeTail (s : Str) : Refuses (parseTimeTail s) := by
  unfold parseTimeTail
  have two : ∀ (a b : Str) (f : ℤ → ℚ → Option (ℤ × ℤ × ℚ)),
      Refuses (do let x ← intOf a; let y ← floatOf b; .ok (f x y)) := fun a b f =>
    refuses_bind (refuses_int _) fun _ _ => refuses_bind (refuses_float _) fun _ _ => refuses_ok _
  exact refuses_bind (refuses_assert _) fun _ _ => refuses_bind (refuses_assert _) fun _ _ =>
    refuses_ite (fun _ => refuses_bind (refuses_int _) fun _ _ => refuses_ite (fun _ =>
      refuses_ite (fun _ => refuses_bind (refuses_float _) fun _ _ => refuses_ok _) fun _ =>
      refuses_ite (fun _ => two _ _ _) fun _ => refuses_ite (fun _ => two _ _ _) fun _ =>
      refuses_ite (fun _ => refuses_bind (refuses_int _) fun _ _ => refuses_ok _) fun _ =>
      refuses_ite (fun _ => two _ _ _) fun _ => refuses_value) fun _ => refuses_ok _) fun _ => refuses_ok _

theorem refuses_time (s : Str) : Refuses (parseTime s) := by
  unfold parseTime
  exact refuses_ite (fun _ => refuses_value) fun _ => refuses_bind (refuses_assert _) fun _ _ =>
    refuses_ite (fun _ => refuses_value) fun _ => refuses_timeTail _

/-- The characters that end the date in the text of a datetime. -/
def endsDate (c : Char) : Prop := c ∈ ['T', ' ', 'Z', 'B', '+', '-']

theorem findIndex_none {s : Str} (h : ∀ c ∈ s, ¬ endsDate c) :
    findIndex s ['T', ' ', 'Z', 'B', '+', '-'] = s.length := by
  have no : ∀ c ∈ ['T', ' ', 'Z', 'B', '+', '-'], rfind c s = none := fun c hc => rfind_none fun hm => h c hm hc
  have : ['T', ' ', 'Z', 'B', '+', '-'].findSome? (rfind · s) = none := by
    rw [List.findSome?_eq_none_iff]; exact no
  unfold findIndex
  rw [this]; rfl

theorem rfind_lt {c : Char} {s : Str} {i : ℕ} (h : rfind c s = some i) : i < s.length := by
  induction s generalizing i with
  | nil => cases h
  | cons x xs ih =>
    unfold rfind at h
    cases hr : rfind c xs with
    | some j =>
      rw [hr] at h
      simp only [Option.some.injEq] at h
      have := ih hr
      simp only [List.length_cons]; omega
    | none =>
      rw [hr] at h
      simp only at h
      split_ifs at h
      cases h
      simp

theorem rfind_some {c : Char} {s : Str} (h : c ∈ s) : ∃ i, rfind c s = some i := by
  induction s with
  | nil => cases h
  | cons x xs ih =>
    unfold rfind
    cases hr : rfind c xs with
    | some j => exact ⟨_, rfl⟩
    | none =>
      rcases List.mem_cons.1 h with rfl | hm
      · exact ⟨0, by simp⟩
      · obtain ⟨i, hi⟩ := ih hm; rw [hr] at hi; cases hi

theorem findIndex_lt {s : Str} (h : ∃ c ∈ s, endsDate c) : findIndex s ['T', ' ', 'Z', 'B', '+', '-'] < s.length := by
  obtain ⟨c, hc, he⟩ := h
  cases hf : ['T', ' ', 'Z', 'B', '+', '-'].findSome? (rfind · s) with
  | none =>
    rw [List.findSome?_eq_none_iff] at hf
    obtain ⟨i, hi⟩ := rfind_some hc
    rw [hf c he] at hi; cases hi
  | some i =>
    obtain ⟨a, -, ha⟩ := List.exists_of_findSome?_eq_some hf
    unfold findIndex
    rw [hf]
    exact rfind_lt ha

theorem refuses_other (fresh : ℕ) {s : Str} (h : s ≠ []) : Refuses (parseOther fresh s) := by
  cases s with
  | nil => exact absurd rfl h
  | cons c r =>
    unfold parseOther
    have zone : ∀ (t : Option (ℤ × ℤ × ℚ)) (u : Str), Refuses (if u = [] then do
          let z ← Except.ok none
          Except.ok (t, z)
        else do
          let z ← parseZone fresh u
          Except.ok (t, z)) := fun t u =>
      refuses_ite (fun _ => refuses_ok _) fun _ => refuses_bind (refuses_zone _ _) fun _ _ => refuses_ok _
    exact refuses_ite (fun _ => refuses_bind (refuses_zone _ _) fun _ _ => refuses_ok _) fun _ =>
      refuses_ite (fun _ => zone _ _) fun _ => refuses_bind (refuses_time _) fun _ _ => zone _ _

/-- The date that the text before the end of the date gives; no text, no date. -/
def readDate (C : Cal) (t : Str) : Py (Option (ℤ × ℤ × ℤ)) := if t = [] then .ok none else C.parseDate t

theorem parseAll_eq (C : Cal) (fresh : ℕ) (s : Str) : C.parseAll fresh s =
    (readDate C (s.take (findIndex s ['T', ' ', 'Z', 'B', '+', '-'])) >>= fun d =>
      parseOther fresh (s.drop (findIndex s ['T', ' ', 'Z', 'B', '+', '-'])) >>= fun p => .ok (d, p.1, p.2)) := by
  unfold Cal.parseAll readDate
  generalize findIndex s ['T', ' ', 'Z', 'B', '+', '-'] = i
  by_cases h : s.take i = []
  · simp only [if_pos h]
  · simp only [if_neg h]

theorem pyMod1_whole (n : ℤ) (h : 0 ≤ n) : pyMod1 (n : ℚ) = 0 := by
  lift n to ℕ using h
  exact_mod_cast pyMod1_nat n

/-- C90 for datetimes. Whatever the text is, `datetime.fromisoformat` returns a datetime on a day of the calendar with
fields in range, or raises ValueError or AssertionError, or raises IndexError, and this only if nothing ends the
date in the text, or raises TypeError. Missing from the full property: that every refusal is a ValueError, and that a date alone is read as that date, where it is false (below). -/
theorem C90_datetime_partial (A : Astro) (hE : TehranEvening A) (hO : NewYearOrder (Cal.init A)) (fresh : ℕ)
    (s : Str) :
    (∃ x n, (Cal.init A).dtFromIso fresh s = .ok x ∧ IsDay (Cal.init A) x.d n ∧ x.d.isShort = true ∧
      0 ≤ x.h ∧ x.h ≤ 24 ∧ 0 ≤ x.mi ∧ x.mi ≤ 59 ∧ 0 ≤ x.s ∧ x.s ≤ 60 ∧ x.fold = 0) ∨
    (Cal.init A).dtFromIso fresh s = .error .value ∨ (Cal.init A).dtFromIso fresh s = .error .assertion ∨
    ((Cal.init A).dtFromIso fresh s = .error .index ∧ ∀ c ∈ s, ¬ endsDate c) ∨
    (Cal.init A).dtFromIso fresh s = .error .type := by
  unfold Cal.dtFromIso
  rw [parseAll_eq]
  generalize hi : findIndex s ['T', ' ', 'Z', 'B', '+', '-'] = i
  have hd : Refuses (readDate (Cal.init A) (s.take i)) :=
    refuses_ite (fun _ => refuses_ok _) fun _ => (parseDate_any hE hO _).1
  cases hp : readDate (Cal.init A) (s.take i) with
  | error e =>
    rcases hd e hp with rfl | rfl
    · exact Or.inr (Or.inl rfl)
    · exact Or.inr (Or.inr (Or.inl rfl))
  | ok d =>
    simp only [pyOk_bind]
    by_cases hn : s.drop i = []
    · refine Or.inr (Or.inr (Or.inr (Or.inl ⟨by rw [hn]; rfl, fun c hc he => ?_⟩)))
      have := findIndex_lt ⟨c, hc, he⟩
      rw [hi] at this
      have := List.drop_eq_nil_iff.1 hn
      omega
    · have ho := refuses_other fresh hn
      cases hq : parseOther fresh (s.drop i) with
      | error e =>
        rcases ho e hq with rfl | rfl
        · exact Or.inr (Or.inl rfl)
        · exact Or.inr (Or.inr (Or.inl rfl))
      | ok tz =>
        obtain ⟨t, z⟩ := tz
        simp only [pyOk_bind]
        rcases d with _ | ⟨y, m, dd⟩
        · exact Or.inr (Or.inr (Or.inr (Or.inr rfl)))
        · simp only
          have hpd : (Cal.init A).parseDate (s.take i) = .ok (some (y, m, dd)) := by
            unfold readDate at hp
            split_ifs at hp
            · cases hp
            · exact hp
          obtain ⟨y0, y1, -, -⟩ := (parseDate_any hE hO _).2 _ _ _ hpd
          generalize t.getD (0, 0, 0) = q
          obtain ⟨h, mi, sec⟩ := q
          simp only
          unfold Cal.newDTFrac
          cases hc : createTime (h : ℚ) (mi : ℚ) sec 0 with
          | error e =>
            have : e = .value := by
              unfold createTime at hc
              split_ifs at hc <;> (injection hc with hc; exact hc.symm)
            subst this
            exact Or.inr (Or.inl rfl)
          | ok r =>
            obtain ⟨h', mi', s', us'⟩ := r
            simp only [pyOk_bind]
            rcases newDate_kinds (m := m) (d := dd) hE y0 y1 with ⟨n, hn⟩ | ⟨e1, -⟩
            · rw [newDate_ok hE (o := .short y m dd) hn, pyOk_bind]
              rcases checkArgs_cases h mi sec with ⟨e, a0, a1, b0, b1, c0, c1⟩ | e
              · rw [e, pyOk_bind]
                left
                have hh : (h : ℚ) = h' ∧ (mi : ℚ) = mi' ∧ ⌊s'⌋ = ⌊sec⌋ := by
                  unfold createTime at hc
                  rw [pyMod1_whole h a0, pyMod1_whole mi b0] at hc
                  simp only [ne_eq, not_true, false_and, if_false, and_false] at hc
                  split_ifs at hc <;> cases hc
                  · exact ⟨rfl, rfl, by simp⟩
                  · exact ⟨rfl, rfl, rfl⟩
                obtain ⟨rfl, rfl, hs⟩ := hh
                refine ⟨_, n, rfl, hn, rfl, by simpa using a0, by simpa using a1, by simpa using b0, by simpa using b1,
                  ?_, ?_, rfl⟩
                · simp only [hs]; exact Int.floor_nonneg.2 c0
                · simp only [hs]
                  have : ⌊sec⌋ < 61 := Int.floor_lt.2 (by exact_mod_cast c1)
                  omega
              · rw [e]; exact Or.inr (Or.inr (Or.inl rfl))
            · rw [e1]; exact Or.inr (Or.inr (Or.inl rfl))

example : TehranEvening newYearSun ∧ NewYearOrder (Cal.init newYearSun) := ⟨newYearSun_tehran, newYearSun_order⟩

theorem parseZone_hours (fresh : ℕ) {h : ℕ} (h0 : 1 ≤ h) (h1 : h ≤ 23) :
    parseZone fresh ('-' :: digitsW 2 h) = .ok (some ⟨fresh, -(h * 3600000000), none⟩) := by
  have a : ('-' :: digitsW 2 h).any (fun c => !isDig c && c ≠ 'Z' && c ≠ 'B' && c ≠ '+' && c ≠ '-' && c ≠ ':') =
      false := by
    have hp : ∀ c, isDig c = true →
        (!isDig c && c ≠ 'Z' && c ≠ 'B' && c ≠ '+' && c ≠ '-' && c ≠ ':') = false := by
      intro c hc; simp [hc]
    simp only [List.any_cons, any_digits _ _ _ hp]
    decide
  have c1 : ('-' :: digitsW 2 h).count '-' = 1 := by simp [count_digits _ _ '-' rfl]
  have c2 : ('-' :: digitsW 2 h).count '+' = 0 := by simp [count_digits _ _ '+' rfl]
  have c3 : ('-' :: digitsW 2 h).count 'Z' = 0 := by simp [count_digits _ _ 'Z' rfl]
  have c4 : ('-' :: digitsW 2 h).count 'B' = 0 := by simp [count_digits _ _ 'B' rfl]
  have c5 : ('-' :: digitsW 2 h).count ':' = 0 := by simp [count_digits _ _ ':' rfl]
  have d1 : ('-' :: digitsW 2 h).drop 1 = digitsW 2 h := rfl
  have d2 : ('-' :: digitsW 2 h).take 1 = ['-'] := rfl
  have d3 : '-' :: digitsW 2 h ≠ [] := by simp
  unfold parseZone
  generalize '-' :: digitsW 2 h = t at *
  rw [a, if_neg Bool.false_ne_true]
  simp only [c1, c2, c3, c4, c5, d1, d2]
  rw [pyAssert_true (by norm_num), pyOk_bind, if_neg (by simp), pyAssert_true (by norm_num), pyOk_bind, if_neg d3,
    if_neg (by norm_num), if_neg (by norm_num), splitAt_only]
  simp only [offsetParts]
  rw [intOf_digits (by norm_num) (show h < 10 ^ 2 by omega), pyOk_bind, pyOk_bind]
  simp only
  unfold newZone
  rw [if_neg (by simp; omega), if_pos (by simp; omega)]
  simp only [Except.map]
  congr 3
  simp
  ring

/-- C90 is false: the text of a date alone, which `date.isoformat` writes, is read by `datetime.fromisoformat` as the
first day of the month in the zone that is as many hours behind UTC as the day of the month, for every date from year 0
on. -/
theorem C90_date_alone_negation (A : Astro) (hE : TehranEvening A) (fresh : ℕ) (y m d : ℕ) (n : ℤ)
    (hd : DayNumber (Cal.init A) y m d n) :
    (∀ o, IsDay (Cal.init A) o n → (Cal.init A).dateIso o = .ok (extDate y m d)) ∧
    (Cal.init A).dtFromIso fresh (extDate y m d) =
      .ok ⟨.short y m 1, 0, 0, 0, 0, some ⟨fresh, -(d * 3600000000)⟩, 0⟩ := by
  obtain ⟨-, hy, hv, -⟩ := (dayNumber_iff hE).mp hd
  obtain ⟨-, m1, d0, d1⟩ := md_range hE hd
  constructor
  · intro o ho
    obtain ⟨y', m', d', hd', e⟩ := dateShort_ok hE ho
    obtain ⟨rfl, rfl, rfl⟩ := dayNumber_unique hE hd hd'
    unfold Cal.dateIso
    rw [e, pyOk_bind]
    simp only
    rw [formatDate_pos (by omega) (by omega) (by omega)]
  have e : extDate y m d = (digitsW 4 y ++ '-' :: digitsW 2 m) ++ '-' :: digitsW 2 d := by simp [extDate]
  have l : (digitsW 4 y ++ '-' :: digitsW 2 m).length = 7 := by simp [digitsW_length]
  have hf : findIndex (extDate y m d) ['T', ' ', 'Z', 'B', '+', '-'] = 7 := by
    have no : ∀ c, isDig c = false → c ≠ '-' → rfind c (extDate y m d) = none := fun c h1 h2 =>
      rfind_none (extDate_not_mem y m d c h1 h2)
    unfold findIndex
    simp only [List.findSome?_cons, no 'T' rfl (by decide), no ' ' rfl (by decide), no 'Z' rfl (by decide),
      no 'B' rfl (by decide), no '+' rfl (by decide)]
    rw [e, rfind_last (digitsW_not_mem _ _ _ rfl), l]
    rfl
  have t1 : (extDate y m d).take 7 = digitsW 4 y ++ '-' :: digitsW 2 m := rfl
  have t2 : (extDate y m d).drop 7 = '-' :: digitsW 2 d := rfl
  have hp : (Cal.init A).parseDate (digitsW 4 y ++ '-' :: digitsW 2 m) = .ok (some ((y : ℤ), (m : ℤ), 1)) := by
    rw [parseDate_year _ (by omega) _ (fun c hc => by
      rcases List.mem_cons.1 hc with rfl | h
      · exact Or.inr (Or.inl rfl)
      · exact dateChars_digits _ _ c h)]
    have c1 : (digitsW 4 y ++ '-' :: digitsW 2 m).count '-' = 1 := by
      simp [List.count_append, count_digits _ _ '-' rfl]
    have c2 : (digitsW 4 y ++ '-' :: digitsW 2 m).count 'W' = 0 := by
      simp [List.count_append, count_digits _ _ 'W' rfl]
    have s1 : slice (digitsW 4 y ++ '-' :: digitsW 2 m) 5 7 = digitsW 2 m := rfl
    unfold Cal.parseDateTail
    simp only [c1, c2, l, s1]
    rw [pyAssert_true (by norm_num), pyOk_bind]
    simp only [intOf_digits (w := 2) (by norm_num) (show m < 10 ^ 2 by omega), pyOk_bind]
    norm_num
  have hd1 : DayNumber (Cal.init A) y m 1 (ysInt y + dBefore (leapOf y) m + 1 - 1) := by
    refine (dayNumber_iff hE).mpr ⟨by omega, by omega, ?_, rfl⟩
    rcases hv with h | ⟨h0, h1, h2⟩
    · exact Or.inl (by omega)
    · exact Or.inr ⟨h0, by omega, by split_ifs <;> omega⟩
  unfold Cal.dtFromIso
  rw [parseAll_eq, hf, t1, t2]
  have hr : readDate (Cal.init A) (digitsW 4 y ++ '-' :: digitsW 2 m) = .ok (some ((y : ℤ), (m : ℤ), 1)) := by
    unfold readDate
    rw [if_neg (by simp), hp]
  have ho : parseOther fresh ('-' :: digitsW 2 d) = .ok (none, some ⟨fresh, -(d * 3600000000), none⟩) := by
    unfold parseOther
    simp only
    rw [if_pos (by simp), parseZone_hours fresh (by omega) (by omega)]
    rfl
  rw [hr, pyOk_bind, ho, pyOk_bind, pyOk_bind]
  simp only
  unfold Cal.newDTFrac
  have hc : createTime (0 : ℤ) (0 : ℤ) 0 0 = .ok (0, 0, 0, 0) := by decide +kernel
  have hk : checkTimeArgs (0 : ℤ) (0 : ℤ) 0 0 = .ok () := by decide +kernel
  simp only [Option.getD_none]
  rw [hc, pyOk_bind]
  simp only
  rw [newDate_ok hE (o := .short y m 1) hd1, pyOk_bind, hk, pyOk_bind]
  simp [Zone.tz]

example : (Cal.init newYearSun).dtFromIso 7 "0181-09-06".toList =
    .ok ⟨.short 181 9 1, 0, 0, 0, 0, some ⟨7, -21600000000⟩, 0⟩ := by
  obtain ⟨n, hn⟩ := dayNumber_181
  exact (C90_date_alone_negation _ newYearSun_tehran 7 181 9 6 n hn).2

/-- C90 is false: a text of digits alone, such as the basic forms `YYYYMMDD` and `YYYYDDD` of a date, makes
`datetime.fromisoformat` raise IndexError whenever the date can be read. -/
theorem C90_index_negation (C : Cal) (fresh : ℕ) (s : Str) (p : Option (ℤ × ℤ × ℤ)) (hs : ∀ c ∈ s, isDig c = true)
    (hp : C.parseDate s = .ok p) : C.dtFromIso fresh s = .error .index := by
  have hf := findIndex_none (s := s) fun c hc he => by
    have := hs c hc
    unfold endsDate at he
    simp only [List.mem_cons, List.not_mem_nil, or_false] at he
    rcases he with rfl | rfl | rfl | rfl | rfl | rfl <;> exact absurd this (by decide)
  unfold Cal.dtFromIso
  rw [parseAll_eq, hf, List.take_length, List.drop_length]
  have : ∃ q, readDate C s = .ok q := by
    unfold readDate
    split_ifs
    · exact ⟨_, rfl⟩
    · exact ⟨_, hp⟩
  obtain ⟨q, hq⟩ := this
  rw [hq]
  rfl

example : (∀ c ∈ "01810906".toList, isDig c = true) ∧
    (Cal.init newYearSun).parseDate "01810906".toList = .ok (some (181, 9, 6)) := by
  refine ⟨by decide, ?_⟩
  rfl

/-- C90 is false: the same impossible month, day, hour or minute is refused with ValueError in a time and with
AssertionError in a date or a datetime. -/
theorem C90_kind_negation (A : Astro) (hE : TehranEvening A) (fresh : ℕ) (y m d h mi : ℕ) (sep : Char)
    (hsep : sep = 'T' ∨ sep = ' ') (hy : y ≤ 1161) (hm : m < 100) (hd : d < 100) (hh : h < 100) (hmi : mi < 100) :
    ((¬ ∃ n, DayNumber (Cal.init A) y m d n) → (Cal.init A).dateFromIso (extDate y m d) true = .error .assertion) ∧
    ((¬ ∃ n, DayNumber (Cal.init A) y m d n) ∨ 24 < h ∨ 59 < mi →
      (Cal.init A).dtFromIso fresh (extDate y m d ++ sep :: clockText h mi 0 0) = .error .assertion) ∧
    (24 < h ∨ 59 < mi → timeFromIso ('T' :: clockText h mi 0 0) = .error .value) := by
  have f0 : fl (((0 * 1000000 + 0 : ℕ) : ℚ) / 10 ^ 6) = 0 := by
    have := fl_sec (s := 0) (by norm_num)
    simpa using this
  have hbad : 24 < h ∨ 59 < mi → checkTimeArgs ((h : ℤ) : ℚ) ((mi : ℤ) : ℚ) 0 0 = .error .assertion := by
    intro hb
    rcases checkArgs_cases h mi 0 with ⟨-, -, a, -, b, -⟩ | e
    · omega
    · exact e
  refine ⟨(C19_calendar_partial A hE y m d hy hm hd).2.1, fun hb => ?_, fun hb => ?_⟩
  · unfold Cal.dtFromIso
    have e : extDate y m d ++ sep :: clockText h mi 0 0 = extDate y m d ++ sep :: clockText h mi 0 0 ++ [] := by simp
    rw [e, parseAll_text _ fresh hsep (by simp [extDate]) (extDate_not_mem y m d 'T' rfl (by decide)) (Or.inl rfl) hh hmi
      (by norm_num) (by norm_num), parseDate_pos _ hy hm hd, pyOk_bind]
    simp only [readZone, if_true, pyOk_bind, Option.getD_some, f0]
    unfold Cal.newDTFrac
    have hc : createTime ((h : ℤ) : ℚ) ((mi : ℤ) : ℚ) 0 0 = .ok (((h : ℤ) : ℚ), ((mi : ℤ) : ℚ), 0, 0) := by
      unfold createTime
      rw [pyMod1_whole h (by omega), pyMod1_whole mi (by omega)]
      have : pyMod1 0 = 0 := by decide +kernel
      rw [this]
      simp
    rw [hc, pyOk_bind]
    simp only
    rcases newDate_kinds (m := m) (d := d) hE (y := y) (by omega) (by omega) with ⟨n, hn⟩ | ⟨e1, -⟩
    · rw [newDate_ok hE (o := .short y m d) hn, pyOk_bind, hbad (hb.resolve_left (fun h => h ⟨n, hn⟩))]
      rfl
    · rw [e1]; rfl
  · unfold timeFromIso
    rw [parseTime_clock (Or.inl rfl) hh hmi (by norm_num) (by norm_num)]
    simp only [Option.getD_some, f0, hbad hb]

example : (Cal.init newYearSun).dtFromIso 7 "0181-09-06T25:00:00".toList = .error .assertion ∧
    timeFromIso "T25:00:00".toList = .error .value :=
  have h := C90_kind_negation newYearSun newYearSun_tehran 7 181 9 6 25 0 'T' (Or.inl rfl) (by norm_num) (by norm_num)
    (by norm_num) (by norm_num) (by norm_num)
  ⟨h.2.1 (Or.inr (Or.inl (by norm_num))), h.2.2 (Or.inl (by norm_num))⟩

/-- C90 is false: the text of a time alone makes `datetime.fromisoformat` raise TypeError. -/
theorem C90_type_negation (C : Cal) (fresh : ℕ) (h mi s us : ℕ) (sep : Char) (hsep : sep = 'T' ∨ sep = ' ')
    (hh : h < 100) (hmi : mi < 100) (hs : s < 100) (hu : us < 1000000) :
    C.dtFromIso fresh (sep :: clockText h mi s us) = .error .type := by
  have nc : ∀ x ∈ ['T', ' ', 'Z', 'B', '+', '-'], x ∉ clockText h mi s us := by
    intro x hx
    have hd : isDig x = false ∧ x ≠ ':' ∧ x ≠ '.' := by
      simp only [List.mem_cons, List.not_mem_nil, or_false] at hx
      rcases hx with rfl | rfl | rfl | rfl | rfl | rfl <;> decide
    exact clock_not_mem _ _ _ _ x hd.1 hd.2.1 hd.2.2
  have hf := findIndex_sep (D := []) (R := clockText h mi s us) hsep (by simp) (nc _ (by simp)) (nc _ (by simp))
  simp only [List.nil_append, List.length_nil] at hf
  have hg := findIndex_off (T := sep :: clockText h mi s us) (o := []) (fun x hx hm => by
    rcases List.mem_cons.1 hm with rfl | hm
    · rcases hsep with rfl | rfl <;> exact absurd hx (by decide)
    · refine nc x ?_ hm
      simp only [List.mem_cons, List.not_mem_nil, or_false] at hx ⊢
      tauto) (Or.inl rfl)
  rw [List.append_nil] at hg
  have ho : parseOther fresh (sep :: clockText h mi s us) =
      .ok (some ((h : ℤ), (mi : ℤ), fl (((s * 1000000 + us : ℕ) : ℚ) / 10 ^ 6)), none) := by
    unfold parseOther
    simp only
    rw [if_neg (by rcases hsep with rfl | rfl <;> decide), hg, List.take_length, List.drop_length,
      if_neg (by simp), parseTime_clock hsep hh hmi hs hu]
    rfl
  unfold Cal.dtFromIso
  rw [parseAll_eq, hf, List.take_zero, List.drop_zero, ho]
  rfl

example : (Cal.init newYearSun).dtFromIso 7 "T10:11:12".toList = .error .type :=
  C90_type_negation _ 7 10 11 12 0 'T' (Or.inl rfl) (by norm_num) (by norm_num) (by norm_num) (by norm_num)

end Verif
