import Verif.Props.Composite
import Verif.Props.IsoWeek
import Verif.Props.Forms

/-!
# C72: the directives of the year, the cycles and the ISO week

Texts are read with `intOf`, the `int()` of Python. `DateObj.fullYear` is the year since the start of the era of a date in
either form.
-/

namespace Verif

/-- The text of one directive for a datetime. -/
theorem directive_text {A : Astro} (hE : TehranEvening A) (hO : NewYearOrder (Cal.init A)) (L : Locale) {x : DT} {n : ℤ}
    (z : Option TzInfo) (hx : IsDT (Cal.init A) x n) (hc : x.d.isShort = true ∨ OrdinaryClock x) (hy : -1842 ≤ x.d.fullYear) :
    ∃ w yd, w = (n + 1) % 7 ∧ (∀ c ∈ "aAbBcCdDeGhHIjkKlmMnprSTuUVWxXyYzZ".toList,
      (Cal.init A).datetimeStrftime L x z ['%', c] = (Cal.init A).allDirectives L (structOf x z w yd) c none) ∧
      ∀ c ∈ "KVz".toList,
        (Cal.init A).datetimeStrftime L x z ['%', ':', c] = (Cal.init A).allDirectives L (structOf x z w yd) c (some ':') := by
  have hy : YearShown x.d := by
    cases hd : x.d with
    | long k v y m d => trivial
    | short y m d => rw [hd] at hy; exact hy
  obtain ⟨w, yd, -, hw, e1, e2⟩ := dtTimetuple_ok hE hO hx hc hy z
  refine ⟨w, yd, hw, ?_, ?_⟩
  · intro c hc
    obtain ⟨hf, hm⟩ := (show ∀ c ∈ "aAbBcCdDeGhHIjkKlmMnprSTuUVWxXyYzZ".toList,
      c ≠ 'f' ∧ c ∈ "aAbBcCdDefGhHIjkKlmMnprSTuUVWxXyYzZ".toList by decide) c hc
    unfold Cal.datetimeStrftime
    rw [e1, pyOk_bind, wrap_one _ hf, one_toks _ L _ hm, e2, pyOk_bind]
  · intro c hc
    unfold Cal.datetimeStrftime
    have hw : wrapFormat (padInt 6 x.us) ['%', ':', c] = ['%', ':', c] := by
      have : c ≠ '%' := by rintro rfl; revert hc; decide
      simp [wrapFormat]
    rw [e1, pyOk_bind, hw]
    have := strftimeStruct_toks (Cal.init A) L (structOf x z w yd) (ts := [.dir c (some ':')]) (by simp)
      (by simpa [Tok.Documented] using hc) (by simp) (by
      intro a b ha hb; simp at ha; subst ha; simp [Tok.isLit])
    rw [show tokText [.dir c (some ':')] = ['%', ':', c] by simp [tokText, Tok.text]] at this
    rw [this, e2, pyOk_bind]
    simp only [tokValues, Tok.value]
    cases (Cal.init A).allDirectives L (structOf x z w yd) c (some ':') with
    | error e => rfl
    | ok s => simp [bind, Except.bind]

theorem fullYear_day {A : Astro} (hE : TehranEvening A) {d : DateObj} {n : ℤ} (hd : IsDay (Cal.init A) d n) :
    ∃ y m dd, d.fullYear = y ∧ DayNumber (Cal.init A) y m dd n ∧ (Cal.init A).dateShort d = .ok (y, m, dd) ∧
      -1843 ≤ y ∧ y ≤ 1161 ∧ ∀ h mi s w yd, (tupOf d h mi s w yd).fullYear = y ∧ (tupOf d h mi s w yd).mon = m ∧
        (tupOf d h mi s w yd).mday = dd := by
  obtain ⟨y, m, dd, hn, e1⟩ := dateShort_ok hE hd
  obtain ⟨y0, y1, -, -⟩ := (dayNumber_iff hE).mp hn
  have e : d.fullYear = y ∧ ∀ h mi s w yd, (tupOf d h mi s w yd).mon = m ∧ (tupOf d h mi s w yd).mday = dd := by
    have hu : ∀ h mi s w yd, (tupOf d h mi s w yd).fullYear = y ∧ (tupOf d h mi s w yd).mon = m ∧
        (tupOf d h mi s w yd).mday = dd := by
      intro h mi s w yd
      obtain ⟨y', m', d', hn', f1, f2, f3⟩ := fullYear_ok (h := h) (mi := mi) (s := s) (w := w) (yd := yd) hd
      obtain ⟨g1, g2, g3⟩ := dayNumber_unique hE hn hn'
      exact ⟨f1.trans g1.symm, f2.trans g2.symm, f3.trans g3.symm⟩
    exact ⟨by rw [← tupOf_fullYear d 0 0 0 0 0]; exact (hu 0 0 0 0 0).1, fun h mi s w yd => (hu h mi s w yd).2⟩
  exact ⟨y, m, dd, e.1, hn, e1, y0, y1, fun h mi s w yd => ⟨by rw [tupOf_fullYear]; exact e.1, e.2 h mi s w yd⟩⟩

theorem century_text {y : ℤ} (h0 : -1843 ≤ y) (h1 : y ≤ 1161) :
    intOf ((if y < 0 then ['-'] else []) ++ padNat 2 ⌊fl ((y : ℚ) / 100)⌋.natAbs) = .ok (y / 100) := by
  rw [(century_eq h0 h1).2]
  split_ifs with h
  · have hp := (padInt_text 3 (y / 100)).2.2
    unfold padInt at hp
    rw [if_pos (by omega)] at hp
    exact hp
  · have hp := (padInt_text 2 (y / 100)).2.2
    unfold padInt at hp
    rw [if_neg (by omega)] at hp
    rw [List.nil_append, show (y / 100).natAbs = (y / 100).toNat by omega]
    exact hp

/-- The texts of `%C` and `%y`. -/
theorem century_texts {A : Astro} (hE : TehranEvening A) (hO : NewYearOrder (Cal.init A)) (L : Locale) {x : DT} {n : ℤ}
    (z : Option TzInfo) (hx : IsDT (Cal.init A) x n) (hc : x.d.isShort = true ∨ OrdinaryClock x) (hy : -1842 ≤ x.d.fullYear) :
    (∃ a, (Cal.init A).datetimeStrftime L x z "%C".toList = .ok a ∧ intOf a = .ok (x.d.fullYear / 100) ∧
      a = (if x.d.fullYear < 0 then ['-'] else []) ++ padNat 2 (x.d.fullYear / 100).natAbs) ∧
    (Cal.init A).datetimeStrftime L x z "%y".toList =
      .ok (padInt 2 (x.d.fullYear - Int.tdiv x.d.fullYear 100 * 100)) := by
  obtain ⟨w, yd, -, ht, -⟩ := directive_text hE hO L z hx hc hy
  obtain ⟨y, m, dd, ey, -, -, y0, y1, hu⟩ := fullYear_day hE hx.day
  have hf : (structOf x z w yd).tup.fullYear = y := (hu _ _ _ _ _).1
  rw [ey]
  constructor
  · refine ⟨_, ?_, century_text y0 y1, by rw [(century_eq y0 y1).2]⟩
    rw [show "%C".toList = ['%', 'C'] by decide, ht _ (by decide)]
    simp [Cal.allDirectives, Cal.directives, Cal.directive, hf]
  · rw [show "%y".toList = ['%', 'y'] by decide, ht _ (by decide), ← (century_eq y0 y1).1]
    simp [Cal.allDirectives, Cal.directives, Cal.directive, hf]

/-- C72: for a year of the era that is not negative, `%C` and `%y` are two texts of two digits, the hundreds and the rest of
the year. Missing from the full property: the negative years, where it is false (below). -/
theorem C72_century_partial (A : Astro) (hE : TehranEvening A) (hO : NewYearOrder (Cal.init A)) (L : Locale) (x : DT) (n : ℤ)
    (z : Option TzInfo) (hx : IsDT (Cal.init A) x n) (hc : x.d.isShort = true ∨ OrdinaryClock x) (hy : 0 ≤ x.d.fullYear) :
    ∃ a b c d, (Cal.init A).datetimeStrftime L x z "%C".toList = .ok a ∧ (Cal.init A).datetimeStrftime L x z "%y".toList = .ok b ∧
      a.length = 2 ∧ b.length = 2 ∧ intOf a = .ok c ∧ intOf b = .ok d ∧ x.d.fullYear = 100 * c + d ∧ 0 ≤ d ∧ d < 100 := by
  obtain ⟨⟨a, e1, e2, e3⟩, e4⟩ := century_texts hE hO L z hx hc (by omega)
  obtain ⟨y, m, dd, ey, -, -, y0, y1, -⟩ := fullYear_day hE hx.day
  rw [ey] at hy e2 e3 e4 ⊢
  rw [Int.tdiv_eq_ediv_of_nonneg hy] at e4
  refine ⟨a, _, _, _, e1, e4, ?_, padInt_two (by omega) (by omega), e2, (padInt_text _ _).2.2, by omega, by omega, by omega⟩
  rw [e3, if_neg (by omega), List.nil_append, show (y / 100).natAbs = (y / 100).toNat by omega]
  have := padInt_two (n := y / 100) (by omega) (by omega)
  unfold padInt at this
  rwa [if_neg (by omega)] at this

example : IsDT (Cal.init newYearSun) (witnessLong none) 739676 ∧ OrdinaryClock (witnessLong none) ∧
    0 ≤ (witnessLong none).d.fullYear :=
  ⟨witnessLong_is none, ⟨by decide, by decide⟩, by decide⟩

/-- C72 is false for the negative years: the two numbers give the year only for a multiple of 100, and for the other years
give the year less 100. -/
theorem C72_century_negation (A : Astro) (hE : TehranEvening A) (hO : NewYearOrder (Cal.init A)) (L : Locale) (x : DT) (n : ℤ)
    (z : Option TzInfo) (hx : IsDT (Cal.init A) x n) (hc : x.d.isShort = true ∨ OrdinaryClock x)
    (hy : -1842 ≤ x.d.fullYear ∧ x.d.fullYear < 0) (hm : x.d.fullYear % 100 ≠ 0) :
    ∃ a b c d, (Cal.init A).datetimeStrftime L x z "%C".toList = .ok a ∧ (Cal.init A).datetimeStrftime L x z "%y".toList = .ok b ∧
      intOf a = .ok c ∧ intOf b = .ok d ∧ 100 * c + d = x.d.fullYear - 100 := by
  obtain ⟨⟨a, e1, e2, e3⟩, e4⟩ := century_texts hE hO L z hx hc hy.1
  refine ⟨a, _, _, _, e1, e4, e2, (padInt_text _ _).2.2, ?_⟩
  have e5 : Int.tdiv x.d.fullYear 100 = -(Int.tdiv (-x.d.fullYear) 100) := by rw [Int.neg_tdiv, neg_neg]
  rw [e5, Int.tdiv_eq_ediv_of_nonneg (by omega)]
  omega

/-- Year -150. -/
theorem negative_year : IsDT (Cal.init newYearSun) ⟨.short (-150) 1 1, 7, 30, 0, 0, none, 0⟩ 618069 := by
  have key : ysInt (-150) = 618069 ∧ leapOf (-150) = false := by decide +kernel
  refine ⟨(dayNumber_iff newYearSun_tehran).mpr ⟨by omega, by omega, Or.inl ⟨by omega, by omega, by omega, by omega⟩, ?_⟩, by
    constructor <;> decide⟩
  rw [key.1, key.2]; decide

example : IsDT (Cal.init newYearSun) ⟨.short (-150) 1 1, 7, 30, 0, 0, none, 0⟩ 618069 ∧ (-150 : ℤ) % 100 ≠ 0 :=
  ⟨negative_year, by decide⟩

/-! ## The cycles -/

theorem cycles_text {A : Astro} (hE : TehranEvening A) (hO : NewYearOrder (Cal.init A)) (L : Locale) {x : DT} {n : ℤ}
    (z : Option TzInfo) (hx : IsDT (Cal.init A) x n) (hc : x.d.isShort = true ∨ OrdinaryClock x) (hy : -1842 ≤ x.d.fullYear) :
    ∃ k v u, DenotesYear k v u x.d.fullYear ∧
      (Cal.init A).datetimeStrftime L x z "%:K".toList = .ok ((if k < 0 then ['-'] else []) ++ padInt 1 k) ∧
      (Cal.init A).datetimeStrftime L x z "%:V".toList = .ok (padInt 2 v) := by
  obtain ⟨w, yd, -, -, ht⟩ := directive_text hE hO L z hx hc hy
  have t1 := ht 'K' (by decide)
  have t2 := ht 'V' (by decide)
  rw [show "%:K".toList = ['%', ':', 'K'] by decide, show "%:V".toList = ['%', ':', 'V'] by decide, t1, t2]
  have hday := hx.day
  cases hd : x.d with
  | short y m d =>
    rw [hd] at hday hy
    have hday : DayNumber (Cal.init A) y m d n := hday
    obtain ⟨y0, y1, hv, -⟩ := (dayNumber_iff hE).mp hday
    obtain ⟨c, hcy, c1, c2, c3, c4⟩ := cycleOf_valid (init_isLeap hE y0 y1) hv
    obtain ⟨r1, -, -⟩ := kvy_range y (by omega) (by omega)
    refine ⟨(kvyFromYear y).1, (kvyFromYear y).2.1, (kvyFromYear y).2.2, r1, ?_, ?_⟩
    · have ek : (kvyFromYear y).1 = if y = 0 then 0 else ⌈fl ((y : ℚ) / 361)⌉ := by
        unfold kvyFromYear; simp only; split_ifs <;> rfl
      rw [ek]
      simp only [structOf, hd, Cal.allDirectives, Cal.directives, Cal.directive]
      rfl
    · have hl := longFromShort_ok (Cal.init A) ⟨y, m, d, []⟩ false (by simp; omega) (by simp; omega)
      rw [checkTail_day c3 c4 hcy c1 c2, pyOk_bind] at hl
      simp only [structOf, hd, Cal.allDirectives, Cal.directives, Cal.directive]
      change ((Cal.init A).longFromShort ⟨y, m, d, []⟩ false >>= fun b => Except.ok (padInt 2 b.v)) = _
      rw [hl, pyOk_bind]
  | long k v u m d =>
    rw [hd] at hday
    obtain ⟨y2, hden, -⟩ := hday
    refine ⟨k, v, u, ⟨hden.1, hden.2.1, hden.2.2.1, hden.2.2.2.1, ?_⟩, ?_, ?_⟩
    · rfl
    · simp only [structOf, hd, Cal.allDirectives, Cal.directives, Cal.directive]
      rfl
    · simp only [structOf, hd, Cal.allDirectives, Cal.directives, Cal.directive]
      rfl

/-- C72: from year -360 on, `%:K` and `%:V` give the Kull-i-Shay and the Váḥid of the year, for both forms of the date.
Missing from the full property: the years before, where it is false for `%:K` (below). -/
theorem C72_cycles_partial (A : Astro) (hE : TehranEvening A) (hO : NewYearOrder (Cal.init A)) (L : Locale) (x : DT) (n : ℤ)
    (z : Option TzInfo) (hx : IsDT (Cal.init A) x n) (hc : x.d.isShort = true ∨ OrdinaryClock x) (hy : -360 ≤ x.d.fullYear) :
    ∃ a b k v u, (Cal.init A).datetimeStrftime L x z "%:K".toList = .ok a ∧
      (Cal.init A).datetimeStrftime L x z "%:V".toList = .ok b ∧ intOf a = .ok k ∧ intOf b = .ok v ∧ b.length = 2 ∧
      DenotesYear k v u x.d.fullYear := by
  obtain ⟨k, v, u, hden, e1, e2⟩ := cycles_text hE hO L z hx hc (by omega)
  have hden' := hden
  obtain ⟨v0, v1, u0, u1, e⟩ := hden'
  rw [if_neg (by omega), List.nil_append] at e1
  exact ⟨_, _, k, v, u, e1, e2, (padInt_text _ _).2.2, (padInt_text _ _).2.2, padInt_two (by omega) (by omega), hden⟩

example : IsDT (Cal.init newYearSun) ⟨.short (-150) 1 1, 7, 30, 0, 0, none, 0⟩ 618069 ∧ (-360 : ℤ) ≤ -150 :=
  ⟨negative_year, by decide⟩

/-- C72 is false for `%:K` before year -360: the text begins with two minus signs and is not a number. -/
theorem C72_cycles_negation (A : Astro) (hE : TehranEvening A) (hO : NewYearOrder (Cal.init A)) (L : Locale) (x : DT) (n : ℤ)
    (z : Option TzInfo) (hx : IsDT (Cal.init A) x n) (hc : x.d.isShort = true ∨ OrdinaryClock x)
    (hy : -1842 ≤ x.d.fullYear ∧ x.d.fullYear < -360) :
    ∃ r, (Cal.init A).datetimeStrftime L x z "%:K".toList = .ok ('-' :: '-' :: r) ∧ intOf ('-' :: '-' :: r) = .error .value := by
  obtain ⟨k, v, u, hden, e1, e2⟩ := cycles_text hE hO L z hx hc hy.1
  obtain ⟨v0, v1, u0, u1, e⟩ := hden
  have hk : k < 0 := by omega
  refine ⟨padNat (1 - 1) k.natAbs, ?_, ?_⟩
  · rw [e1, if_pos hk]
    unfold padInt
    rw [if_pos hk]
    rfl
  · unfold intOf
    rw [strip_nospace (by
      rw [List.mem_cons, List.mem_cons, not_or, not_or]
      exact ⟨by decide, by decide, digitsW_not_mem _ _ _ rfl⟩)]
    rfl

/-- Year -400. -/
example : ∃ n, IsDT (Cal.init newYearSun) ⟨.short (-400) 1 1, 7, 30, 0, 0, none, 0⟩ n := by
  refine ⟨ysInt (-400), (dayNumber_iff newYearSun_tehran).mpr ⟨by omega, by omega, Or.inl ⟨by omega, by omega, by omega, by omega⟩, ?_⟩, by
    constructor <;> decide⟩
  simp [dBefore]

/-! ## The ISO week -/

theorem iso_texts {A : Astro} (hE : TehranEvening A) (hO : NewYearOrder (Cal.init A)) (L : Locale) {x : DT} {n : ℤ}
    (z : Option TzInfo) (hx : IsDT (Cal.init A) x n) (hc : x.d.isShort = true ∨ OrdinaryClock x) (hy : -1842 ≤ x.d.fullYear) :
    ∃ Y W D, (Cal.init A).isoCalendar x.d = .ok (Y, W, D) ∧ 1 ≤ W ∧ W ≤ 53 ∧ 1 ≤ D ∧ D ≤ 7 ∧
      (Cal.init A).datetimeStrftime L x z "%V".toList = .ok (padInt 2 W) ∧
      (Cal.init A).datetimeStrftime L x z "%u".toList = .ok (padInt 1 D) ∧
      (Cal.init A).datetimeStrftime L x z "%G".toList = .ok (signedYear x.d.fullYear) := by
  obtain ⟨w, yd, hw, ht, -⟩ := directive_text hE hO L z hx hc hy
  obtain ⟨y, m, dd, ey, hn, e1, y0, y1, hu⟩ := fullYear_day hE hx.day
  obtain ⟨h1, h2, h3⟩ := hu x.h x.mi x.s w yd
  rw [ey] at hy ⊢
  obtain ⟨Y, hY, a0, a1, a2, a3, a4⟩ := yearWeekDay_ok hE hO hn hy
  have w7 : week1 Y % 7 = 6 := by unfold week1; omega
  refine ⟨Y, (n - week1 Y) / 7 + 1, (n - week1 Y) % 7 + 1, ?_, by omega, by omega, by omega, by omega, ?_, ?_, ?_⟩
  · unfold Cal.isoCalendar
    rw [e1, pyOk_bind]
    exact hY
  · rw [show "%V".toList = ['%', 'V'] by decide, ht _ (by decide)]
    change ((Cal.init A).yearWeekDay (tupOf x.d x.h x.mi x.s w yd).fullYear (tupOf x.d x.h x.mi x.s w yd).mon
      (tupOf x.d x.h x.mi x.s w yd).mday >>= fun w => Except.ok (padInt 2 w.2.1)) = _
    rw [h1, h2, h3, hY, pyOk_bind]
  · rw [show "%u".toList = ['%', 'u'] by decide, ht _ (by decide), show (n - week1 Y) % 7 + 1 = w + 1 by omega]
    have : (structOf x z w yd).tup.wday = w := by
      unfold structOf; cases x.d <;> rfl
    simp [Cal.allDirectives, Cal.directives, Cal.directive, this]
  · rw [show "%G".toList = ['%', 'G'] by decide, ht _ (by decide)]
    have : (structOf x z w yd).tup.fullYear = y := h1
    simp [Cal.allDirectives, Cal.directives, Cal.directive, this]

/-- C72: `%V` and `%u` give the week and the weekday of `isocalendar`, and `%G` gives its year when that is the year of the
date. Missing from the full property: `%G` of the other dates, where it is false (below). -/
theorem C72_iso_partial (A : Astro) (hE : TehranEvening A) (hO : NewYearOrder (Cal.init A)) (L : Locale) (x : DT) (n : ℤ)
    (z : Option TzInfo) (hx : IsDT (Cal.init A) x n) (hc : x.d.isShort = true ∨ OrdinaryClock x) (hy : -1842 ≤ x.d.fullYear) :
    ∃ Y W D a b g, (Cal.init A).isoCalendar x.d = .ok (Y, W, D) ∧
      (Cal.init A).datetimeStrftime L x z "%V".toList = .ok a ∧ a.length = 2 ∧ intOf a = .ok W ∧
      (Cal.init A).datetimeStrftime L x z "%u".toList = .ok b ∧ intOf b = .ok D ∧
      (Cal.init A).datetimeStrftime L x z "%G".toList = .ok g ∧ (Y = x.d.fullYear → intOf g = .ok Y) := by
  obtain ⟨Y, W, D, e, w0, w1, d0, d1, t1, t2, t3⟩ := iso_texts hE hO L z hx hc hy
  obtain ⟨y, m, dd, ey, hn, e1, y0, y1, hu⟩ := fullYear_day hE hx.day
  exact ⟨Y, W, D, _, _, _, e, t1, padInt_two (by omega) (by omega), (padInt_text _ _).2.2, t2, (padInt_text _ _).2.2, t3,
    fun h => by rw [intOf_signedYear hy (by omega), h]⟩

example : IsDT (Cal.init newYearSun) (witnessLong none) 739676 ∧ OrdinaryClock (witnessLong none) ∧
    -1842 ≤ (witnessLong none).d.fullYear :=
  ⟨witnessLong_is none, ⟨by decide, by decide⟩, by decide⟩

/-- C72 is false for `%G` on the days whose ISO year is not their year. -/
theorem C72_iso_year_negation (A : Astro) (hE : TehranEvening A) (hO : NewYearOrder (Cal.init A)) (L : Locale) (x : DT) (n : ℤ)
    (z : Option TzInfo) (hx : IsDT (Cal.init A) x n) (hc : x.d.isShort = true ∨ OrdinaryClock x) (hy : -1842 ≤ x.d.fullYear)
    (hne : ∀ Y W D, (Cal.init A).isoCalendar x.d = .ok (Y, W, D) → Y ≠ x.d.fullYear) :
    ∃ Y W D g y, (Cal.init A).isoCalendar x.d = .ok (Y, W, D) ∧
      (Cal.init A).datetimeStrftime L x z "%G".toList = .ok g ∧ intOf g = .ok y ∧ y ≠ Y := by
  obtain ⟨Y, W, D, e, w0, w1, d0, d1, t1, t2, t3⟩ := iso_texts hE hO L z hx hc hy
  obtain ⟨y, m, dd, ey, hn, e1, y0, y1, hu⟩ := fullYear_day hE hx.day
  exact ⟨Y, W, D, _, _, e, t3, intOf_signedYear hy (by omega), fun h => hne Y W D e h.symm⟩

/-- The first day of year 182 is in the last week of year 181. -/
example : ∃ W D, IsDT (Cal.init newYearSun) ⟨.short 182 1 1, 7, 30, 0, 0, none, 0⟩ 739329 ∧
    (Cal.init newYearSun).isoCalendar (.short 182 1 1) = .ok (181, W, D) := by
  have key : ysInt 182 = 739329 ∧ leapOf 182 = true ∧ week1 181 = 738961 ∧ week1 182 = 739332 ∧ week1 183 = 739696 := by decide +kernel
  have hd : IsDay (Cal.init newYearSun) (.short 182 1 1) 739329 := (dayNumber_iff newYearSun_tehran).mpr
    ⟨by omega, by omega, Or.inl ⟨by omega, by omega, by omega, by omega⟩, by rw [key.1]; simp [dBefore]⟩
  obtain ⟨Y, e, a0, a1, a2, a3, a4⟩ := yearWeekDay_ok newYearSun_tehran newYearSun_order (y := 182) (m := 1) (d := 1) hd (by omega)
  have hY : Y = 181 := by
    have : Y = 181 ∨ Y = 182 ∨ Y = 183 := by omega
    rcases this with rfl | rfl | rfl
    · rfl
    · omega
    · omega
  subst hY
  exact ⟨(739329 - week1 181) / 7 + 1, (739329 - week1 181) % 7 + 1, ⟨hd, by constructor <;> decide⟩, e⟩

end Verif
