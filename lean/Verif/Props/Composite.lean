import Verif.Lemmas.Strftime
import Verif.Lemmas.Meeus

/-!
# Properties C70 and C71: the zone and the composite directives of `strftime`
-/

namespace Verif

/-- `strftime` of a `struct_time` with a format of pieces. -/
theorem strftimeStruct_toks (C : Cal) (L : Locale) (s : Struct) {ts : List Tok} (hne : ts ≠ [])
    (h : ∀ t ∈ ts, t.Documented) (hs : ts.IsChain (fun a b => ¬ (a.isDash = true ∧ b.isLit = true)))
    (hf : ∀ a b, ts.head? = some a → ts.getLast? = some b → ¬ (a.isLit = true ∧ b.isDash = true)) :
    C.strftimeStruct L (tokText ts) s = (do C.checktm s.tup; tokValues (C.allDirectives L s) ts) := by
  have key := fun dir => C40_copies_partial dir ts hne h hs hf
  have hok : checkFormat (tokText ts) = .ok () := by
    have := key (fun _ _ => .ok [])
    have hv : ∃ r, tokValues (fun _ _ => .ok []) ts = .ok r := by
      clear key hne h hs hf this
      induction ts with
      | nil => exact ⟨_, rfl⟩
      | cons t ts ih =>
        obtain ⟨r, hr⟩ := ih
        cases t <;> simp [tokValues, Tok.value, hr, bind, Except.bind]
    obtain ⟨r, hr⟩ := hv
    rw [hr] at this
    unfold strftimeWith at this
    cases hc : checkFormat (tokText ts) with
    | ok u => rfl
    | error e => rw [hc] at this; cases this
  unfold Cal.strftimeStruct
  rw [hok]
  simp only
  congr 1
  funext _
  have := key (C.allDirectives L s)
  unfold strftimeWith at this
  rw [hok] at this
  exact this

theorem dtTimetuple_inv {C : Cal} {x : DT} {z : Option TzInfo} {s : Struct} (h : C.dtTimetuple x z = .ok s) :
    ∃ w yd, s = structOf x z w yd := by
  unfold Cal.dtTimetuple Cal.buildStructTime at h
  cases h1 : C.structYmd x.d x.h x.mi x.s with
  | error e => rw [h1] at h; cases h
  | ok r =>
    obtain ⟨y, m, d⟩ := r
    rw [h1, pyOk_bind] at h
    simp only at h
    cases h2 : C.dayOfWeek y m d with
    | error e => rw [h2] at h; cases h
    | ok w =>
      rw [h2, pyOk_bind] at h
      cases h3 : C.daysBeforeMonth y m with
      | error e => rw [h3] at h; cases h
      | ok b =>
        rw [h3, pyOk_bind] at h
        unfold Cal.structTime at h
        rw [if_neg (by simp)] at h
        cases h4 : C.newDT ⟨x.d, x.h, x.mi, x.s, 0, z.map (fun i => i.zone.tz), 0⟩ with
        | error e => rw [h4] at h; cases h
        | ok u =>
          rw [h4, pyOk_bind] at h
          injection h with h
          exact ⟨w, b + d, h.symm⟩

theorem datetime_same {C : Cal} {L : Locale} {x : DT} {z : Option TzInfo} {f g : Str}
    (hf : ∀ us, wrapFormat us f = f) (hg : ∀ us, wrapFormat us g = g)
    (h : ∀ w yd, C.strftimeStruct L f (structOf x z w yd) = C.strftimeStruct L g (structOf x z w yd)) :
    C.datetimeStrftime L x z f = C.datetimeStrftime L x z g := by
  unfold Cal.datetimeStrftime
  cases hs : C.dtTimetuple x z with
  | error e => rfl
  | ok s =>
    obtain ⟨w, yd, rfl⟩ := dtTimetuple_inv hs
    rw [pyOk_bind, pyOk_bind, hf, hg, h]

theorem one_toks (C : Cal) (L : Locale) (s : Struct) {c : Char} (hc : c ∈ "aAbBcCdDefGhHIjkKlmMnprSTuUVWxXyYzZ".toList) :
    C.strftimeStruct L ['%', c] s = (do C.checktm s.tup; C.allDirectives L s c none) := by
  have := strftimeStruct_toks C L s (ts := [.dir c none]) (by simp) (by simpa [Tok.Documented] using hc) (by simp) (by
    intro a b ha hb; simp at ha; subst ha; simp [Tok.isLit])
  simp only [tokText, List.flatMap_cons, List.flatMap_nil, Tok.text, List.append_nil, tokValues, Tok.value] at this
  rw [this]
  congr 1
  funext _
  cases C.allDirectives L s c none with
  | error e => rfl
  | ok s => simp [bind, Except.bind]

/-- C71: `%T` is `%H:%M:%S`. -/
theorem C71_time (C : Cal) (L : Locale) (x : DT) (z : Option TzInfo) :
    C.datetimeStrftime L x z "%T".toList = C.datetimeStrftime L x z "%H:%M:%S".toList := by
  apply datetime_same (by intro us; rfl) (by intro us; rfl)
  intro w yd
  rw [show "%T".toList = ['%', 'T'] by decide, one_toks C L _ (by decide)]
  have := strftimeStruct_toks C L (structOf x z w yd) (ts := [.dir 'H' none, .lit ':', .dir 'M' none, .lit ':', .dir 'S' none])
    (by simp) (by simp [Tok.Documented]) (by decide) (by intro a b ha hb; simp at ha; subst ha; simp [Tok.isLit])
  rw [show tokText [.dir 'H' none, .lit ':', .dir 'M' none, .lit ':', .dir 'S' none] = "%H:%M:%S".toList by decide] at this
  rw [this]
  congr 1
  funext _
  simp [tokValues, Tok.value, bind, Except.bind, Cal.allDirectives, Cal.directives, Cal.directive]

/-- C71: `%r` is `%I:%M:%S %p`. -/
theorem C71_clock12 (C : Cal) (L : Locale) (x : DT) (z : Option TzInfo) :
    C.datetimeStrftime L x z "%r".toList = C.datetimeStrftime L x z "%I:%M:%S %p".toList := by
  apply datetime_same (by intro us; rfl) (by intro us; rfl)
  intro w yd
  rw [show "%r".toList = ['%', 'r'] by decide, one_toks C L _ (by decide)]
  have := strftimeStruct_toks C L (structOf x z w yd)
    (ts := [.dir 'I' none, .lit ':', .dir 'M' none, .lit ':', .dir 'S' none, .lit ' ', .dir 'p' none])
    (by simp) (by simp [Tok.Documented]) (by decide) (by intro a b ha hb; simp at ha; subst ha; simp [Tok.isLit])
  rw [show tokText [.dir 'I' none, .lit ':', .dir 'M' none, .lit ':', .dir 'S' none, .lit ' ', .dir 'p' none] =
    "%I:%M:%S %p".toList by decide] at this
  rw [this]
  congr 1
  funext _
  simp only [tokValues, Tok.value, Cal.allDirectives, Cal.directives, Cal.directive, Cal.otherDirectives, Cal.dirR]
  simp
  cases C.dirI (structOf x z w yd).tup 'I' none with
  | error e => rfl
  | ok a =>
    cases C.dirP L (structOf x z w yd).tup with
    | error e => rfl
    | ok b => simp [bind, Except.bind]

/-- Three directives with a separator. -/
def threeOf (a b c sep : Char) : Str := ['%', a, sep, '%', b, sep, '%', c]

theorem wrap_three {a b c sep : Char} (ha : a ≠ 'f') (hb : b ≠ 'f') (hc : c ≠ 'f') (hs : sep ≠ '%') (us : Str) :
    wrapFormat us (threeOf a b c sep) = threeOf a b c sep := by
  unfold threeOf
  simp [wrapFormat, hs]

theorem three_toks (C : Cal) (L : Locale) (s : Struct) {a b c sep : Char} (hs : sep ≠ '%')
    (h : ∀ x ∈ [a, b, c], x ∈ "aAbBcCdDefGhHIjkKlmMnprSTuUVWxXyYzZ".toList) :
    C.strftimeStruct L (threeOf a b c sep) s = (do
      C.checktm s.tup
      joinThree sep (C.allDirectives L s a none) (C.allDirectives L s b none) (C.allDirectives L s c none)) := by
  have := strftimeStruct_toks C L s (ts := [.dir a none, .lit sep, .dir b none, .lit sep, .dir c none])
    (by simp) (by
      intro t ht
      simp only [List.mem_cons, List.not_mem_nil, or_false] at ht
      rcases ht with rfl | rfl | rfl | rfl | rfl
      · exact h a (by simp)
      · exact hs
      · exact h b (by simp)
      · exact hs
      · exact h c (by simp)) (by simp [Tok.isLit, Tok.isDash]) (by intro a b ha hb; simp at ha; subst ha; simp [Tok.isLit])
  rw [show tokText [.dir a none, .lit sep, .dir b none, .lit sep, .dir c none] = threeOf a b c sep by
    simp [tokText, Tok.text, threeOf]] at this
  rw [this]
  congr 1
  funext _
  unfold joinThree
  simp only [tokValues, Tok.value]
  cases C.allDirectives L s a none with
  | error e => rfl
  | ok x =>
    cases C.allDirectives L s b none with
    | error e => rfl
    | ok y =>
      cases C.allDirectives L s c none with
      | error e => rfl
      | ok z => simp [bind, Except.bind]

/-- The characters of the formats of dates and times that the locales have. -/
def LocaleDate (L : Locale) : Prop := ∀ x ∈ [L.d1, L.d2, L.d3], x ∈ ['m', 'd', 'y', 'Y']

theorem method_eq (C : Cal) (L : Locale) (s : Struct) {c : Char} (h : c ∈ ['m', 'd', 'y', 'Y', 'H', 'M', 'S', 'I']) :
    C.method s.tup c = C.allDirectives L s c none := by
  simp only [List.mem_cons, List.not_mem_nil, or_false] at h
  rcases h with rfl | rfl | rfl | rfl | rfl | rfl | rfl | rfl <;>
    simp [Cal.method, Cal.allDirectives, Cal.directives, Cal.directive, Cal.otherDirectives]

/-- C71: `%x` is the format of the locale with its own directives. -/
theorem C71_locale_date (C : Cal) (L : Locale) (hL : LocaleDate L) (hs : L.dSep ≠ '%') (x : DT) (z : Option TzInfo) :
    C.datetimeStrftime L x z "%x".toList = C.datetimeStrftime L x z ['%', L.d1, L.dSep, '%', L.d2, L.dSep, '%', L.d3] := by
  have hall : ∀ c ∈ ['m', 'd', 'y', 'Y'], c ≠ 'f' ∧ c ∈ "aAbBcCdDefGhHIjkKlmMnprSTuUVWxXyYzZ".toList ∧
    c ∈ ['m', 'd', 'y', 'Y', 'H', 'M', 'S', 'I'] := by decide
  have h1 := hall _ (hL L.d1 (by simp))
  have h2 := hall _ (hL L.d2 (by simp))
  have h3 := hall _ (hL L.d3 (by simp))
  apply datetime_same (by intro us; rfl) (wrap_three h1.1 h2.1 h3.1 hs)
  intro w yd
  rw [show "%x".toList = ['%', 'x'] by decide, one_toks C L _ (by decide)]
  have := three_toks C L (structOf x z w yd) (a := L.d1) (b := L.d2) (c := L.d3) hs (by
    intro c hc; simp only [List.mem_cons, List.not_mem_nil, or_false] at hc
    rcases hc with rfl | rfl | rfl
    · exact h1.2.1
    · exact h2.2.1
    · exact h3.2.1)
  rw [this]
  congr 1
  funext _
  rw [← method_eq C L _ h1.2.2, ← method_eq C L _ h2.2.2, ← method_eq C L _ h3.2.2]
  rfl

/-- C71: `%X` is the format of the locale with its own directives. -/
theorem C71_locale_time (C : Cal) (L : Locale) (hL : (L.t1 = 'H' ∨ L.t1 = 'I') ∧ L.t2 = 'M' ∧ L.t3 = 'S') (hs : L.tSep ≠ '%')
    (x : DT) (z : Option TzInfo) :
    C.datetimeStrftime L x z "%X".toList = C.datetimeStrftime L x z ['%', L.t1, L.tSep, '%', L.t2, L.tSep, '%', L.t3] := by
  obtain ⟨t1, t2, t3⟩ := hL
  have h1 : L.t1 ∈ ['m', 'd', 'y', 'Y', 'H', 'M', 'S', 'I'] := by rcases t1 with h | h <;> rw [h] <;> decide
  have h1' : L.t1 ≠ 'f' ∧ L.t1 ∈ "aAbBcCdDefGhHIjkKlmMnprSTuUVWxXyYzZ".toList := by rcases t1 with h | h <;> rw [h] <;> decide
  apply datetime_same (by intro us; rfl) (wrap_three h1'.1 (by rw [t2]; decide) (by rw [t3]; decide) hs)
  intro w yd
  rw [show "%X".toList = ['%', 'X'] by decide, one_toks C L _ (by decide)]
  have := three_toks C L (structOf x z w yd) (a := L.t1) (b := L.t2) (c := L.t3) hs (by
    intro c hc; simp only [List.mem_cons, List.not_mem_nil, or_false] at hc
    rcases hc with rfl | rfl | rfl
    · exact h1'.2
    · rw [t2]; decide
    · rw [t3]; decide)
  rw [this]
  congr 1
  funext _
  rw [← method_eq C L _ h1, ← method_eq C L _ (c := L.t2) (by rw [t2]; decide), ← method_eq C L _ (c := L.t3) (by rw [t3]; decide)]
  rfl

/-- The usual locales: "%m/%d/%y", and "%d.%m.%Y" with a 24 hour clock. -/
example : LocaleDate (localeOf [] [] "%m/%d/%y".toList ':' true) ∧ (localeOf [] [] "%m/%d/%y".toList ':' true).dSep = '/' ∧
    (localeOf [] [] "%m/%d/%y".toList ':' true).t1 = 'I' ∧ LocaleDate (localeOf [] [] "%d.%m.%Y".toList ':' false) ∧
    (localeOf [] [] "%d.%m.%Y".toList ':' false).t1 = 'H' ∧ (localeOf [] [] "%d.%m.%Y".toList ':' false).t2 = 'M' ∧
    (localeOf [] [] "%d.%m.%Y".toList ':' false).t3 = 'S' := by
  unfold LocaleDate
  decide

/-- The directive of the short year in place of any directive of the year. -/
def shortYear (c : Char) : Char := if c = 'Y' then 'y' else c

/-- The year of an object. -/
def DateObj.fullYear : DateObj → ℤ
  | .short y _ _ => y
  | .long k v y _ _ => 361 * (k - 1) + 19 * (v - 1) + y

theorem tupOf_fullYear (d : DateObj) (h mi s w yd : ℤ) : (tupOf d h mi s w yd).fullYear = d.fullYear := by
  cases d with
  | short y m d => rfl
  | long k v y m d =>
    change longYear k v y = _
    unfold longYear DateObj.fullYear
    ring

/-- The century of every year of the library, by the kernel. -/
theorem century_table : ∀ a < 55, ∀ b < 55,
    pyInt (fl ((55 * ((a : ℕ) : ℤ) + ((b : ℕ) : ℤ) - 1843 : ℤ) / 100)) = Int.tdiv (55 * (a : ℤ) + b - 1843) 100 ∧
    ⌊fl ((55 * ((a : ℕ) : ℤ) + ((b : ℕ) : ℤ) - 1843 : ℤ) / 100)⌋ = (55 * (a : ℤ) + b - 1843) / 100 := by
  decide +kernel

theorem century_eq {y : ℤ} (h0 : -1843 ≤ y) (h1 : y ≤ 1161) :
    pyInt (fl ((y : ℚ) / 100)) = Int.tdiv y 100 ∧ ⌊fl ((y : ℚ) / 100)⌋ = y / 100 := by
  have := century_table ((y + 1843) / 55).toNat (by omega) ((y + 1843) % 55).toNat (by omega)
  rw [Int.toNat_of_nonneg (by omega), Int.toNat_of_nonneg (by omega),
    show 55 * ((y + 1843) / 55) + (y + 1843) % 55 - 1843 = y by omega] at this
  exact this

theorem fieldD_eq (C : Cal) (L : Locale) (s : Struct) {c : Char} (h : c ∈ ['m', 'd', 'y', 'Y']) (h0 : -100 < s.tup.fullYear)
    (h1 : s.tup.fullYear ≤ 1161) : C.fieldD s.tup c = C.allDirectives L s (shortYear c) none := by
  have e : yearD s.tup.fullYear = s.tup.fullYear - pyInt (fl ((s.tup.fullYear : ℚ) / 100)) * 100 := by
    unfold yearD
    simp only
    rw [(century_eq (by omega) h1).1]
    split_ifs with h
    · by_cases c : 0 ≤ s.tup.fullYear
      · exfalso
        rw [Int.tdiv_eq_ediv_of_nonneg c] at h
        omega
      · have : Int.tdiv s.tup.fullYear 100 = 0 := by
          have e2 : Int.tdiv s.tup.fullYear 100 = -(Int.tdiv (-s.tup.fullYear) 100) := by rw [Int.neg_tdiv, neg_neg]
          rw [e2, Int.tdiv_eq_ediv_of_nonneg (by omega)]
          omega
        rw [this]; ring
    · rfl
  simp only [List.mem_cons, List.not_mem_nil, or_false] at h
  rcases h with rfl | rfl | rfl | rfl <;>
    simp [Cal.fieldD, Cal.method, Cal.allDirectives, Cal.directives, Cal.directive, shortYear, e]

/-- C71: `%D` is the format of the locale with the year in two digits, for the years after -100. Missing from the full
property: the years before -100, where it is false (below). -/
theorem C71_date_partial (C : Cal) (L : Locale) (hL : LocaleDate L) (hs : L.dSep ≠ '%') (x : DT) (z : Option TzInfo)
    (h0 : -100 < x.d.fullYear) (h1 : x.d.fullYear ≤ 1161) :
    C.datetimeStrftime L x z "%D".toList = C.datetimeStrftime L x z
      ['%', shortYear L.d1, L.dSep, '%', shortYear L.d2, L.dSep, '%', shortYear L.d3] := by
  have hall : ∀ c ∈ ['m', 'd', 'y', 'Y'], shortYear c ≠ 'f' ∧ shortYear c ∈ "aAbBcCdDefGhHIjkKlmMnprSTuUVWxXyYzZ".toList := by
    decide
  have m1 := hL L.d1 (by simp)
  have m2 := hL L.d2 (by simp)
  have m3 := hL L.d3 (by simp)
  have h1' := hall _ m1
  have h2' := hall _ m2
  have h3' := hall _ m3
  apply datetime_same (by intro us; rfl) (wrap_three h1'.1 h2'.1 h3'.1 hs)
  intro w yd
  rw [show "%D".toList = ['%', 'D'] by decide, one_toks C L _ (by decide)]
  have := three_toks C L (structOf x z w yd) (a := shortYear L.d1) (b := shortYear L.d2) (c := shortYear L.d3) hs (by
    intro c hc; simp only [List.mem_cons, List.not_mem_nil, or_false] at hc
    rcases hc with rfl | rfl | rfl
    · exact h1'.2
    · exact h2'.2
    · exact h3'.2)
  rw [this]
  congr 1
  funext _
  have fy : (structOf x z w yd).tup.fullYear = x.d.fullYear := tupOf_fullYear _ _ _ _ _ _
  rw [← fy] at h0 h1
  rw [← fieldD_eq C L _ m1 h0 h1, ← fieldD_eq C L _ m2 h0 h1, ← fieldD_eq C L _ m3 h0 h1]
  rfl

example : (DateObj.long 1 10 11 19 1).fullYear = 182 := by decide

/-- C71: for the other years before -100, `%D` has the whole year and `%y` the last two digits. -/
theorem C71_date_negation (A : Astro) (hE : TehranEvening A) (hO : NewYearOrder (Cal.init A)) (L : Locale)
    (hL : L.d1 = 'm' ∧ L.d2 = 'd' ∧ L.d3 = 'y' ∧ L.dSep = '/') (x : DT) (n : ℤ) (z : Option TzInfo)
    (hx : IsDT (Cal.init A) x n) (hc : x.d.isShort = true ∨ OrdinaryClock x) (h0 : -1842 ≤ x.d.fullYear)
    (h1 : x.d.fullYear < -100) (h2 : x.d.fullYear % 100 ≠ 0) :
    ∃ a b, (Cal.init A).datetimeStrftime L x z "%D".toList = .ok a ∧
      (Cal.init A).datetimeStrftime L x z "%m/%d/%y".toList = .ok b ∧ a ≠ b := by
  have hy : YearShown x.d := by
    cases hd : x.d with
    | long k v y m d => trivial
    | short y m d => rw [hd] at h0; exact h0
  obtain ⟨l1, l2, l3, l4⟩ := hL
  obtain ⟨w, yd, -, -, e1, e2⟩ := dtTimetuple_ok hE hO hx hc hy z
  have fy : (structOf x z w yd).tup.fullYear = x.d.fullYear := tupOf_fullYear _ _ _ _ _ _
  have cen := (century_eq (y := x.d.fullYear) (by omega) (by omega)).1
  have tq : Int.tdiv x.d.fullYear 100 = -(-x.d.fullYear / 100) := by
    rw [← Int.tdiv_eq_ediv_of_nonneg (by omega), Int.neg_tdiv, neg_neg]
  refine ⟨padInt 2 (structOf x z w yd).tup.mon ++ '/' :: padInt 2 (structOf x z w yd).tup.mday ++ '/' :: padInt 2 x.d.fullYear,
    padInt 2 (structOf x z w yd).tup.mon ++ '/' :: padInt 2 (structOf x z w yd).tup.mday ++ '/' ::
      padInt 2 (x.d.fullYear - Int.tdiv x.d.fullYear 100 * 100), ?_, ?_, ?_⟩
  · unfold Cal.datetimeStrftime
    rw [e1, pyOk_bind, show "%D".toList = ['%', 'D'] by decide, wrap_one _ (by decide), one_toks _ L _ (by decide), e2, pyOk_bind]
    change joinThree L.dSep _ _ _ = _
    rw [l1, l2, l3, l4]
    have e : yearD x.d.fullYear = x.d.fullYear := by
      unfold yearD
      simp only
      rw [cen, if_pos (by omega)]
      ring
    simp [joinThree, Cal.fieldD, Cal.method, Cal.directive, bind, Except.bind, fy, e]
  · unfold Cal.datetimeStrftime
    rw [e1, pyOk_bind, show "%m/%d/%y".toList = threeOf 'm' 'd' 'y' '/' by decide,
      wrap_three (by decide) (by decide) (by decide) (by decide), three_toks _ L _ (by decide) (by decide), e2, pyOk_bind]
    simp [joinThree, Cal.allDirectives, Cal.directives, Cal.directive, bind, Except.bind, fy, cen]
  · intro h
    have h := List.append_cancel_left h
    simp only [List.cons.injEq, true_and] at h
    have i1 := (padInt_text 2 x.d.fullYear).2.2
    rw [h, (padInt_text _ _).2.2] at i1
    injection i1 with i1
    omega

/-- Year -150. -/
example : IsDT (Cal.init newYearSun) ⟨.short (-150) 5 7, 11, 59, 30, 0, none, 0⟩ 618151 ∧
    (DateObj.short (-150) 5 7).fullYear % 100 ≠ 0 := by
  refine ⟨⟨(dayNumber_iff newYearSun_tehran).mpr ⟨by omega, by omega, Or.inl ⟨by omega, by omega, by omega, by omega⟩,
    by decide +kernel⟩, ?_⟩, by decide⟩
  simp only [DT.timetz]
  exact ⟨by norm_num, by norm_num, by norm_num, by norm_num, by norm_num, by norm_num, by norm_num, by norm_num, Or.inl rfl⟩

/-- The pieces of `%a %b %d %H:%M:%S %Y`. -/
def cToks : List Tok := [.dir 'a' none, .lit ' ', .dir 'b' none, .lit ' ', .dir 'd' none, .lit ' ', .dir 'H' none, .lit ':',
  .dir 'M' none, .lit ':', .dir 'S' none, .lit ' ', .dir 'Y' none]

theorem cToks_text : tokText cToks = "%a %b %d %H:%M:%S %Y".toList := by decide

theorem cToks_eq (C : Cal) (L : Locale) (s : Struct) : C.strftimeStruct L "%a %b %d %H:%M:%S %Y".toList s = (do
    C.checktm s.tup
    .ok (nameAt dayAbbrs s.tup.wday ++ ' ' :: nameAt monthAbbrs s.tup.mon ++ ' ' :: padInt 2 s.tup.mday ++ ' ' ::
      padInt 2 s.tup.hour ++ ':' :: padInt 2 s.tup.min ++ ':' :: padInt 2 s.tup.sec ++ ' ' :: signedYear s.tup.fullYear)) := by
  have := strftimeStruct_toks C L s (ts := cToks) (by simp [cToks]) (by simp [cToks, Tok.Documented]) (by decide)
    (by intro a b ha hb; simp [cToks] at ha; subst ha; simp [Tok.isLit])
  rw [cToks_text] at this
  rw [this]
  congr 1
  funext _
  simp [cToks, tokValues, Tok.value, Cal.allDirectives, Cal.directives, Cal.directive, bind, Except.bind]

theorem signed_pad {y : ℤ} : padInt 4 y = signedYear y ↔ 0 ≤ y ∨ y ≤ -1000 := by
  unfold padInt signedYear
  by_cases h : y < 0
  · rw [if_pos h, if_pos h]
    have l : 3 ≤ Nat.log 10 y.natAbs ↔ 1000 ≤ y.natAbs := by
      rw [Nat.le_log_iff_pow_le (by norm_num) (by omega)]
    constructor
    · intro e
      have e := congrArg List.length e
      simp only [padNat, List.length_cons, digitsW_length, List.length_append, List.length_nil] at e
      omega
    · intro e
      have : 3 ≤ Nat.log 10 y.natAbs := l.mpr (by omega)
      unfold padNat
      rw [show max (4 - 1) (Nat.log 10 y.natAbs + 1) = max 4 (Nat.log 10 y.natAbs + 1) by omega]
      rfl
  · rw [if_neg h, if_neg h]
    have e : y.natAbs = y.toNat := by omega
    rw [e]
    exact ⟨fun _ => Or.inl (by omega), fun _ => rfl⟩

/-- C71: `%c` is `%a %b %d %H:%M:%S %Y` in the short form, for years that are not between -999 and -1. Missing from the
full property: those years and the long form, where it is false (below). -/
theorem C71_date_time_partial (C : Cal) (L : Locale) (x : DT) (z : Option TzInfo) (hs : x.d.isShort = true)
    (hy : 0 ≤ x.d.fullYear ∨ x.d.fullYear ≤ -1000) :
    C.datetimeStrftime L x z "%c".toList = C.datetimeStrftime L x z "%a %b %d %H:%M:%S %Y".toList := by
  apply datetime_same (by intro us; rfl) (by intro us; rfl)
  intro w yd
  rw [show "%c".toList = ['%', 'c'] by decide, one_toks C L _ (by decide), cToks_eq]
  congr 1
  funext _
  change Except.ok (dirC _) = _
  cases hd : x.d with
  | long k v y m d => rw [hd] at hs; cases hs
  | short y m d =>
    rw [hd] at hy
    have e : padInt 4 y = signedYear y := signed_pad.mpr hy
    simp only [structOf, dirC, hd, tupOf, if_true, e, Tup.fullYear]

/-- C71: `%c` differs from `%a %b %d %H:%M:%S %Y` for the years between -999 and -1, and for the long form. -/
theorem C71_date_time_negation (A : Astro) (hE : TehranEvening A) (hO : NewYearOrder (Cal.init A)) (L : Locale) (x : DT) (n : ℤ)
    (z : Option TzInfo) (hx : IsDT (Cal.init A) x n) (hc : x.d.isShort = true ∨ OrdinaryClock x)
    (hy : x.d.isShort = false ∨ (-1000 < x.d.fullYear ∧ x.d.fullYear < 0)) :
    ∃ a b, (Cal.init A).datetimeStrftime L x z "%c".toList = .ok a ∧
      (Cal.init A).datetimeStrftime L x z "%a %b %d %H:%M:%S %Y".toList = .ok b ∧ a ≠ b := by
  have hys : YearShown x.d := by
    cases hd : x.d with
    | long k v y m d => trivial
    | short y m d =>
      rw [hd] at hy
      rcases hy with hy | hy
      · cases hy
      · have : -1000 < y := hy.1
        change -1842 ≤ y
        omega
  obtain ⟨w, yd, -, -, e1, e2⟩ := dtTimetuple_ok hE hO hx hc hys z
  refine ⟨dirC (structOf x z w yd).tup, nameAt dayAbbrs (structOf x z w yd).tup.wday ++ ' ' :: nameAt monthAbbrs (structOf x z w yd).tup.mon ++ ' ' ::
      padInt 2 (structOf x z w yd).tup.mday ++ ' ' :: padInt 2 (structOf x z w yd).tup.hour ++ ':' ::
      padInt 2 (structOf x z w yd).tup.min ++ ':' :: padInt 2 (structOf x z w yd).tup.sec ++ ' ' ::
      signedYear (structOf x z w yd).tup.fullYear, ?_, ?_, ?_⟩
  · unfold Cal.datetimeStrftime
    rw [e1, pyOk_bind, show "%c".toList = ['%', 'c'] by decide, wrap_one _ (by decide), one_toks _ L _ (by decide), e2, pyOk_bind]
    rfl
  · unfold Cal.datetimeStrftime
    rw [e1, pyOk_bind]
    change (Cal.init A).strftimeStruct L "%a %b %d %H:%M:%S %Y".toList (structOf x z w yd) = _
    rw [cToks_eq, e2, pyOk_bind]
  · intro h
    unfold dirC at h
    have h := List.append_cancel_left h
    simp only [List.cons.injEq, true_and] at h
    cases hd : x.d with
    | short y m d =>
      rw [hd] at hy
      simp only [structOf, hd, tupOf, if_true, Tup.fullYear] at h
      rcases signed_pad.mp h with h | h
      · rcases hy with hy | hy
        · cases hy
        · have : y < 0 := hy.2
          omega
      · rcases hy with hy | hy
        · cases hy
        · have : -1000 < y := hy.1
          omega
    | long k v y m d =>
      simp only [structOf, hd, tupOf, Bool.false_eq_true, if_false, Tup.fullYear] at h
      have hm : ' ' ∈ signedYear (longYear k v y) := by rw [← h]; simp
      unfold signedYear at hm
      rw [List.mem_append] at hm
      rcases hm with hm | hm
      · split_ifs at hm <;> simp at hm
      · have := digitsW_isDig _ _ _ hm
        revert this
        decide

/-- Year -150 in the short form and year 182 in the long form. -/
example : (-1000 < (DateObj.short (-150) 5 7).fullYear ∧ (DateObj.short (-150) 5 7).fullYear < 0) ∧
    IsDT (Cal.init newYearSun) (witnessLong none) 739676 ∧ OrdinaryClock (witnessLong none) ∧ (witnessLong none).d.isShort = false :=
  ⟨by decide, witnessLong_is _, by unfold OrdinaryClock witnessLong; simp, rfl⟩

/-- The text of an offset of `q` quarter hours with the hundredths of the hour in place of the minutes. -/
def hundredths (q : ℤ) (colon : Bool) : Str :=
  (if q < 0 then '-' else '+') :: padInt 2 (|q| / 4) ++ (if colon then [':'] else []) ++ padInt 2 (25 * (|q| % 4))

theorem dirZ_quarters {q : ℤ} (h0 : q ≠ 0) (h1 : |q| ≤ 95) (colon : Bool) :
    dirZ (some (900 * q : ℚ)) (if colon then some ':' else none) = hundredths q colon := by
  unfold dirZ
  simp only
  have hq : (q : ℚ) ≠ 0 := by exact_mod_cast h0
  rw [if_neg (by simpa using hq)]
  have e1 : fl (900 * (q : ℚ) / 3600) = q / 4 := by
    rw [show 900 * (q : ℚ) / 3600 = q / 4 by ring, fl_quarter _ (by omega)]
  have e2 : |(q : ℚ) / 4| = ((|q| : ℤ) : ℚ) / 4 := by rw [abs_div, Int.cast_abs]; norm_num
  have e3 : pyInt (((|q| : ℤ) : ℚ) / 4) = |q| / 4 := by
    unfold pyInt
    have : (0 : ℚ) ≤ ((|q| : ℤ) : ℚ) / 4 := by positivity
    rw [if_pos this]
    have := Rat.floor_intCast_div_natCast (|q|) 4
    exact_mod_cast this
  have e4 : ((|q| : ℤ) : ℚ) / 4 - ((|q| / 4 : ℤ) : ℚ) = ((|q| % 4 : ℤ) : ℚ) / 4 := by
    have : (|q| : ℤ) = 4 * (|q| / 4) + |q| % 4 := by omega
    have : ((|q| : ℤ) : ℚ) = 4 * ((|q| / 4 : ℤ) : ℚ) + ((|q| % 4 : ℤ) : ℚ) := by exact_mod_cast this
    linarith
  have e5 : ∀ b : ℤ, 0 ≤ b → b < 4 → fl (fl ((b : ℚ) / 4) * 100) = ((25 * b : ℤ) : ℚ) := by
    intro b b0 b1
    interval_cases b <;> decide +kernel
  rw [e1, e2, e3, e4, e5 _ (by omega) (by omega), Int.floor_intCast, sub_self]
  have z0 : fl 0 = 0 := by decide +kernel
  have z1 : pyInt 0 = 0 := by decide +kernel
  simp only [z0, zero_mul, z1, Int.cast_zero, sub_zero, lt_irrefl, if_false, List.append_nil]
  unfold hundredths
  have : (900 * (q : ℚ) < 0) ↔ q < 0 := by
    constructor
    · intro h; have : (q : ℚ) < 0 := by linarith
      exact_mod_cast this
    · intro h; have : (q : ℚ) < 0 := by exact_mod_cast h
      linarith
  simp only [this]
  cases colon <;> simp

theorem colon_z (C : Cal) (L : Locale) (s : Struct) :
    C.strftimeStruct L "%:z".toList s = (do C.checktm s.tup; .ok (dirZ s.gmtoff (some ':'))) := by
  have := strftimeStruct_toks C L s (ts := [.dir 'z' (some ':')]) (by simp) (by simp [Tok.Documented]) (by simp) (by
    intro a b ha hb; simp at ha; subst ha; simp [Tok.isLit])
  rw [show tokText [.dir 'z' (some ':')] = "%:z".toList by decide] at this
  rw [this]
  congr 1
  funext _
  simp [tokValues, Tok.value, Cal.allDirectives, bind, Except.bind]

theorem zone_texts {A : Astro} (hE : TehranEvening A) (hO : NewYearOrder (Cal.init A)) (L : Locale) {x : DT} {n : ℤ}
    (z : Option TzInfo) (hx : IsDT (Cal.init A) x n) (hc : x.d.isShort = true ∨ OrdinaryClock x) (hy : -1842 ≤ x.d.fullYear) :
    (Cal.init A).datetimeStrftime L x z "%z".toList = .ok (dirZ (offsetSeconds z) none) ∧
    (Cal.init A).datetimeStrftime L x z "%:z".toList = .ok (dirZ (offsetSeconds z) (some ':')) ∧
    (Cal.init A).datetimeStrftime L x z "%Z".toList = .ok ((z.map (fun i => tzName i.zone)).getD []) := by
  have hy : YearShown x.d := by
    cases hd : x.d with
    | long k v y m d => trivial
    | short y m d => rw [hd] at hy; exact hy
  obtain ⟨w, yd, -, -, e1, e2⟩ := dtTimetuple_ok hE hO hx hc hy z
  unfold Cal.datetimeStrftime
  rw [e1, pyOk_bind, pyOk_bind, pyOk_bind]
  refine ⟨?_, ?_, ?_⟩
  · rw [show "%z".toList = ['%', 'z'] by decide, wrap_one _ (by decide), one_toks _ L _ (by decide), e2, pyOk_bind]
    rfl
  · change (Cal.init A).strftimeStruct L "%:z".toList (structOf x z w yd) = _
    rw [colon_z, e2, pyOk_bind]
    rfl
  · rw [show "%Z".toList = ['%', 'Z'] by decide, wrap_one _ (by decide), one_toks _ L _ (by decide), e2, pyOk_bind]
    rfl

theorem offsetSeconds_quarters {i : TzInfo} {q : ℤ} (h : i.zone.off = 900000000 * q) (h0 : q ≠ 0) (h1 : |q| ≤ 95) :
    offsetSeconds (some i) = some (900 * q : ℚ) := by
  unfold offsetSeconds
  simp only
  rw [if_neg (by omega), h, show (((900000000 * q : ℤ) : ℚ)) / 1000000 = ((900 * q : ℤ) : ℚ) by push_cast; ring,
    fl_int (900 * q) (by rcases abs_cases q with h | h <;> rcases abs_cases (900 * q) with h' | h' <;> omega)]
  push_cast
  rfl

/-- C70: the offset of a zone a whole number of hours from UTC is written by `%z` as sign, hours and two zeros, and by `%:z`
with a colon; `%Z` is the name of the zone. Missing from the full property: the other offsets; for zero and for the
quarters of an hour it is false (below). -/
theorem C70_hours_partial (A : Astro) (hE : TehranEvening A) (hO : NewYearOrder (Cal.init A)) (L : Locale) (x : DT) (n : ℤ)
    (i : TzInfo) (h : ℤ) (hx : IsDT (Cal.init A) x n) (hc : x.d.isShort = true ∨ OrdinaryClock x)
    (hy : -1842 ≤ x.d.fullYear) (hz : i.zone.off = 3600000000 * h) (h0 : h ≠ 0) (h1 : |h| ≤ 23) :
    (Cal.init A).datetimeStrftime L x (some i) "%z".toList =
      .ok ((if h < 0 then '-' else '+') :: padInt 2 |h| ++ "00".toList) ∧
    (Cal.init A).datetimeStrftime L x (some i) "%:z".toList =
      .ok ((if h < 0 then '-' else '+') :: padInt 2 |h| ++ ":00".toList) ∧
    (Cal.init A).datetimeStrftime L x (some i) "%Z".toList = .ok (tzName i.zone) := by
  obtain ⟨e1, e2, e3⟩ := zone_texts hE hO L (some i) hx hc hy
  have q1 : |4 * h| = 4 * |h| := by rw [abs_mul]; norm_num
  rw [offsetSeconds_quarters (q := 4 * h) (by omega) (by omega) (by omega)] at e1 e2
  have d1 := dirZ_quarters (q := 4 * h) (by omega) (by omega) false
  have d2 := dirZ_quarters (q := 4 * h) (by omega) (by omega) true
  simp only [Bool.false_eq_true, if_false, if_true] at d1 d2
  rw [d1] at e1
  rw [d2] at e2
  have s0 : padInt 2 0 = "00".toList := by decide
  refine ⟨?_, ?_, e3⟩
  · rw [e1]
    unfold hundredths
    rw [q1, show 4 * |h| / 4 = |h| by omega, show 4 * |h| % 4 = 0 by omega]
    simp [show 4 * h < 0 ↔ h < 0 by omega, s0]
  · rw [e2]
    unfold hundredths
    rw [q1, show 4 * |h| / 4 = |h| by omega, show 4 * |h| % 4 = 0 by omega]
    simp [show 4 * h < 0 ↔ h < 0 by omega, s0]

/-- C70: a naive datetime has neither offset nor name. -/
theorem C70_naive (A : Astro) (hE : TehranEvening A) (hO : NewYearOrder (Cal.init A)) (L : Locale) (x : DT) (n : ℤ)
    (hx : IsDT (Cal.init A) x n) (hc : x.d.isShort = true ∨ OrdinaryClock x) (hy : -1842 ≤ x.d.fullYear) :
    (Cal.init A).datetimeStrftime L x none "%z".toList = .ok [] ∧
    (Cal.init A).datetimeStrftime L x none "%:z".toList = .ok [] ∧
    (Cal.init A).datetimeStrftime L x none "%Z".toList = .ok [] :=
  zone_texts hE hO L none hx hc hy

/-- C70: for the offsets with a quarter, half or three quarters of an hour, the minutes are not those of the offset: 25, 50
or 75 in place of 15, 30 or 45. -/
theorem C70_quarters_negation (A : Astro) (hE : TehranEvening A) (hO : NewYearOrder (Cal.init A)) (L : Locale) (x : DT) (n : ℤ)
    (i : TzInfo) (q : ℤ) (hx : IsDT (Cal.init A) x n) (hc : x.d.isShort = true ∨ OrdinaryClock x)
    (hy : -1842 ≤ x.d.fullYear) (hz : i.zone.off = 900000000 * q) (h0 : q % 4 ≠ 0) (h1 : |q| ≤ 95) :
    ∃ text, (Cal.init A).datetimeStrftime L x (some i) "%:z".toList = .ok text ∧
      text = (if q < 0 then '-' else '+') :: padInt 2 (|q| / 4) ++ ':' :: padInt 2 (25 * (|q| % 4)) ∧
      text ≠ (if q < 0 then '-' else '+') :: padInt 2 (|q| / 4) ++ ':' :: padInt 2 (15 * (|q| % 4)) := by
  obtain ⟨-, e2, -⟩ := zone_texts hE hO L (some i) hx hc hy
  rw [offsetSeconds_quarters hz (by omega) h1] at e2
  have d2 := dirZ_quarters (q := q) (by omega) h1 true
  simp only [if_true] at d2
  rw [d2] at e2
  have q4 : |q| % 4 ≠ 0 := by rcases abs_cases q with h | h <;> omega
  refine ⟨_, e2, by simp [hundredths], ?_⟩
  intro h
  unfold hundredths at h
  simp only [if_true, List.cons_append, List.cons.injEq, true_and, List.append_assoc, List.nil_append] at h
  have h := List.append_cancel_left h
  simp only [List.cons.injEq, true_and] at h
  have i1 := (padInt_text 2 (25 * (|q| % 4))).2.2
  rw [h, (padInt_text _ _).2.2] at i1
  injection i1 with i1
  omega

/-- C70: a zone with offset zero is written like no zone. -/
theorem C70_zero_negation (A : Astro) (hE : TehranEvening A) (hO : NewYearOrder (Cal.init A)) (L : Locale) (x : DT) (n : ℤ)
    (i : TzInfo) (hx : IsDT (Cal.init A) x n) (hc : x.d.isShort = true ∨ OrdinaryClock x)
    (hy : -1842 ≤ x.d.fullYear) (hz : i.zone.off = 0) :
    (Cal.init A).datetimeStrftime L x (some i) "%z".toList = .ok [] ∧
    (Cal.init A).datetimeStrftime L x (some i) "%:z".toList = .ok [] := by
  obtain ⟨e1, e2, -⟩ := zone_texts hE hO L (some i) hx hc hy
  have : offsetSeconds (some i) = none := by unfold offsetSeconds; simp [hz]
  rw [this] at e1 e2
  exact ⟨e1, e2⟩

/-- The evening of the last day of Ayyám-i-Há, five hours, five and a half hours, and nothing east of UTC. -/
example : IsDT (Cal.init newYearSun) (witnessDT none 0) 739675 ∧ (witnessDT none 0).d.isShort = true ∧
    (witnessDT none 0).d.fullYear = 182 ∧ (⟨1, 18000000000, none⟩ : Zone).off = 3600000000 * 5 ∧
    (⟨1, 19800000000, none⟩ : Zone).off = 900000000 * 22 ∧ utcZone.off = 0 :=
  ⟨witnessDT_is _ (Or.inl rfl), rfl, rfl, by norm_num, by norm_num, rfl⟩

end Verif
