import Verif.Model.StrpTwice
import Verif.Props.StrpZone
import Verif.Props.StrpStruct
import Verif.Props.WeekDirectives
import Verif.Props.IsoRefuse

/-!
# Property C112: the failures of `strptime` are ValueErrors
-/

namespace Verif

theorem onlyValue_find (s : Str) (ps : List Piece) : OnlyValue (findRegex s ps) := by
  intro e he
  unfold findRegex at he
  split at he
  · injection he with he; exact he.symm
  · split_ifs at he
    injection he with he; exact he.symm

theorem onlyValue_iso (f : Found) : OnlyValue (checkIsoWeek f) := by
  intro e he
  unfold checkIsoWeek at he
  split at he <;> split_ifs at he <;> (injection he with he; exact he.symm)

theorem onlyValue_zone (fresh : ℕ) (f : Found) : OnlyValue (f.zone fresh) := by
  unfold Found.zone
  split
  · exact onlyValue_ok _
  · apply onlyValue_map
    intro e he
    unfold newZone at he
    split_ifs at he
    injection he with he; exact he.symm

/-- Any other exception comes after the fields have been read. -/
theorem strptime_err {C : Cal} {s fmt : Str} {fresh : ℕ} {e : PyErr} (h : C.strptime s fmt fresh = some (.error e))
    (he : e ≠ .value) : ∃ g f, Follows fmt s g ∧ parseFound g = .ok f ∧ checkIsoWeek f = .ok () ∧
      (∀ r q, C.fromWeeks f = .ok r → C.fromJulian r.1 r.2.1 r.2.2.1 r.2.2.2 = .ok q →
        C.missingWeekday f q.1 q.2.1 q.2.2 = .ok () → ∃ z, f.zone fresh = .ok z ∧
        C.newDT ⟨.short q.1 q.2.1 q.2.2, f.hour, f.minute, f.second, f.fraction, z, 0⟩ = .error e) := by
  unfold Cal.strptime at h
  cases hc : compileFmt false fmt with
  | none => rw [hc] at h; simp at h
  | some o =>
    rw [hc] at h
    cases o with
    | error e' =>
      simp only [Option.some.injEq] at h
      injection h with h
      subst h
      have := compile_error hc
      exact absurd this he
    | ok ps =>
      simp only [Option.some.injEq] at h
      cases hg : findRegex s ps with
      | error e' =>
        rw [hg] at h
        injection h with h
        subst h
        exact absurd (onlyValue_find _ _ _ hg) he
      | ok g =>
        rw [hg, pyOk_bind] at h
        unfold Cal.strptimeFound at h
        cases hf : parseFound g with
        | error e' =>
          rw [hf] at h
          injection h with h
          subst h
          exact absurd (onlyValue_fold _ _ _ hf) he
        | ok f =>
          rw [hf, pyOk_bind] at h
          cases hk : checkIsoWeek f with
          | error e' =>
            rw [hk] at h
            injection h with h
            subst h
            exact absurd (onlyValue_iso _ _ hk) he
          | ok u =>
            rw [hk, pyOk_bind] at h
            refine ⟨g, f, findRegex_follows hc hg, hf, hk, ?_⟩
            intro r q hr hq hw
            rw [hr, pyOk_bind, hq, pyOk_bind, hw, pyOk_bind] at h
            cases hz : f.zone fresh with
            | error e' =>
              rw [hz] at h
              injection h with h
              subst h
              exact absurd (onlyValue_zone _ _ _ hz) he
            | ok z =>
              rw [hz, pyOk_bind] at h
              exact ⟨z, rfl, h⟩

/-- The hour and the minute of a text are those of a clock. -/
theorem clock_range {fmt s : Str} {g : List (Char × Str)} {f : Found} (hg : Follows fmt s g) (h : parseFound g = .ok f) :
    0 ≤ f.hour ∧ f.hour ≤ 23 ∧ 0 ≤ f.minute ∧ f.minute ≤ 59 ∧ 0 ≤ f.second ∧ f.second ≤ 61 := by
  obtain ⟨p2, p3, -⟩ := parse_fields h
  have num : ∀ {len lo hi v n}, NumText len lo hi v → intOf v = .ok n → lo ≤ n ∧ n ≤ hi := by
    rintro len lo hi v n ⟨-, -, -, n', e', l0, l1⟩ e
    rw [e] at e'
    injection e' with e'
    subst e'
    exact ⟨l0, l1⟩
  have hh : 0 ≤ f.hour ∧ f.hour ≤ 23 := by
    rcases hour_is hg h with ⟨v, hv, e⟩ | ⟨v, k, hv, e, h3⟩ | ⟨-, e⟩
    · exact num (show NumText 2 0 23 v from follows_dirs hg _ hv) e
    · obtain ⟨l0, l1⟩ := num (show NumText 2 1 12 v from follows_dirs hg _ hv) e
      rcases h3 with ⟨h3, -⟩ | ⟨h3, -⟩ <;> omega
    · omega
  have hm : 0 ≤ f.minute ∧ f.minute ≤ 59 := by
    rcases p2 with ⟨c, hc, v, hv, e⟩ | ⟨-, e⟩
    · simp only [List.mem_cons, List.not_mem_nil, or_false] at hc
      subst hc
      exact num (show NumText 2 0 59 v from follows_dirs hg _ hv) e
    · omega
  have hs : 0 ≤ f.second ∧ f.second ≤ 61 := by
    rcases p3 with ⟨c, hc, v, hv, e⟩ | ⟨-, e⟩
    · simp only [List.mem_cons, List.not_mem_nil, or_false] at hc
      subst hc
      exact num (show NumText 2 0 61 v from follows_dirs hg _ hv) e
    · omega
  exact ⟨hh.1, hh.2, hm.1, hm.2, hs.1, hs.2⟩

/-- C112: `strptime` raises ValueError, unless the text follows the format and either a directive for the day of the year, the
week of the year or the ISO year is in the format, or the year, month and day of the text are no date of the calendar, or its
second is 61. Missing from the full property: those cases, where it is false (below), and formats with the same directive
twice (`C112_twice_negation`). -/
theorem C112_value_partial (A : Astro) (hE : TehranEvening A) (hO : NewYearOrder (Cal.init A)) (s fmt : Str) (fresh : ℕ)
    (e : PyErr) (h : (Cal.init A).strptimeFull s fmt fresh = some (.err e)) :
    e = .value ∨ ∃ g, Follows fmt s g ∧ ((∃ c ∈ ['j', 'U', 'W', 'G'], ∃ v, (c, v) ∈ g) ∨ FieldIs g ['S'] 0 61 ∨
      ∃ y m d, MonthIs g m ∧ FieldIs g ['d'] 1 d ∧ FieldIs g ['Y', 'y'] (if m = 0 ∧ d = 5 then 1 else 2) y ∧
        ¬ ∃ n, IsDay (Cal.init A) (.short y m d) n) := by
  have h' : (Cal.init A).strptime s fmt fresh = some (.error e) := by
    unfold Cal.strptimeFull at h
    cases hc : compileFmt false fmt with
    | none => rw [hc] at h; simp at h
    | some o =>
      rw [hc] at h
      cases o with
      | error e' =>
        simp only [Option.some.injEq, StrpOut.err.injEq] at h
        unfold Cal.strptime
        rw [hc, h]
      | ok ps =>
        simp only at h
        split_ifs at h
        · cases hs : (Cal.init A).strptime s fmt fresh with
          | none => rw [hs] at h; simp at h
          | some r =>
            rw [hs] at h
            cases r with
            | ok x => simp [StrpOut.of] at h
            | error e' => simp only [StrpOut.of, Option.map_some, Option.some.injEq, StrpOut.err.injEq] at h; rw [h]
        · simp at h
  by_cases he : e = .value
  · exact Or.inl he
  right
  obtain ⟨g, f, hg, hf, hk, hx⟩ := strptime_err h' he
  refine ⟨g, hg, ?_⟩
  by_cases hn : ∃ c ∈ ['j', 'U', 'W', 'G'], ∃ v, (c, v) ∈ g
  · exact Or.inl hn
  right
  replace hn : ∀ c ∈ ['j', 'U', 'W', 'G'], ∀ v, (c, v) ∉ g := fun c hc v hv => hn ⟨c, hc, v, hv⟩
  obtain ⟨p2, p3, p4, p5, p6, p7, p8, p9, p10⟩ := parse_fields hf
  by_cases h61 : f.second = 61
  · left
    rw [h61] at p3
    exact p3
  right
  refine ⟨f.guessYear, f.month, f.day, p6, p4, guessYear_is p7, ?_⟩
  rintro ⟨n, hd⟩
  have hj : f.julian = none := by
    rcases p8 with ⟨c, hc, v, hv, -⟩ | ⟨-, he⟩
    · simp only [List.mem_cons, List.not_mem_nil, or_false] at hc
      subst hc
      exact absurd hv (hn 'j' (by simp) v)
    · exact he
  have hwk : f.weekOfYear = none := p9 (fun c hc v => hn c (by
    simp only [List.mem_cons, List.not_mem_nil, or_false] at hc ⊢; tauto) v)
  have hiy : f.isoYear = none := p10 (fun v => hn 'G' (by simp) v)
  have hr : (Cal.init A).fromWeeks f = .ok (f.guessYear, f.month, f.day, none) := by
    unfold Cal.fromWeeks
    rw [hj, hwk, hiy]
    generalize f.weekday = a
    generalize f.isoWeek = b
    cases a <;> cases b <;> rfl
  have hd' := hd
  obtain ⟨y0, y1, -, -⟩ := (dayNumber_iff hE).mp hd'
  obtain ⟨k, hk1⟩ : ∃ k, IsDay (Cal.init A) (.short f.guessYear 1 1) k := ⟨_, first_day hE y0 y1⟩
  have hq : (Cal.init A).fromJulian f.guessYear f.month f.day none = .ok (f.guessYear, f.month, f.day) := by
    unfold Cal.fromJulian
    simp only
    rw [newDate_ok hE hd, pyOk_bind, toOrdinal_ok hE hO hd, pyOk_bind, newDate_ok hE hk1, pyOk_bind, toOrdinal_ok hE hO hk1,
      pyOk_bind]
  have hw : (Cal.init A).missingWeekday f f.guessYear f.month f.day = .ok () := by
    unfold Cal.missingWeekday
    split_ifs
    · rw [newDate_ok hE hd, pyOk_bind, weekday_ok hE hO hd, pyOk_bind]
    · rfl
  obtain ⟨z, -, this⟩ := hx _ _ hr hq hw
  obtain ⟨c0, c1, c2, c3, c4, c5⟩ := clock_range hg hf
  obtain ⟨f0, f1⟩ := fraction_range hg hf
  rw [newDT_ok hE (x := ⟨.short f.guessYear f.month f.day, f.hour, f.minute, f.second, f.fraction, z, 0⟩) ⟨hd, by
    constructor <;> simp [DT.timetz] <;> omega⟩] at this
  cases this

/-! ## Directives that come twice -/

theorem compile_of_follows {fmt s : Str} {g : List (Char × Str)} (h : Follows fmt s g) :
    ∀ b, ∃ ps, compileFmt b fmt = some (.ok ps) ∧ groupNames ps = g.map Prod.fst := by
  have lift : ∀ {o : Option (Py (List Piece))} {ps : List Piece} (p : Piece), o = some (.ok ps) →
      o.map (·.map (p :: ·)) = some (.ok (p :: ps)) := by
    rintro o ps p rfl; rfl
  induction h with
  | nil => intro b; exact ⟨[], by cases b <;> rfl, rfl⟩
  | percent _ ih =>
    intro b
    obtain ⟨ps, h1, h2⟩ := ih false
    refine ⟨.lit '%' :: ps, ?_, by simpa [groupNames] using h2⟩
    rw [compileFmt, if_pos rfl]
    exact lift _ h1
  | @dir c v f s g hd _ ih =>
    intro b
    obtain ⟨ps, h1, h2⟩ := ih false
    refine ⟨.dir c :: ps, ?_, by simp [groupNames, h2]⟩
    have hc : c ≠ '%' ∧ inSet "cxXZ" c = false ∧ (altsOf c).isNone = false := by
      unfold DirText at hd
      split at hd <;> first | exact hd.elim | decide
    rw [compileFmt, if_neg hc.1, hc.2.1, hc.2.2]
    simp only [Bool.false_eq_true, if_false]
    exact lift _ h1
  | @char c x f s g hp hs _ _ ih =>
    intro b
    obtain ⟨ps, h1, h2⟩ := ih false
    refine ⟨.lit c :: ps, ?_, by simpa [groupNames] using h2⟩
    rw [compileFmt.eq_def]
    split
    · rename_i e; cases e
    · rename_i e; injection e with e; exact absurd e hp
    · rename_i e; injection e with e; exact absurd e hp
    · rename_i e
      injection e with e1 e2
      subst e1 e2
      rw [hs]
      simp only [Bool.false_eq_true, if_false]
      exact lift _ h1
  | @spaces a b' f s g ha _ hA _ _ ih =>
    clear ha
    induction a with
    | nil => intro b; exact ih b
    | cons c a iha =>
      intro b
      have hc : isSpaceC c = true := hA c (by simp)
      have hp : c ≠ '%' := by rintro rfl; exact absurd hc (by decide)
      obtain ⟨ps, h1, h2⟩ := iha (fun x hx => hA x (by simp [hx])) true
      rw [List.cons_append, compileFmt.eq_def]
      split
      · rename_i e; cases e
      · rename_i e; injection e with e; exact absurd e hp
      · rename_i e; injection e with e; exact absurd e hp
      · rename_i e
        injection e with e1 e2
        subst e1 e2
        rw [if_pos hc]
        split_ifs
        · exact ⟨ps, h1, h2⟩
        · exact ⟨.space :: ps, lift _ h1, by simpa [groupNames] using h2⟩

/-- C112 is false for formats with the same directive twice: a text that follows such a format is refused, with an exception
of the module `re` that is no ValueError. -/
theorem C112_twice_negation (C : Cal) (s fmt : Str) (fresh : ℕ) (g : List (Char × Str)) (h : Follows fmt s g)
    (ht : ¬ (g.map Prod.fst).Nodup) : C.strptimeFull s fmt fresh = some .reError := by
  obtain ⟨ps, h1, h2⟩ := compile_of_follows h false
  unfold Cal.strptimeFull
  rw [h1]
  simp only
  rw [if_neg (by rw [h2]; exact ht)]

/-- For texts that follow their format, with no directive twice, the outcome is that of the model without `re.error`. -/
theorem C112_once (C : Cal) (s fmt : Str) (fresh : ℕ) (g : List (Char × Str)) (h : Follows fmt s g)
    (ht : (g.map Prod.fst).Nodup) : C.strptimeFull s fmt fresh = (C.strptime s fmt fresh).map StrpOut.of := by
  obtain ⟨ps, h1, h2⟩ := compile_of_follows h false
  unfold Cal.strptimeFull
  rw [h1]
  simp only
  rw [if_pos (by rw [h2]; exact ht)]

/-- An exception in the reading of the date is the exception of the call. -/
theorem full_err {C : Cal} {s fmt : Str} {fresh : ℕ} {ps : List Piece} {g : List (Char × Str)} {f : Found} {e : PyErr}
    (hc : compileFmt false fmt = some (.ok ps)) (hn : (groupNames ps).Nodup) (hg : findRegex s ps = .ok g)
    (hf : parseFound g = .ok f) (hk : checkIsoWeek f = .ok ())
    (hx : C.fromWeeks f = .error e ∨ ∃ r, C.fromWeeks f = .ok r ∧ C.fromJulian r.1 r.2.1 r.2.2.1 r.2.2.2 = .error e) :
    C.strptimeFull s fmt fresh = some (.err e) := by
  unfold Cal.strptimeFull Cal.strptime
  rw [hc]
  simp only
  rw [if_pos hn, hg, pyOk_bind]
  unfold Cal.strptimeFound
  rw [hf, pyOk_bind, hk, pyOk_bind]
  rcases hx with hx | ⟨r, hr, hx⟩
  · rw [hx]; rfl
  · rw [hr, pyOk_bind, hx]; rfl

/-- C112 is false for years outside of the era: at every calendar, AssertionError. -/
theorem C112_year_negation (C : Cal) (fresh : ℕ) :
    C.strptimeFull "9999-01-01".toList "%Y-%m-%d".toList fresh = some (.err .assertion) := by
  refine full_err (ps := [.dir 'Y', .lit '-', .dir 'm', .lit '-', .dir 'd'])
    (g := [('Y', "9999".toList), ('m', "01".toList), ('d', "01".toList)])
    (f := { year := some 9999, month := 1, day := 1 }) (by decide +kernel) (by decide) (by decide +kernel) (by decide +kernel)
    (by decide) (Or.inr ⟨(9999, 1, 1, none), rfl, ?_⟩)
  show C.fromJulian 9999 1 1 none = _
  unfold Cal.fromJulian
  simp only
  rw [newDate_short_out (by omega), pyErr_bind]

/-- C112 is false for the fifth day of Ayyám-i-Há in a year that has four: AssertionError. -/
theorem C112_date_negation (A : Astro) (hE : TehranEvening A) (fresh : ℕ) :
    (Cal.init A).strptimeFull "0181-00-05".toList "%Y-%m-%d".toList fresh = some (.err .assertion) := by
  refine full_err (ps := [.dir 'Y', .lit '-', .dir 'm', .lit '-', .dir 'd'])
    (g := [('Y', "0181".toList), ('m', "00".toList), ('d', "05".toList)])
    (f := { year := some 181, month := 0, day := 5 }) (by decide +kernel) (by decide) (by decide +kernel) (by decide +kernel)
    (by decide) (Or.inr ⟨(181, 0, 5, none), rfl, ?_⟩)
  show (Cal.init A).fromJulian 181 0 5 none = _
  unfold Cal.fromJulian
  simp only
  rcases newDate_kinds hE (y := 181) (m := 0) (d := 5) (by omega) (by omega) with ⟨n, hn⟩ | ⟨h, -⟩
  · obtain ⟨-, -, hv, -⟩ := (dayNumber_iff hE).mp hn
    have : leapOf 181 = false := by decide +kernel
    rw [this] at hv
    unfold ValidMD at hv
    simp at hv
  · rw [h, pyErr_bind]

/-- C112 is false for the days of the year after the last one: KeyError. -/
theorem C112_key_negation (A : Astro) (hE : TehranEvening A) (fresh : ℕ) :
    (Cal.init A).strptimeFull "1162-00-01".toList "%Y-%m-%d".toList fresh = some (.err .key) := by
  refine full_err (ps := [.dir 'Y', .lit '-', .dir 'm', .lit '-', .dir 'd'])
    (g := [('Y', "1162".toList), ('m', "00".toList), ('d', "01".toList)])
    (f := { year := some 1162, month := 0, day := 1 }) (by decide +kernel) (by decide) (by decide +kernel) (by decide +kernel)
    (by decide) (Or.inr ⟨(1162, 0, 1, none), rfl, ?_⟩)
  show (Cal.init A).fromJulian 1162 0 1 none = _
  unfold Cal.fromJulian
  simp only
  have hl : (Cal.init A).isLeapYear 1162 = .error .key := by
    unfold Cal.isLeapYear
    rw [init_yearStart hE, if_neg (by omega)]
  rw [newDate_short (by omega), checkTail_key hl]
  rfl

/-- C112 is false with the ISO week and the weekday 7: AssertionError. -/
theorem C112_iso_negation (A : Astro) (hE : TehranEvening A) (hO : NewYearOrder (Cal.init A)) (fresh : ℕ) :
    (Cal.init A).strptimeFull "0182/01/7".toList "%G/%V/%u".toList fresh = some (.err .assertion) := by
  refine full_err (ps := [.dir 'G', .lit '/', .dir 'V', .lit '/', .dir 'u'])
    (g := [('G', "0182".toList), ('V', "01".toList), ('u', "7".toList)])
    (f := { isoYear := some 182, isoWeek := some 1, weekday := some 7 }) (by decide +kernel) (by decide) (by decide +kernel)
    (by decide +kernel) (by decide) (Or.inl ?_)
  unfold Cal.fromWeeks
  simp only
  rw [fromIso_day hE hO true (by omega) (by omega) (by omega), pyErr_bind]

/-- C112 is false for the second leap second, which `%S` admits: AssertionError. -/
theorem C112_second_negation (A : Astro) (hE : TehranEvening A) (hO : NewYearOrder (Cal.init A)) (fresh : ℕ) :
    (Cal.init A).strptimeFull "0182-01-01 61".toList "%Y-%m-%d %S".toList fresh = some (.err .assertion) := by
  have hc : compileFmt false "%Y-%m-%d %S".toList =
      some (.ok [.dir 'Y', .lit '-', .dir 'm', .lit '-', .dir 'd', .space, .dir 'S']) := by decide +kernel
  have hg : findRegex "0182-01-01 61".toList [.dir 'Y', .lit '-', .dir 'm', .lit '-', .dir 'd', .space, .dir 'S'] =
      .ok [('Y', "0182".toList), ('m', "01".toList), ('d', "01".toList), ('S', "61".toList)] := by decide +kernel
  have hf : parseFound [('Y', "0182".toList), ('m', "01".toList), ('d', "01".toList), ('S', "61".toList)] =
      .ok { year := some 182, month := 1, day := 1, second := 61 } := by decide +kernel
  have hd : IsDay (Cal.init A) (.short 182 1 1) _ := first_day hE (y := 182) (by omega) (by omega)
  unfold Cal.strptimeFull Cal.strptime
  rw [hc]
  simp only
  rw [if_pos (by decide), hg, pyOk_bind]
  unfold Cal.strptimeFound
  rw [hf, pyOk_bind, show checkIsoWeek _ = .ok () from rfl, pyOk_bind,
    show (Cal.init A).fromWeeks _ = .ok (182, 1, 1, none) from rfl, pyOk_bind]
  simp only
  have hq : (Cal.init A).fromJulian 182 1 1 none = .ok (182, 1, 1) := by
    unfold Cal.fromJulian
    simp only
    rw [newDate_ok hE hd, pyOk_bind, toOrdinal_ok hE hO hd, pyOk_bind, pyOk_bind, toOrdinal_ok hE hO hd, pyOk_bind]
  rw [hq, pyOk_bind]
  unfold Cal.missingWeekday
  simp only [if_true]
  rw [newDate_ok hE hd, pyOk_bind, weekday_ok hE hO hd, pyOk_bind, pyOk_bind,
    show Found.zone fresh _ = .ok none from rfl, pyOk_bind]
  unfold Cal.newDT
  simp only
  rw [newDate_ok hE hd, pyOk_bind]
  rfl

/-! ## The hypotheses are met -/

example : ∃ e, (Cal.init newYearSun).strptimeFull "0181-00-05".toList "%Y-%m-%d".toList = some (.err e) :=
  ⟨_, C112_date_negation newYearSun newYearSun_tehran 2⟩

example : (Cal.init newYearSun).strptimeFull "0182-00-05x".toList "%Y-%m-%d".toList = some (.err .value) := by decide +kernel

example : ∃ g, Follows "%d %d".toList "1 2".toList g ∧ ¬ (g.map Prod.fst).Nodup := by
  have h : ∀ n v, v ∈ ["1".toList, "2".toList] → intOf v = .ok n → 1 ≤ n ∧ n ≤ 19 → DirText 'd' v := by
    intro n v hv e hn
    left
    simp only [List.mem_cons, List.not_mem_nil, or_false] at hv
    rcases hv with rfl | rfl <;> exact ⟨by decide, by decide, by decide, n, e, hn.1, hn.2⟩
  refine ⟨[('d', "1".toList), ('d', "2".toList)], ?_, by decide⟩
  exact Follows.dir (h 1 "1".toList (by decide) (by decide +kernel) (by omega)) (Follows.spaces (a := [' ']) (b := [' ']) (by decide)
    (by decide) (by decide) (by decide) (Follows.dir (s := []) (h 2 "2".toList (by decide) (by decide +kernel) (by omega)) Follows.nil))

example : ∃ g, Follows "%S".toList "59".toList g ∧ (g.map Prod.fst).Nodup := by
  have hn : NumText 2 0 61 "59".toList := ⟨by decide, by decide, by decide, 59, by decide +kernel, by norm_num, by norm_num⟩
  exact ⟨_, Follows.dir (c := 'S') (v := "59".toList) (f := []) (s := []) (g := []) hn Follows.nil, by decide⟩

end Verif
