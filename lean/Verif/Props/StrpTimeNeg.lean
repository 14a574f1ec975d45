import Verif.Props.StrpTime

/-!
# C39: where `strptime` does not invert `strftime`
-/

namespace Verif

theorem reads_iso (y : ℕ) (neg : Bool) :
    readsB ((altsOf 'G').getD []) ((if neg then ['-'] else []) ++ digitsW 4 y) = true := by
  have e : (altsOf 'G').getD [] = [(· == '-') :: List.replicate 4 isDig, List.replicate 4 isDig] := rfl
  rw [e]
  cases neg with
  | true =>
    simp only [if_true, readsB, List.cons_append, exactB, List.nil_append]
    simp [List.replicate, exactB, digitsW, isDig_dg]
  | false =>
    have hm : (dg (y / 10 ^ 3) == '-') = false := by
      rw [beq_eq_false_iff_ne]; exact dg_ne _ _ (by decide)
    simp only [digitsW, List.nil_append, Bool.false_eq_true,
      if_false, readsB, clashB, hm, exactB, List.replicate, isDig_dg]
    simp

theorem reads_week :
    (∀ k < 54, 1 ≤ k → readsB ((altsOf 'V').getD []) (digitsW 2 k) = true) ∧
    (∀ k < 8, 1 ≤ k → readsB ((altsOf 'u').getD []) (digitsW 1 k) = true) := by
  refine ⟨?_, ?_⟩ <;> decide +kernel

theorem strptime_eq {C : Cal} {s f : Str} {ps : List Piece} (h : compileFmt false f = some (.ok ps)) :
    C.strptime s f = some (findRegex s ps >>= C.strptimeFound) := by
  unfold Cal.strptime
  rw [h]

/-- `%G/%V/%u` -/
def isoWeekFormat : List Tok := [.dir 'G' none, .lit '/', .dir 'V' none, .lit '/', .dir 'u' none]

theorem padInt_read {w : ℕ} {n : ℤ} (hw : 0 < w) (h0 : 0 ≤ n) (h1 : n.toNat < 10 ^ w) :
    padInt w n = digitsW w n.toNat ∧ intOf (padInt w n) = .ok n := by
  have e : padInt w n = digitsW w n.toNat := by
    have := padInt_nat (w := w) (n := n.toNat) hw h1
    rwa [Int.toNat_of_nonneg h0] at this
  exact ⟨e, by rw [e, intOf_digits hw h1, Int.toNat_of_nonneg h0]⟩

/-- The day that `fromisocalendar` makes has the weekday that was asked for, and weekday 8 is refused. -/
theorem fromIso_weekday {A : Astro} (hE : TehranEvening A) (hO : NewYearOrder (Cal.init A)) {y w d : ℤ} {o : DateObj}
    (h0 : -1842 ≤ y) (h1 : y ≤ 1160) (hw0 : 1 ≤ w) (hw1 : w ≤ 53)
    (h : (Cal.init A).fromIsoCalendar y w d true = .ok o) :
    ∃ k, IsDay (Cal.init A) o k ∧ o.isShort = true ∧ (k + 1) % 7 + 1 = d := by
  have hd : 1 ≤ d ∧ d ≤ 7 := by
    by_contra hc
    rw [fromIso_day hE hO true (by omega) (by omega) (by omega)] at h
    cases h
  have w1 : week1 y ≤ ysInt y + 3 ∧ ysInt y - 3 ≤ week1 y ∧ week1 y % 7 = 6 := by unfold week1; omega
  have lo : 78 ≤ ysInt y := by
    have := ysInt_mono (a := -1842) (b := y) (by omega) h0 (by omega)
    rw [ysInt_m1842] at this; omega
  have hi : ysInt y + 365 ≤ 1096902 := by
    have a := ysInt_mono (a := y + 1) (b := 1161) (by omega) (by omega) (by omega)
    have b := leapOf_len (y := y) (by omega) (by omega)
    rw [ysInt_1161] at a
    split_ifs at b <;> omega
  have fin : ∀ k : ℤ, k = week1 y + (w - 1) * 7 + (d - 1) ∨ (k = week1 y + 52 * 7 + (d - 1)) →
      (Cal.init A).fromOrdinal k true = .ok o →
      ∃ k, IsDay (Cal.init A) o k ∧ o.isShort = true ∧ (k + 1) % 7 + 1 = d := by
    intro k hk hr
    obtain ⟨a, b, -⟩ := fromOrdinal_inv hE (by omega) (by omega) hr
    exact ⟨k, a, b, by omega⟩
  by_cases hw : (1 ≤ w ∧ w ≤ 51) ∨ ¬ ((ysInt y + 1) % 7 = 2 ∨ (ysInt y + 1) % 7 = 3)
  · rw [fromIso_ok hE hO true (by omega) (by omega) hd.1 hd.2 hw] at h
    exact fin _ (Or.inl rfl) h
  · by_cases h52 : w = 52
    · subst h52
      rw [fromIso_52 hE hO true (by omega) (by omega) hd.1 hd.2 (by tauto)] at h
      exact fin _ (Or.inr rfl) h
    · rw [fromIso_err hE hO true (by omega) (by omega) (by omega) (by tauto)] at h
      cases h

/-- C39 is false for the ISO week formats: of no date from MINYEAR to year 1160 does `strptime` give back the date from
the text that `strftime` gives for `%G/%V/%u`. (`%u` counts the days of the week from 1 and is read as if it counted from 0;
besides, `%G` gives the year of the date and not the ISO year.) -/
theorem C39_iso_negation (A : Astro) (hE : TehranEvening A) (hO : NewYearOrder (Cal.init A)) (other : Directives)
    (y m d h mi s us n : ℤ) (hx : IsDT (Cal.init A) ⟨.short y m d, h, mi, s, us, none, 0⟩ n) (hy : -1842 ≤ y)
    (hy1 : y ≤ 1160) :
    ∃ text r, (Cal.init A).dtStrftime other y m d h mi s us "%G/%V/%u".toList = .ok text ∧
      (Cal.init A).strptime text "%G/%V/%u".toList = some r ∧ ∀ x, r = .ok x → x.d ≠ .short y m d := by
  have hd : DayNumber (Cal.init A) y m d n := hx.day
  obtain ⟨h0, h1, mi0, mi1, s0, s1, us0, us1, -⟩ := hx.time
  unfold DT.timetz at h0 h1 mi0 mi1 s0 s1 us0 us1
  simp only at h0 h1 mi0 mi1 s0 s1 us0 us1
  obtain ⟨hb, hok, hck⟩ := buildStruct_24 hE hO hd hy ⟨h0, h1⟩ ⟨mi0, mi1⟩ ⟨s0, s1⟩
    ⟨us0, (by omega : us < 1000000)⟩
  obtain ⟨Y, hw, -, -, w0, w1, -⟩ := yearWeekDay_ok hE hO hd hy
  have hW0 : 1 ≤ (n - week1 Y) / 7 + 1 := by omega
  have hW1 : (n - week1 Y) / 7 + 1 ≤ 53 := by omega
  generalize (n - week1 Y) / 7 + 1 = W at hw hW0 hW1
  have hu0 : 0 ≤ (n + 1) % 7 := by omega
  have hu1 : (n + 1) % 7 ≤ 6 := by omega
  obtain ⟨a1, a2⟩ := padInt_read (w := 2) (n := W) (by norm_num) (by omega) (by norm_num; omega)
  obtain ⟨b1, b2⟩ := padInt_read (w := 1) (n := (n + 1) % 7 + 1) (by norm_num) (by omega) (by norm_num; omega)
  have hcomp : compileFmt false "%G/%V/%u".toList = some (.ok [.dir 'G', .lit '/', .dir 'V', .lit '/', .dir 'u']) := by
    decide
  refine ⟨signedYear y ++ '/' :: (padInt 2 W ++ '/' :: (padInt 1 ((n + 1) % 7 + 1) ++ [])), _, ?_, strptime_eq hcomp, ?_⟩
  · rw [dtStrftime_eq (us := us) hb hck (ts := isoWeekFormat) rfl (by decide) (by
      intro t ht
      simp only [isoWeekFormat, List.mem_cons, List.not_mem_nil, or_false] at ht
      rcases ht with rfl | rfl | rfl | rfl | rfl <;> simp [Tok.Documented]) (by decide) (by
      intro a b ha hb; simp [isoWeekFormat] at ha hb; subst ha hb; decide)]
    have hV : (Cal.init A).directives other ⟨true, 0, 0, y, m, d, h, mi, s, (n + 1) % 7, n - ysInt y + 1⟩ 'V' none =
        .ok (padInt 2 W) := by
      change ((Cal.init A).yearWeekDay y m d >>= fun w => Except.ok (padInt 2 w.2.1)) = _
      rw [hw, pyOk_bind]
    simp only [isoWeekFormat, tokValues, Tok.value]
    rw [hV]
    rfl
  · intro x hr
    have m1 : (matchAll [] []).head? = some (([] : List (Char × Str)), ([] : Str)) := rfl
    have m2 := matchAll_dir (c := 'u') (v := padInt 1 ((n + 1) % 7 + 1)) (by rw [b1]; exact reads_week.2 _ (by omega) (by omega)) m1
    have m3 := matchAll_dir (c := 'V') (v := padInt 2 W) (by rw [a1]; exact reads_week.1 _ (by omega) (by omega))
      (matchAll_lit (c := '/') m2)
    have m4 := matchAll_dir (c := 'G') (v := signedYear y) (by
      rw [signedYear_eq hy (by omega)]; exact reads_iso _ _) (matchAll_lit (c := '/') m3)
    unfold findRegex at hr
    rw [m4] at hr
    simp only [if_true] at hr
    rw [pyOk_bind] at hr
    unfold Cal.strptimeFound parseFound at hr
    have hpf : List.foldlM setGroup {} [('G', signedYear y), ('V', padInt 2 W), ('u', padInt 1 ((n + 1) % 7 + 1))] =
        Except.ok { isoYear := some y, isoWeek := some W, weekday := some ((n + 1) % 7 + 1) : Found } := by
      rw [List.foldlM_cons, show setGroup {} ('G', signedYear y) = Except.ok { isoYear := some y : Found } by
          change (intOf (signedYear y)).map _ = _; rw [intOf_signedYear hy (by omega)]; rfl, pyOk_bind,
        List.foldlM_cons, show ∀ f, setGroup f ('V', padInt 2 W) = Except.ok { f with isoWeek := some W } by
          intro f; change (intOf (padInt 2 W)).map _ = _; rw [a2]; rfl, pyOk_bind,
        List.foldlM_cons, show ∀ f, setGroup f ('u', padInt 1 ((n + 1) % 7 + 1)) =
            Except.ok { f with weekday := some ((n + 1) % 7 + 1) } by
          intro f; change (intOf (padInt 1 ((n + 1) % 7 + 1))).map _ = _; rw [b2]; rfl, pyOk_bind]
      rfl
    rw [show ampmOf [('G', signedYear y), ('V', padInt 2 W), ('u', padInt 1 ((n + 1) % 7 + 1))] = [] from rfl, hpf, pyOk_bind,
      show checkIsoWeek { isoYear := some y, isoWeek := some W, weekday := some ((n + 1) % 7 + 1) } = .ok ()
      from rfl, pyOk_bind] at hr
    unfold Cal.fromWeeks at hr
    simp only at hr
    cases hi : (Cal.init A).fromIsoCalendar y W ((n + 1) % 7 + 1 + 1) true with
    | error e => rw [hi] at hr; cases hr
    | ok o =>
      obtain ⟨k, ho, hs, hk⟩ := fromIso_weekday hE hO hy hy1 hW0 hW1 hi
      cases o with
      | long => cases hs
      | short y' m' d' =>
        have hd' : DayNumber (Cal.init A) y' m' d' k := ho
        rw [hi, pyOk_bind, pyOk_bind] at hr
        have hfirst : IsDay (Cal.init A) (.short y' 1 1) (ysInt y') := by
          obtain ⟨c0, c1, -, -⟩ := (dayNumber_iff hE).mp hd'
          exact (dayNumber_iff hE).mpr ⟨c0, c1, Or.inl ⟨by omega, by omega, by omega, by omega⟩, by simp [dBefore]⟩
        have hfj : (Cal.init A).fromJulian y' m' d' none = .ok (y', m', d') := by
          unfold Cal.fromJulian
          simp only
          rw [newDate_ok hE ho, pyOk_bind, toOrdinal_ok hE hO ho, pyOk_bind,
            newDate_ok hE hfirst, pyOk_bind, toOrdinal_ok hE hO hfirst, pyOk_bind]
        simp only [DateObj.ymd] at hr
        rw [hfj, pyOk_bind] at hr
        have hmw : (Cal.init A).missingWeekday
            { isoYear := some y, isoWeek := some W, weekday := some ((n + 1) % 7 + 1) } y' m' d' = .ok () := by
          unfold Cal.missingWeekday
          rw [if_neg (by simp)]
        rw [hmw, pyOk_bind, show Found.zone 2 { isoYear := some y, isoWeek := some W, weekday := some ((n + 1) % 7 + 1) } = .ok none
          from rfl, pyOk_bind] at hr
        obtain ⟨rfl, -⟩ := newDT_inv hr
        intro hc
        simp only [DateObj.short.injEq] at hc
        obtain ⟨rfl, rfl, rfl⟩ := hc
        have e1 := ((dayNumber_iff hE).mp hd).2.2.2
        have e2 := ((dayNumber_iff hE).mp hd').2.2.2
        omega

example : IsDT (Cal.init newYearSun) ⟨.short 182 0 5, 7, 30, 0, 0, none, 0⟩ 739675 :=
  ⟨witness_days.1, by constructor <;> decide⟩

/-- What `strptime` does after the matching for a text with a year, a month, a day and perhaps a fraction. -/
theorem strptimeFound_ymd {A : Astro} (hE : TehranEvening A) (hO : NewYearOrder (Cal.init A)) {gs : List (Char × Str)}
    {y m d us n : ℤ} (hf : List.foldlM setGroup {} gs = Except.ok { year := some y, month := m, day := d, fraction := us : Found })
    (hd : DayNumber (Cal.init A) y m d n) (hu : 0 ≤ us ∧ us ≤ 999999) (hp : ampmOf gs = [] := by rfl) :
    (Cal.init A).strptimeFound gs = .ok ⟨.short y m d, 0, 0, 0, us, none, 0⟩ := by
  have hday : IsDay (Cal.init A) (.short y m d) n := hd
  obtain ⟨y0, y1, -, -⟩ := (dayNumber_iff hE).mp hd
  have hfirst : IsDay (Cal.init A) (.short y 1 1) (ysInt y) :=
    (dayNumber_iff hE).mpr ⟨y0, y1, Or.inl ⟨by omega, by omega, by omega, by omega⟩, by simp [dBefore]⟩
  unfold Cal.strptimeFound parseFound
  rw [hp, hf, pyOk_bind, show checkIsoWeek { year := some y, month := m, day := d, fraction := us } = .ok () from rfl, pyOk_bind,
    show (Cal.init A).fromWeeks { year := some y, month := m, day := d, fraction := us } = .ok (y, m, d, none) from rfl, pyOk_bind]
  have hfj : (Cal.init A).fromJulian y m d none = .ok (y, m, d) := by
    unfold Cal.fromJulian
    simp only
    rw [newDate_ok hE hday, pyOk_bind, toOrdinal_ok hE hO hday, pyOk_bind,
      newDate_ok hE hfirst, pyOk_bind, toOrdinal_ok hE hO hfirst, pyOk_bind]
  rw [hfj, pyOk_bind]
  have hmw : (Cal.init A).missingWeekday { year := some y, month := m, day := d, fraction := us } y m d = .ok () := by
    unfold Cal.missingWeekday
    rw [if_pos rfl, newDate_ok hE hday, pyOk_bind]
    unfold Cal.weekday
    rw [show (Cal.init A).dateShort (.short y m d) = .ok (y, m, d) from rfl, pyOk_bind]
    simp only
    rw [dayOfWeek_ok hE hO hd]
    rfl
  rw [hmw, pyOk_bind, show Found.zone 2 { year := some y, month := m, day := d, fraction := us } = .ok none from rfl, pyOk_bind]
  exact newDT_ok hE (n := n) ⟨hd, by constructor <;> simp [DT.timetz] <;> omega⟩

/-- `%Y/%b/%d` -/
def abbrFormat : List Tok := [.dir 'Y' none, .lit '/', .dir 'b' none, .lit '/', .dir 'd' none]

/-- C39 is false for `%b` in month 15, whose abbreviation is also that of month 11: every date of month 15 comes back
as the date with the same day in month 11. -/
theorem C39_abbreviation_negation (A : Astro) (hE : TehranEvening A) (hO : NewYearOrder (Cal.init A)) (other : Directives)
    (y d n : ℤ) (hx : IsDT (Cal.init A) ⟨.short y 15 d, 0, 0, 0, 0, none, 0⟩ n) (hy : -1842 ≤ y) :
    ∃ text, (Cal.init A).dtStrftime other y 15 d 0 0 0 0 "%Y/%b/%d".toList = .ok text ∧
      (Cal.init A).strptime text "%Y/%b/%d".toList = some (.ok ⟨.short y 11 d, 0, 0, 0, 0, none, 0⟩) := by
  have hd : DayNumber (Cal.init A) y 15 d n := hx.day
  obtain ⟨hb, hok, hck⟩ := buildStruct_24 hE hO hd hy (h := 0) (mi := 0) (s := 0) (us := 0) ⟨by omega, by omega⟩
    ⟨by omega, by omega⟩ ⟨by omega, by omega⟩ ⟨by omega, by omega⟩
  obtain ⟨y0, y1, hv, hn⟩ := (dayNumber_iff hE).mp hd
  have hd0 : 1 ≤ d ∧ d ≤ 19 := hok.d
  obtain ⟨b1, b2⟩ := padInt_read (w := 2) (n := d) (by norm_num) (by omega) (by norm_num; omega)
  have hcomp : compileFmt false "%Y/%b/%d".toList = some (.ok [.dir 'Y', .lit '/', .dir 'b', .lit '/', .dir 'd']) := by
    decide
  refine ⟨signedYear y ++ '/' :: (['M', 'a', 's'] ++ '/' :: (padInt 2 d ++ [])), ?_, ?_⟩
  · rw [dtStrftime_eq (us := 0) hb hck (ts := abbrFormat) rfl (by decide) (by
      intro t ht
      simp only [abbrFormat, List.mem_cons, List.not_mem_nil, or_false] at ht
      rcases ht with rfl | rfl | rfl | rfl | rfl <;> simp [Tok.Documented]) (by decide) (by
      intro a b ha hb; simp [abbrFormat] at ha hb; subst ha hb; decide)]
    have h15 : nameAt monthAbbrs 15 = ['M', 'a', 's'] := by decide
    have hB : (Cal.init A).directives other ⟨true, 0, 0, y, 15, d, 0, 0, 0, (n + 1) % 7, n - ysInt y + 1⟩ 'b' none =
        .ok (nameAt monthAbbrs 15) := rfl
    simp only [abbrFormat, tokValues, Tok.value]
    rw [hB, h15]
    rfl
  · rw [strptime_eq hcomp]
    have m1 : (matchAll [] []).head? = some (([] : List (Char × Str)), ([] : Str)) := rfl
    have f1 := field_facts hok (c := 'd') (by decide) (by simp)
    have f3 := field_facts hok (c := 'Y') (by decide) (by simp)
    have m2 := matchAll_dir f1.1 m1
    have m3 := matchAll_dir (c := 'b') (v := ['M', 'a', 's']) (by decide +kernel) (matchAll_lit (c := '/') m2)
    have m4 : (matchAll [.dir 'Y', .lit '/', .dir 'b', .lit '/', .dir 'd']
        (signedYear y ++ '/' :: (['M', 'a', 's'] ++ '/' :: (padInt 2 d ++ [])))).head? =
        some ([('Y', signedYear y), ('b', ['M', 'a', 's']), ('d', padInt 2 d)], []) :=
      matchAll_dir f3.1 (matchAll_lit (c := '/') m3)
    unfold findRegex
    rw [m4]
    simp only [if_true]
    rw [pyOk_bind]
    have hpf : List.foldlM setGroup {} [('Y', signedYear y), ('b', ['M', 'a', 's']), ('d', padInt 2 d)] =
        Except.ok { year := some y, month := 11, day := d, fraction := 0 : Found } := by
      rw [List.foldlM_cons, show setGroup {} ('Y', signedYear y) = Except.ok { year := some y : Found } by
          change (intOf (signedYear y)).map _ = _; rw [intOf_signedYear hy (by omega)]; rfl, pyOk_bind,
        List.foldlM_cons, show ∀ f, setGroup f ('b', ['M', 'a', 's']) = Except.ok { f with month := 11 } by
          intro f
          have hi : nameIndex monthAbbrs ['M', 'a', 's'] = .ok 11 := by decide +kernel
          change (nameIndex monthAbbrs ['M', 'a', 's']).map (fun n => { f with month := n }) = _
          rw [hi]; rfl, pyOk_bind,
        List.foldlM_cons, show ∀ f, setGroup f ('d', padInt 2 d) = Except.ok { f with day := d } by
          intro f; change (intOf (padInt 2 d)).map _ = _; rw [b2]; rfl, pyOk_bind]
      rfl
    rw [strptimeFound_ymd hE hO hpf (n := n - 76) ((dayNumber_iff hE).mpr ⟨y0, y1, Or.inl ⟨by omega, by omega, by omega, by omega⟩, by
      rw [hn]; simp [dBefore]; ring⟩) (by omega)]

example : IsDT (Cal.init newYearSun) ⟨.short 182 15 5, 0, 0, 0, 0, none, 0⟩ (ysInt 182 + 14 * 19 + 4) :=
  ⟨(dayNumber_iff newYearSun_tehran).mpr ⟨by omega, by omega, Or.inl ⟨by omega, by omega, by omega, by omega⟩, by
    simp [dBefore]; ring⟩, by constructor <;> decide⟩

/-- A literal after a literal dash or colon is lost. -/
theorem formatLoop_lost {dir : Directives} {c p : Char} (h : c ≠ '%') (hp : inSet "%-:" p = true) (rest : Str) :
    formatLoop dir p (c :: rest) = formatLoop dir c rest := by
  rw [formatLoop, if_neg (by tauto)]
  cases formatLoop dir c rest with
  | error e => rfl
  | ok r => simp only [hp, if_true]

theorem formatLoop_digits (dir : Directives) (n : ℕ) : ∀ w, ∀ p, isDig p = true → formatLoop dir p (digitsW w n) = .ok (digitsW w n) := by
  intro w
  induction w with
  | zero => intro p _; rfl
  | succ w ih =>
    intro p hp
    have hp' : inSet "%-:" p = false := by
      rw [inSet_false]
      intro hc
      simp at hc
      rcases hc with rfl | rfl | rfl <;> revert hp <;> decide
    rw [digitsW, formatLoop_lit (dg_ne _ _ (by decide)) p hp', ih _ (isDig_dg _), pyOk_bind]

/-- `%Y/%m/%d:` -/
def fracFormat : List Tok := [.dir 'Y' none, .lit '/', .dir 'm' none, .lit '/', .dir 'd' none, .lit ':']

/-- C39 is false when `%f` follows a colon (or a dash): the first digit of the microseconds is lost, and what is left is
read as a fraction, ten times as large. -/
theorem C39_fraction_negation (A : Astro) (hE : TehranEvening A) (hO : NewYearOrder (Cal.init A)) (other : Directives)
    (y m d us n : ℤ) (hx : IsDT (Cal.init A) ⟨.short y m d, 0, 0, 0, us, none, 0⟩ n) (hy : -1842 ≤ y) :
    ∃ text, (Cal.init A).dtStrftime other y m d 0 0 0 us "%Y/%m/%d:%f".toList = .ok text ∧
      (Cal.init A).strptime text "%Y/%m/%d:%f".toList = some (.ok ⟨.short y m d, 0, 0, 0, us % 100000 * 10, none, 0⟩) := by
  have hd : DayNumber (Cal.init A) y m d n := hx.day
  obtain ⟨-, -, -, -, -, -, us0, us1, -⟩ := hx.time
  unfold DT.timetz at us0 us1
  simp only at us0 us1
  obtain ⟨hb, hok, hck⟩ := buildStruct_24 hE hO hd hy (h := 0) (mi := 0) (s := 0) (us := us) ⟨by omega, by omega⟩
    ⟨by omega, by omega⟩ ⟨by omega, by omega⟩ ⟨by omega, by omega⟩
  obtain ⟨a1, -⟩ := padInt_read (w := 6) (n := us) (by norm_num) (by omega) (by norm_num; omega)
  have hm0 : 0 ≤ m ∧ m ≤ 19 := hok.m
  have hd0 : 1 ≤ d ∧ d ≤ 19 := hok.d
  obtain ⟨b1, b2⟩ := padInt_read (w := 2) (n := d) (by norm_num) (by omega) (by norm_num; omega)
  obtain ⟨c1, c2⟩ := padInt_read (w := 2) (n := m) (by norm_num) (by omega) (by norm_num; omega)
  have hcomp : compileFmt false "%Y/%m/%d:%f".toList =
      some (.ok [.dir 'Y', .lit '/', .dir 'm', .lit '/', .dir 'd', .lit ':', .dir 'f']) := by decide
  have hsix : padInt 6 us = dg (us.toNat / 10 ^ 5) :: digitsW 5 us.toNat := by rw [a1]; rfl
  refine ⟨signedYear y ++ '/' :: (padInt 2 m ++ '/' :: (padInt 2 d ++ ':' :: (digitsW 5 us.toNat ++ []))), ?_, ?_⟩
  · unfold Cal.dtStrftime
    rw [hb, pyOk_bind]
    have hw : wrapFormat (padInt 6 us) "%Y/%m/%d:%f".toList = tokText fracFormat ++ padInt 6 us := by
      change "%Y/%m/%d:".toList ++ (padInt 6 us ++ []) = _
      rw [List.append_nil]
      rfl
    have hdoc : ∀ t ∈ fracFormat, t.Documented := by
      intro t ht
      simp only [fracFormat, List.mem_cons, List.not_mem_nil, or_false] at ht
      rcases ht with rfl | rfl | rfl | rfl | rfl | rfl <;> simp [Tok.Documented]
    have hdig : ∀ w (p : Char), checkLoop p (digitsW w us.toNat) = .ok () := by
      intro w
      induction w with
      | zero => intro p; rfl
      | succ w ih =>
        intro p
        rw [digitsW, checkLoop, if_neg (by
          rintro ⟨h, -⟩; exact dg_ne _ _ (by decide) h)]
        exact ih _
    have hcf : checkFormat (tokText fracFormat ++ padInt 6 us) = .ok () := by
      unfold checkFormat
      obtain ⟨p, hp⟩ := checkLoop_toks hdoc (lastChar (tokText fracFormat ++ padInt 6 us)) (padInt 6 us)
      rw [hp, a1, hdig]
      rfl
    unfold Cal.strftime
    rw [hw, hcf]
    simp only
    rw [hck, pyOk_bind, hsix]
    have step : ∀ (dir : Directives) (p : Char), formatLoop dir p (tokText fracFormat ++ (dg (us.toNat / 10 ^ 5) :: digitsW 5 us.toNat)) = (do
        let a ← dir 'Y' none
        let b ← dir 'm' none
        let c ← dir 'd' none
        .ok (a ++ '/' :: (b ++ '/' :: (c ++ ':' :: digitsW 5 us.toNat)))) := by
      intro dir p
      change formatLoop dir p ((Tok.dir 'Y' none).text ++ ('/' :: ((Tok.dir 'm' none).text ++ ('/' :: ((Tok.dir 'd' none).text ++
        (':' :: (dg (us.toNat / 10 ^ 5) :: digitsW 5 us.toNat))))))) = _
      rw [formatLoop_dir (hdoc _ (by decide)), formatLoop_lit (by decide) _ (by decide), formatLoop_dir (hdoc _ (by decide)),
        formatLoop_lit (by decide) _ (by decide), formatLoop_dir (hdoc _ (by decide)), formatLoop_lit (by decide) _ (by decide),
        formatLoop_lost (dg_ne _ _ (by decide)) (by decide), formatLoop_digits _ _ _ _ (isDig_dg _)]
      cases dir 'Y' none with
      | error e => rfl
      | ok a =>
        cases dir 'm' none with
        | error e => rfl
        | ok b =>
          cases dir 'd' none with
          | error e => rfl
          | ok c => rfl
    rw [step, List.append_nil]
    rfl
  · rw [strptime_eq hcomp]
    have m1 : (matchAll [.dir 'f'] (digitsW 5 us.toNat ++ [])).head? = some ([('f', digitsW 5 us.toNat)], []) := by
      have e : (altsOf 'f').getD [] = digitsUpTo 6 := rfl
      rw [matchAll, e]
      simp [digitsUpTo, digitsW, List.replicate, isDig_dg, afterPat, matchAll]
    have f1 := field_facts hok (c := 'd') (by decide) (by simp)
    have f2 := field_facts hok (c := 'm') (by decide) (by simp)
    have f3 := field_facts hok (c := 'Y') (by decide) (by simp)
    have m2 := matchAll_dir f1.1 (matchAll_lit (c := ':') m1)
    have m3 := matchAll_dir f2.1 (matchAll_lit (c := '/') m2)
    have m4 : (matchAll [.dir 'Y', .lit '/', .dir 'm', .lit '/', .dir 'd', .lit ':', .dir 'f']
        (signedYear y ++ '/' :: (padInt 2 m ++ '/' :: (padInt 2 d ++ ':' :: (digitsW 5 us.toNat ++ []))))).head? =
        some ([('Y', signedYear y), ('m', padInt 2 m), ('d', padInt 2 d), ('f', digitsW 5 us.toNat)], []) :=
      matchAll_dir f3.1 (matchAll_lit (c := '/') m3)
    unfold findRegex
    rw [m4]
    simp only [if_true]
    rw [pyOk_bind]
    have hfr : intOf (digitsW 5 us.toNat ++ List.replicate (6 - (digitsW 5 us.toNat).length) '0') =
        .ok (us % 100000 * 10) := by
      have e : digitsW 5 us.toNat ++ List.replicate (6 - (digitsW 5 us.toNat).length) '0' =
          digitsW 6 (us.toNat % 100000 * 10) := by
        rw [digitsW_length]
        have hdg : ∀ a b : ℕ, a % 10 = b % 10 → dg a = dg b := fun a b h => by unfold dg; rw [h]
        have z : '0' = dg (us.toNat % 100000 * 10 / 10 ^ 0) := by
          rw [hdg _ 0 (by omega)]; rfl
        have t : ∀ k ≤ 4, dg (us.toNat / 10 ^ k) = dg (us.toNat % 100000 * 10 / 10 ^ (k + 1)) := by
          intro k hk
          apply hdg
          interval_cases k <;> norm_num <;> omega
        simp only [digitsW, List.replicate, List.cons_append, List.nil_append]
        rw [t 4 (by omega), t 3 (by omega), t 2 (by omega), t 1 (by omega), t 0 (by omega), z]
      rw [e, intOf_digits (by norm_num) (by norm_num; omega)]
      congr 1
      omega
    have hpf : List.foldlM setGroup {} [('Y', signedYear y), ('m', padInt 2 m), ('d', padInt 2 d), ('f', digitsW 5 us.toNat)] =
        Except.ok { year := some y, month := m, day := d, fraction := us % 100000 * 10 : Found } := by
      rw [List.foldlM_cons, show setGroup {} ('Y', signedYear y) = Except.ok { year := some y : Found } by
          change (intOf (signedYear y)).map _ = _; rw [intOf_signedYear hy (by have := hok.y.2; simp only at this; omega)]; rfl, pyOk_bind,
        List.foldlM_cons, show ∀ f, setGroup f ('m', padInt 2 m) = Except.ok { f with month := m } by
          intro f; change (intOf (padInt 2 m)).map _ = _; rw [c2]; rfl, pyOk_bind,
        List.foldlM_cons, show ∀ f, setGroup f ('d', padInt 2 d) = Except.ok { f with day := d } by
          intro f; change (intOf (padInt 2 d)).map _ = _; rw [b2]; rfl, pyOk_bind,
        List.foldlM_cons, show ∀ f, setGroup f ('f', digitsW 5 us.toNat) = Except.ok { f with fraction := us % 100000 * 10 } by
          intro f
          change (intOf (digitsW 5 us.toNat ++ List.replicate (6 - (digitsW 5 us.toNat).length) '0')).map _ = _
          rw [hfr]; rfl, pyOk_bind]
      rfl
    rw [strptimeFound_ymd hE hO hpf hd (by omega)]

example : IsDT (Cal.init newYearSun) ⟨.short 182 0 5, 0, 0, 0, 123456, none, 0⟩ 739675 :=
  ⟨witness_days.1, by constructor <;> decide⟩

end Verif
