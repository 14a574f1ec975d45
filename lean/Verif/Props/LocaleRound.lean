import Verif.Props.LocaleTime
import Verif.Props.StrpTimeNeg

/-!
# Property C103: what `strptime` reads of the formats of the locale
-/

namespace Verif

/-! ## From the groups to the datetime -/

theorem found_clock {A : Astro} (hE : TehranEvening A) (hO : NewYearOrder (Cal.init A)) {gs : List (Char × Str)}
    {y m d h mi s n : ℤ} {w : Option ℤ}
    (hf : parseFound gs = .ok { year := some y, month := m, day := d, hour := h, minute := mi, second := s, weekday := w : Found })
    (hd : DayNumber (Cal.init A) y m d n) (ht : ValidTime (DT.timetz ⟨.short y m d, h, mi, s, 0, none, 0⟩)) (fresh : ℕ) :
    (Cal.init A).strptimeFound gs fresh = .ok ⟨.short y m d, h, mi, s, 0, none, 0⟩ := by
  have hday : IsDay (Cal.init A) (.short y m d) n := hd
  obtain ⟨y0, y1, -, -⟩ := (dayNumber_iff hE).mp hd
  have hfirst : IsDay (Cal.init A) (.short y 1 1) (ysInt y) :=
    (dayNumber_iff hE).mpr ⟨y0, y1, Or.inl ⟨by omega, by omega, by omega, by omega⟩, by simp [dBefore]⟩
  unfold Cal.strptimeFound
  rw [hf, pyOk_bind]
  generalize hF : ({ year := some y, month := m, day := d, hour := h, minute := mi, second := s, weekday := w } : Found) = f
  have e1 : checkIsoWeek f = .ok () := by rw [← hF]; rfl
  have e2 : (Cal.init A).fromWeeks f = .ok (y, m, d, none) := by rw [← hF]; cases w <;> rfl
  have e3 : (Cal.init A).fromJulian y m d none = .ok (y, m, d) := by
    unfold Cal.fromJulian
    simp only
    rw [newDate_ok hE hday, pyOk_bind, toOrdinal_ok hE hO hday, pyOk_bind,
      newDate_ok hE hfirst, pyOk_bind, toOrdinal_ok hE hO hfirst, pyOk_bind]
  have e4 : (Cal.init A).missingWeekday f y m d = .ok () := by
    unfold Cal.missingWeekday
    split_ifs
    · rw [newDate_ok hE hday, pyOk_bind]
      unfold Cal.weekday
      rw [show (Cal.init A).dateShort (.short y m d) = .ok (y, m, d) from rfl, pyOk_bind]
      simp only
      rw [dayOfWeek_ok hE hO hd]
      rfl
    · rfl
  have e5 : Found.zone fresh f = .ok none := by rw [← hF]; rfl
  rw [e1, pyOk_bind, e2, pyOk_bind]
  simp only
  rw [e3, pyOk_bind]
  simp only
  rw [e4, pyOk_bind, e5, pyOk_bind, ← hF]
  exact newDT_ok hE (n := n) ⟨hd, ht⟩

/-! ## `%c` -/

/-- The month that is read for the short name of a month: months 11 and 15 have the same one. -/
def monthRead (m : ℤ) : ℤ := if m = 15 then 11 else m

theorem month_table : ∀ k < 20, readsB ((altsOf 'b').getD []) (nameAt monthAbbrs (k : ℕ)) = true ∧
      nameIndex monthAbbrs (nameAt monthAbbrs (k : ℕ)) = .ok (monthRead (k : ℕ)) ∧
      (nameAt monthAbbrs (k : ℕ)).head?.any (fun c => !isSpaceC c) = true := by decide +kernel

theorem year_text {y : ℤ} (h0 : -1842 ≤ y) (h1 : y ≤ 1161) :
    firstLen ((altsOf 'Y').getD []) (padInt 4 y) = some (padInt 4 y).length ∧ intOf (padInt 4 y) = .ok y ∧
      (padInt 4 y).dropWhile isSpaceC = padInt 4 y := by
  have e : (altsOf 'Y').getD [] = (digitsUpTo 4).map ((· == '-') :: ·) ++ digitsUpTo 4 := rfl
  have hm : ∀ k, (dg k == '-') = false := fun k => by rw [beq_eq_false_iff_ne]; exact dg_ne _ _ (by decide)
  have hsp : ∀ k, isSpaceC (dg k) = false := fun k => dig_not_space (isDig_dg k)
  by_cases hy : 0 ≤ y
  · obtain ⟨a, b⟩ := padInt_read (w := 4) (n := y) (by norm_num) hy (by norm_num; omega)
    refine ⟨?_, b, ?_⟩
    · rw [a, e]
      simp [firstLen, digitsUpTo, afterPat, digitsW, isDig_dg, hm, List.replicate]
    · rw [a]
      simp [digitsW, hsp]
  · by_cases h3 : -1000 < y
    · have a : padInt 4 y = '-' :: digitsW 3 y.natAbs := by
        unfold padInt
        rw [if_pos (by omega), padNat_eq (by norm_num) (by norm_num; omega)]
      refine ⟨?_, ?_, ?_⟩
      · rw [a, e]
        simp [firstLen, digitsUpTo, afterPat, digitsW, isDig_dg, List.replicate]
      · rw [a, intOf_neg_digits (by norm_num) (by norm_num; omega)]
        congr 1; omega
      · rw [a]
        simp [show isSpaceC '-' = false by decide]
    · rw [signed_pad.mpr (Or.inr (by omega))]
      refine ⟨?_, intOf_signedYear h0 h1, ?_⟩
      · rw [signedYear_eq h0 h1, e]
        simp [firstLen, digitsUpTo, afterPat, digitsW, isDig_dg, List.replicate, show y < 0 by omega]
      · rw [signedYear_eq h0 h1]
        simp [show y < 0 by omega, show isSpaceC '-' = false by decide]

/-- The pieces of the format of `%c` before the year. -/
def cInit : List Tok := [.dir 'a' none, .lit ' ', .dir 'b' none, .lit ' ', .dir 'd' none, .lit ' ', .dir 'H' none, .lit ':',
  .dir 'M' none, .lit ':', .dir 'S' none, .lit ' ']

theorem c_text {A : Astro} (hE : TehranEvening A) (hO : NewYearOrder (Cal.init A)) (L : Locale) {y m d h mi s us n : ℤ}
    {tz : Option Tz} {z : Option TzInfo} (hx : IsDT (Cal.init A) ⟨.short y m d, h, mi, s, us, tz, 0⟩ n) (hy : -1842 ≤ y) :
    (Cal.init A).datetimeStrftime L ⟨.short y m d, h, mi, s, us, tz, 0⟩ z "%c".toList =
      .ok (outOf (fieldText (tupleOf y m d h mi s n) us) cInit ++ padInt 4 y) := by
  obtain ⟨w, yd, -, rfl, e⟩ := datetimeStrftime_eq hE hO hx (Or.inl rfl) hy L z "%c".toList
  rw [e, show "%c".toList = ['%', 'c'] by decide, wrap_one _ (by decide), strftimeWith_one _ (by decide)]
  change Except.ok (dirC (tupOf (.short y m d) h mi s ((n + 1) % 7) yd)) = _
  simp [dirC, tupOf, outOf, cInit, fieldText]

theorem c_read {A : Astro} (hE : TehranEvening A) (hO : NewYearOrder (Cal.init A)) {y m d h mi s us n : ℤ} {z : Option Tz}
    (hx : IsDT (Cal.init A) ⟨.short y m d, h, mi, s, us, z, 0⟩ n) (hy : -1842 ≤ y) (hh : h ≤ 23) (fresh : ℕ) :
    (Cal.init A).strptime (outOf (fieldText (tupleOf y m d h mi s n) us) cInit ++ padInt 4 y) "%a %b %d %H:%M:%S %Y".toList fresh =
      some (.ok ⟨.short y (monthRead m) d, h, mi, s, 0, none, 0⟩) := by
  obtain ⟨htok, -⟩ := tupleOf_ok hE hO hx hy hh
  obtain ⟨y0, y1, hv, hn⟩ := (dayNumber_iff hE).mp hx.day
  obtain ⟨k1, k2, k3⟩ := year_text (y := y) hy y1
  have hm : 0 ≤ m ∧ m ≤ 19 := htok.m
  have hday : 1 ≤ d ∧ d ≤ 19 := htok.d
  obtain ⟨b1, b2, b3⟩ := month_table m.toNat (by omega)
  rw [Int.toNat_of_nonneg hm.1] at b1 b2 b3
  have hmatch := (match_toks_app (ts := cInit) (val := fieldText (tupleOf y m d h mi s n) us)
    (fun c hc => by
      by_cases hcb : c = 'b'
      · subst hcb
        exact ⟨b1, head_any b3⟩
      · have hcc : c ∈ "YmdHMSfjBbAa".toList := by
          simp only [cInit, List.mem_cons, Tok.dir.injEq, and_true, reduceCtorEq, false_or, List.not_mem_nil, or_false] at hc
          rcases hc with rfl | rfl | rfl | rfl | rfl | rfl <;> decide
        obtain ⟨a, b, -⟩ := field_facts htok hcc (fun e => absurd e hcb)
        exact ⟨a, b⟩) (by
      intro c m' hc
      simp only [cInit, List.mem_cons, Tok.dir.injEq, reduceCtorEq, false_or, List.not_mem_nil, or_false] at hc
      rcases hc with ⟨-, rfl⟩ | ⟨-, rfl⟩ | ⟨-, rfl⟩ | ⟨-, rfl⟩ | ⟨-, rfl⟩ | ⟨-, rfl⟩ <;> rfl)
    (match_end (c := 'Y') rfl k1) k3).1
  have hcomp : compileFmt false "%a %b %d %H:%M:%S %Y".toList = some (.ok (piecesOf false cInit ++ [.dir 'Y'])) := by decide
  unfold Cal.strptime
  rw [hcomp]
  simp only
  unfold findRegex
  rw [hmatch]
  simp only [if_true]
  rw [pyOk_bind]
  have hd' : ∃ n', DayNumber (Cal.init A) y (monthRead m) d n' := by
    unfold monthRead
    split_ifs
    · exact ⟨_, (dayNumber_iff hE).mpr ⟨y0, y1, Or.inl ⟨by omega, by omega, by omega, by omega⟩, rfl⟩⟩
    · exact ⟨n, hx.day⟩
  obtain ⟨n', hd'⟩ := hd'
  obtain ⟨a0, a1, a2, a3, a4, a5, a6, a7, -⟩ := hx.time
  simp only [DT.timetz] at a0 a1 a2 a3 a4 a5 a6 a7
  refine congrArg some (found_clock hE hO (n := n') (w := some ((n + 1) % 7)) ?_ hd'
    ⟨a0, a1, a2, a3, a4, a5, by simp [DT.timetz], by simp [DT.timetz], Or.inl rfl⟩ fresh)
  have g := fun (c : Char) hc hb => (field_facts htok (c := c) hc hb).2.2
  change List.foldlM setGroup {} [('a', fieldText (tupleOf y m d h mi s n) us 'a'), ('b', nameAt monthAbbrs m),
    ('d', fieldText (tupleOf y m d h mi s n) us 'd'), ('H', fieldText (tupleOf y m d h mi s n) us 'H'),
    ('M', fieldText (tupleOf y m d h mi s n) us 'M'), ('S', fieldText (tupleOf y m d h mi s n) us 'S'), ('Y', padInt 4 y)] = _
  have gb : ∀ f, setGroup f ('b', nameAt monthAbbrs m) = .ok { f with month := monthRead m } := by
    intro f
    change (nameIndex monthAbbrs (nameAt monthAbbrs m)).map _ = _
    rw [b2]
    rfl
  have gY : ∀ f, setGroup f ('Y', padInt 4 y) = .ok { f with year := some y } := by
    intro f
    change (intOf (padInt 4 y)).map _ = _
    rw [k2]
    rfl
  rw [List.foldlM_cons, g 'a' (by decide) (by simp), pyOk_bind, List.foldlM_cons, gb, pyOk_bind,
    List.foldlM_cons, g 'd' (by decide) (by simp), pyOk_bind, List.foldlM_cons, g 'H' (by decide) (by simp), pyOk_bind,
    List.foldlM_cons, g 'M' (by decide) (by simp), pyOk_bind, List.foldlM_cons, g 'S' (by decide) (by simp), pyOk_bind,
    List.foldlM_cons, gY, pyOk_bind]
  rfl

theorem spell_c (L : Locale) : spellOut L "%c".toList = "%a %b %d %H:%M:%S %Y".toList := by
  rw [show "%c".toList = ['%', 'c'] by decide, spell_pct, if_pos rfl]
  rfl

/-- **C103.** A naive datetime of the short form with an hour of at most 23 that is not in month 15 is written with `%c` and read
back to the same date, hour, minute and second; the microsecond is not written. Missing from the full property: month 15, where it
is false (below), hour 24 and the long form. -/
theorem C103_date_time_partial (A : Astro) (hE : TehranEvening A) (hO : NewYearOrder (Cal.init A)) (hG : GreenwichSteady A)
    (L : Locale) (zones : List Str) (hL : KnownLocale L zones) (T : LocaleTime) (hT : (Cal.init A).localeTime L zones = .ok T)
    (y m d h mi s us n : ℤ) (z : Option TzInfo) (hx : IsDT (Cal.init A) ⟨.short y m d, h, mi, s, us, none, 0⟩ n) (hy : -1842 ≤ y)
    (hh : h ≤ 23) (hm : m ≠ 15) (fresh : ℕ) :
    ∃ text, (Cal.init A).datetimeStrftime L ⟨.short y m d, h, mi, s, us, none, 0⟩ z "%c".toList = .ok text ∧
      (Cal.init A).strptimeLocale T text "%c".toList fresh = some (.ok ⟨.short y m d, h, mi, s, 0, none, 0⟩) := by
  refine ⟨_, c_text hE hO L hx hy, ?_⟩
  obtain ⟨T', e1, e2⟩ := C103_expand A hE hO hG L zones hL
  rw [hT] at e1
  injection e1 with e1
  subst e1
  rw [e2, spell_c, c_read hE hO hx hy hh, monthRead, if_neg hm]

/-- **C103 is false in month 15:** every datetime of month 15 is written with `%c` and read back in month 11. -/
theorem C103_month_negation (A : Astro) (hE : TehranEvening A) (hO : NewYearOrder (Cal.init A)) (hG : GreenwichSteady A)
    (L : Locale) (zones : List Str) (hL : KnownLocale L zones) (T : LocaleTime) (hT : (Cal.init A).localeTime L zones = .ok T)
    (y d h mi s us n : ℤ) (z : Option TzInfo) (hx : IsDT (Cal.init A) ⟨.short y 15 d, h, mi, s, us, none, 0⟩ n) (hy : -1842 ≤ y)
    (hh : h ≤ 23) (fresh : ℕ) :
    ∃ text, (Cal.init A).datetimeStrftime L ⟨.short y 15 d, h, mi, s, us, none, 0⟩ z "%c".toList = .ok text ∧
      (Cal.init A).strptimeLocale T text "%c".toList fresh = some (.ok ⟨.short y 11 d, h, mi, s, 0, none, 0⟩) := by
  refine ⟨_, c_text hE hO L hx hy, ?_⟩
  obtain ⟨T', e1, e2⟩ := C103_expand A hE hO hG L zones hL
  rw [hT] at e1
  injection e1 with e1
  subst e1
  rw [e2, spell_c, c_read hE hO hx hy hh, monthRead, if_pos rfl]

/-! ## `%x` and `%X` -/

/-- The pieces of `%x %X`. -/
def xToks (L : Locale) : List Tok := toks3 L.d1 L.d2 L.d3 L.dSep ++ .lit ' ' :: toks3 L.t1 L.t2 L.t3 L.tSep

theorem xToks_text (L : Locale) : tokText (xToks L) = spellOut L "%x %X".toList := by
  rw [show "%x %X".toList = ['%', 'x', ' ', '%', 'X'] by decide, spell_pct, if_neg (by decide), if_pos rfl, spell_lit L (by decide),
    spell_pct, if_neg (by decide), if_neg (by decide), if_pos rfl]
  rfl

theorem xToks_compile {L : Locale} {zones : List Str} (hL : KnownLocale L zones) :
    compileFmt false (spellOut L "%x %X".toList) = some (.ok (piecesOf false (xToks L))) := by
  obtain ⟨⟨k1, k2, k3⟩, ⟨k4, k5, k6⟩, ks, kt⟩ := hL.fields
  rw [show "%x %X".toList = ['%', 'x', ' ', '%', 'X'] by decide, spell_pct, if_neg (by decide), if_pos rfl, spell_lit L (by decide),
    spell_pct, if_neg (by decide), if_neg (by decide), if_pos rfl, compile_three k1 k2 k3 ks, compile_lit (by decide),
    if_pos (by decide), if_neg (by decide), show spellOut L [] = [] by rw [spellOut], compile_three k4 k5 k6 kt]
  change some (Except.ok (piecesOf false (toks3 L.d1 L.d2 L.d3 L.dSep) ++
    (Piece.space :: (piecesOf false (toks3 L.t1 L.t2 L.t3 L.tSep) ++ [])))) = _
  unfold xToks toks3
  simp [piecesOf, show isSpaceC ' ' = true by decide]
  split_ifs <;> simp

theorem order_cases {a b c yc : Char} (hp : [a, b, c].Perm ['m', 'd', yc]) (hy : yc = 'y' ∨ yc = 'Y') :
    (a = 'm' ∧ b = 'd' ∧ c = yc) ∨ (a = 'm' ∧ b = yc ∧ c = 'd') ∨ (a = 'd' ∧ b = 'm' ∧ c = yc) ∨ (a = 'd' ∧ b = yc ∧ c = 'm') ∨
      (a = yc ∧ b = 'm' ∧ c = 'd') ∨ (a = yc ∧ b = 'd' ∧ c = 'm') := by
  have hn : [a, b, c].Nodup := hp.nodup_iff.mpr (by rcases hy with rfl | rfl <;> decide)
  have ha := hp.mem_iff.mp (show a ∈ [a, b, c] by simp)
  have hb := hp.mem_iff.mp (show b ∈ [a, b, c] by simp)
  have hc := hp.mem_iff.mp (show c ∈ [a, b, c] by simp)
  simp only [List.mem_cons, List.not_mem_nil, or_false] at ha hb hc
  simp only [List.nodup_cons, List.mem_cons, List.not_mem_nil, or_false, not_or] at hn
  obtain ⟨⟨n1, n2⟩, n3, -⟩ := hn
  rcases ha with ha | ha | ha <;> rcases hb with hb | hb | hb <;> rcases hc with hc | hc | hc <;> simp_all

theorem toks3_mem {a b c sep x : Char} {m : Option Char} (h : Tok.dir x m ∈ toks3 a b c sep) : m = none ∧ (x = a ∨ x = b ∨ x = c) := by
  unfold toks3 at h
  simp only [List.mem_cons, List.not_mem_nil, or_false] at h
  rcases h with h | h | h | h | h
  · injection h with h1 h2; exact ⟨h2, Or.inl h1⟩
  · cases h
  · injection h with h1 h2; exact ⟨h2, Or.inr (Or.inl h1)⟩
  · cases h
  · injection h with h1 h2; exact ⟨h2, Or.inr (Or.inr h1)⟩

theorem xToks_mem {L : Locale} {zones : List Str} (hL : KnownLocale L zones) {yc : Char}
    (hp : [L.d1, L.d2, L.d3].Perm ['m', 'd', yc]) (c : Char) (m : Option Char) (h : Tok.dir c m ∈ xToks L) :
    m = none ∧ c ∈ ['m', 'd', yc, L.t1, 'M', 'S'] := by
  obtain ⟨-, t2, t3⟩ := hL.time
  unfold xToks at h
  rw [List.mem_append, List.mem_cons] at h
  rcases h with h | h | h
  · obtain ⟨e, h⟩ := toks3_mem h
    refine ⟨e, ?_⟩
    have := hp.mem_iff.mp (show c ∈ [L.d1, L.d2, L.d3] by simpa using h)
    simp only [List.mem_cons, List.not_mem_nil, or_false] at this ⊢
    tauto
  · cases h
  · obtain ⟨e, h⟩ := toks3_mem h
    refine ⟨e, ?_⟩
    rw [t2, t3] at h
    simp only [List.mem_cons, List.not_mem_nil, or_false]
    tauto

/-- The text of a date and a time in the formats of the locale is read as the numbers that it shows. -/
theorem x_read {A : Astro} (hE : TehranEvening A) (hO : NewYearOrder (Cal.init A)) {L : Locale} {zones : List Str}
    (hL : KnownLocale L zones) {val : Char → Str} {num : Char → ℤ} {yc : Char} (hy : yc = 'y' ∨ yc = 'Y')
    (hp : [L.d1, L.d2, L.d3].Perm ['m', 'd', yc])
    (hv : ∀ c ∈ ['m', 'd', yc, L.t1, 'M', 'S'], readsB ((altsOf c).getD []) (val c) = true ∧
      (∃ x r, val c = x :: r ∧ isSpaceC x = false) ∧ intOf (val c) = .ok (num c)) {n : ℤ}
    (hd : DayNumber (Cal.init A) (num yc) (num 'm') (num 'd') n) (hI : L.t1 = 'I' → num 'I' ≠ 12)
    (ht : ValidTime (DT.timetz ⟨.short (num yc) (num 'm') (num 'd'), num L.t1, num 'M', num 'S', 0, none, 0⟩)) (fresh : ℕ) :
    (Cal.init A).strptime (outOf val (xToks L)) (spellOut L "%x %X".toList) fresh =
      some (.ok ⟨.short (num yc) (num 'm') (num 'd'), num L.t1, num 'M', num 'S', 0, none, 0⟩) := by
  have hord := order_cases hp hy
  obtain ⟨t1, t2, t3⟩ := hL.time
  have hmem := xToks_mem hL hp
  have hmatch := (match_toks (ts := xToks L) (val := val)
    (fun c hc => ⟨(hv c (hmem c none hc).2).1, (hv c (hmem c none hc).2).2.1⟩) (fun c m' hc => (hmem c m' hc).1)).1
  unfold Cal.strptime
  rw [xToks_compile hL]
  simp only
  unfold findRegex
  rw [hmatch]
  simp only [if_true]
  rw [pyOk_bind]
  refine congrArg some (found_clock hE hO (n := n) (w := none) ?_ hd ht fresh)
  have gm : ∀ f, setGroup f ('m', val 'm') = .ok { f with month := num 'm' } := fun f => by
    change (intOf (val 'm')).map _ = _; rw [(hv 'm' (by simp)).2.2]; rfl
  have gd : ∀ f, setGroup f ('d', val 'd') = .ok { f with day := num 'd' } := fun f => by
    change (intOf (val 'd')).map _ = _; rw [(hv 'd' (by simp)).2.2]; rfl
  have gM : ∀ f, setGroup f ('M', val 'M') = .ok { f with minute := num 'M' } := fun f => by
    change (intOf (val 'M')).map _ = _; rw [(hv 'M' (by simp)).2.2]; rfl
  have gS : ∀ f, setGroup f ('S', val 'S') = .ok { f with second := num 'S' } := fun f => by
    change (intOf (val 'S')).map _ = _; rw [(hv 'S' (by simp)).2.2]; rfl
  have gy : ∀ f, setGroup f (yc, val yc) = .ok { f with year := some (num yc) } := fun f => by
    have := (hv yc (by simp)).2.2
    rcases hy with rfl | rfl
    · change (intOf (val 'y')).map _ = _; rw [this]; rfl
    · change (intOf (val 'Y')).map _ = _; rw [this]; rfl
  have gt : ∀ f : Found, f.ampm = [] → setGroup f (L.t1, val L.t1) = .ok { f with hour := num L.t1 } := fun f ha => by
    have := (hv L.t1 (by simp)).2.2
    rcases t1 with e | e
    · rw [e] at this ⊢
      change (intOf (val 'H')).map _ = _; rw [this]; rfl
    · have hI := hI e
      rw [e] at this ⊢
      change (intOf (val 'I')).map (fun n => { f with hour := hourOf12 f.ampm n }) = _
      rw [this, ha]
      change Except.ok _ = _
      simp only [hourOf12, true_or, if_true]
      rw [if_neg hI]
  have hgs : groupsOf val (xToks L) = [(L.d1, val L.d1), (L.d2, val L.d2), (L.d3, val L.d3), (L.t1, val L.t1), ('M', val 'M'),
      ('S', val 'S')] := by
    unfold xToks toks3
    rw [t2, t3]
    rfl
  have hap : ampmOf (groupsOf val (xToks L)) = [] := by
    apply ampmOf_none
    intro v hv
    obtain ⟨m', hm⟩ := groups_keys hv
    have := (hmem _ _ hm).2
    rcases hy with rfl | rfl <;> rcases t1 with e | e <;> rw [e] at this <;> exact absurd this (by decide)
  unfold parseFound
  rw [hap, hgs]
  rcases hord with ⟨e1, e2, e3⟩ | ⟨e1, e2, e3⟩ | ⟨e1, e2, e3⟩ | ⟨e1, e2, e3⟩ | ⟨e1, e2, e3⟩ | ⟨e1, e2, e3⟩ <;>
    (rw [e1, e2, e3]
     simp only [List.foldlM_cons, List.foldlM_nil, gm, gd, gy, gt, gM, gS, pyOk_bind]
     rfl)

/-- The texts of the fields. -/
def shownText (y m d h mi s : ℤ) : Char → Str
  | 'm' => padInt 2 m
  | 'd' => padInt 2 d
  | 'Y' => signedYear y
  | 'y' => padInt 2 (y % 100)
  | 'H' => padInt 2 h
  | 'I' => padInt 2 (h % 12)
  | 'M' => padInt 2 mi
  | 'S' => padInt 2 s
  | _ => []

/-- The numbers that the texts show. -/
def shownNum (y m d h mi s : ℤ) : Char → ℤ
  | 'm' => m
  | 'd' => d
  | 'Y' => y
  | 'y' => y % 100
  | 'H' => h
  | 'I' => h % 12
  | 'M' => mi
  | 'S' => s
  | _ => 0

theorem reads_y : ∀ k < 100, readsB ((altsOf 'y').getD []) (digitsW 2 k) = true := by decide +kernel

theorem shown_facts {y m d h mi s n us : ℤ} (htok : TupOk (tupleOf y m d h mi s n) us) {c : Char}
    (hc : c ∈ ['m', 'd', 'y', 'Y', 'H', 'I', 'M', 'S']) (hI : c = 'I' → h % 12 ≠ 0) :
    readsB ((altsOf c).getD []) (shownText y m d h mi s c) = true ∧
      (∃ x r, shownText y m d h mi s c = x :: r ∧ isSpaceC x = false) ∧
      intOf (shownText y m d h mi s c) = .ok (shownNum y m d h mi s c) := by
  obtain ⟨r1, r2, r3, r4, r5, -⟩ := reads_tables
  obtain ⟨-, hy, hm, hd, hh, hmi, hs, -⟩ := htok
  simp only at hy hm hd hh hmi hs
  have num : ∀ n : ℤ, 0 ≤ n → n < 100 → padInt 2 n = digitsW 2 n.toNat ∧ intOf (padInt 2 n) = .ok n ∧
      ∃ x r, padInt 2 n = x :: r ∧ isSpaceC x = false := by
    intro n h0 h1
    obtain ⟨e, e'⟩ := padInt_read (w := 2) (n := n) (by norm_num) h0 (by norm_num; omega)
    exact ⟨e, e', by rw [e]; exact digits_head (by norm_num)⟩
  simp only [List.mem_cons, List.not_mem_nil, or_false] at hc
  rcases hc with rfl | rfl | rfl | rfl | rfl | rfl | rfl | rfl
  · obtain ⟨a, b, e⟩ := num m hm.1 (by omega)
    exact ⟨by change readsB _ (padInt 2 m) = true; rw [a]; exact r1 _ (by omega), e, b⟩
  · obtain ⟨a, b, e⟩ := num d (by omega) (by omega)
    exact ⟨by change readsB _ (padInt 2 d) = true; rw [a]; exact r2 _ (by omega) (by omega), e, b⟩
  · obtain ⟨a, b, e⟩ := num (y % 100) (by omega) (by omega)
    exact ⟨by change readsB _ (padInt 2 (y % 100)) = true; rw [a]; exact reads_y _ (by omega), e, b⟩
  · refine ⟨?_, ?_, ?_⟩
    · change readsB _ (signedYear y) = true
      rw [signedYear_eq hy.1 hy.2]
      exact reads_year _ _
    · change ∃ x r, signedYear y = x :: r ∧ _
      rw [signedYear_eq hy.1 hy.2]
      split_ifs
      · exact ⟨_, _, rfl, by decide⟩
      · exact digits_head (by norm_num)
    · exact intOf_signedYear hy.1 hy.2
  · obtain ⟨a, b, e⟩ := num h hh.1 (by omega)
    exact ⟨by change readsB _ (padInt 2 h) = true; rw [a]; exact r3 _ (by omega), e, b⟩
  · obtain ⟨a, b, e⟩ := num (h % 12) (by omega) (by omega)
    have := hI rfl
    exact ⟨by change readsB _ (padInt 2 (h % 12)) = true; rw [a]; exact reads_I _ (by omega) (by omega), e, b⟩
  · obtain ⟨a, b, e⟩ := num mi hmi.1 (by omega)
    exact ⟨by change readsB _ (padInt 2 mi) = true; rw [a]; exact r4 _ (by omega), e, b⟩
  · obtain ⟨a, b, e⟩ := num s hs.1 (by omega)
    exact ⟨by change readsB _ (padInt 2 s) = true; rw [a]; exact r5 _ (by omega), e, b⟩

/-- The texts are those of the directives. -/
theorem shown_method {A : Astro} {y m d h mi s w yd : ℤ} (h0 : -1842 ≤ y) (h1 : y ≤ 1161) {c : Char}
    (hc : c ∈ ['m', 'd', 'y', 'Y', 'H', 'I', 'M', 'S']) (hy : c = 'y' → 0 ≤ y)
    (hI : c = 'I' → (Cal.init A).afterMidday (tupOf (.short y m d) h mi s w yd) = .ok (decide (12 ≤ h)) ∧ 0 ≤ h ∧ h ≤ 23) :
    (Cal.init A).method (tupOf (.short y m d) h mi s w yd) c = .ok (shownText y m d h mi s c) := by
  simp only [List.mem_cons, List.not_mem_nil, or_false] at hc
  rcases hc with rfl | rfl | rfl | rfl | rfl | rfl | rfl | rfl
  · rfl
  · rfl
  · change Except.ok (padInt 2 (y - pyInt (fl ((y : ℚ) / 100)) * 100)) = Except.ok (padInt 2 (y % 100))
    rw [(century_eq (by omega) h1).1, Int.tdiv_eq_ediv_of_nonneg (hy rfl), show y - y / 100 * 100 = y % 100 by omega]
  · rfl
  · rfl
  · obtain ⟨e, b0, b1⟩ := hI rfl
    unfold Cal.method Cal.dirI Cal.hour12
    rw [if_pos rfl, e, pyOk_bind, pyOk_bind, if_neg (by decide), if_neg (by decide)]
    change Except.ok (padInt 2 (if decide (12 ≤ h) = true then h - 12 else h)) = Except.ok (padInt 2 (h % 12))
    congr 2
    simp only [decide_eq_true_eq]
    split_ifs <;> omega
  · rfl
  · rfl

theorem x_text {A : Astro} (hE : TehranEvening A) (hO : NewYearOrder (Cal.init A)) {L : Locale} {zones : List Str}
    (hL : KnownLocale L zones) {yc : Char} (hy : yc = 'y' ∨ yc = 'Y') (hp : [L.d1, L.d2, L.d3].Perm ['m', 'd', yc])
    {y m d h mi s us n : ℤ} {tz : Option Tz} {z : Option TzInfo} (hx : IsDT (Cal.init A) ⟨.short y m d, h, mi, s, us, tz, 0⟩ n)
    (h0 : -1842 ≤ y) (hyc : yc = 'y' → 0 ≤ y) (hI : L.t1 = 'I' → ∀ w yd,
      (Cal.init A).afterMidday (tupOf (.short y m d) h mi s w yd) = .ok (decide (12 ≤ h)) ∧ 0 ≤ h ∧ h ≤ 23) :
    (Cal.init A).datetimeStrftime L ⟨.short y m d, h, mi, s, us, tz, 0⟩ z "%x %X".toList =
        .ok (outOf (shownText y m d h mi s) (xToks L)) ∧
      (Cal.init A).datetimeStrftime L ⟨.short y m d, h, mi, s, us, tz, 0⟩ z "%X".toList =
        .ok (outOf (shownText y m d h mi s) (toks3 L.t1 L.t2 L.t3 L.tSep)) := by
  obtain ⟨y0, y1, -⟩ := (dayNumber_iff hE).mp hx.day
  obtain ⟨w, yd, -, -, e⟩ := datetimeStrftime_eq hE hO hx (Or.inl rfl) h0 L z "%x %X".toList
  obtain ⟨w', yd', -, -, e'⟩ := datetimeStrftime_eq hE hO hx (Or.inl rfl) h0 L z "%X".toList
  obtain ⟨t1, t2, t3⟩ := hL.time
  have hmem : ∀ c, c = L.d1 ∨ c = L.d2 ∨ c = L.d3 ∨ c = L.t1 ∨ c = L.t2 ∨ c = L.t3 →
      c ∈ ['m', 'd', 'y', 'Y', 'H', 'I', 'M', 'S'] ∧ (c = 'y' → yc = 'y') ∧ (c = 'I' → L.t1 = 'I') := by
    intro c hc
    have hd : ∀ x ∈ [L.d1, L.d2, L.d3], x ∈ ['m', 'd', 'y', 'Y', 'H', 'I', 'M', 'S'] ∧ (x = 'y' → yc = 'y') ∧ (x = 'I' → L.t1 = 'I') := by
      intro x hx
      have := hp.mem_iff.mp hx
      simp only [List.mem_cons, List.not_mem_nil, or_false] at this
      rcases this with rfl | rfl | rfl
      · exact ⟨by decide, by simp, fun h => absurd h (by decide)⟩
      · exact ⟨by decide, by simp, fun h => absurd h (by decide)⟩
      · refine ⟨by rcases hy with rfl | rfl <;> decide, fun h => h, ?_⟩
        rcases hy with rfl | rfl <;> exact fun h => absurd h (by decide)
    have ht : c = L.t1 ∨ c = L.t2 ∨ c = L.t3 → c ∈ ['m', 'd', 'y', 'Y', 'H', 'I', 'M', 'S'] ∧ (c = 'y' → yc = 'y') ∧
        (c = 'I' → L.t1 = 'I') := by
      rintro (h | h | h)
      · rw [h]
        refine ⟨?_, ?_, fun h => h⟩
        · rcases t1 with e | e <;> rw [e] <;> decide
        · rcases t1 with e | e <;> rw [e] <;> exact fun h => absurd h (by decide)
      · rw [h, t2]; exact ⟨by decide, fun h => absurd h (by decide), fun h => absurd h (by decide)⟩
      · rw [h, t3]; exact ⟨by decide, fun h => absurd h (by decide), fun h => absurd h (by decide)⟩
    rcases hc with h | h | h | h
    · exact hd c (by simp [h])
    · exact hd c (by simp [h])
    · exact hd c (by simp [h])
    · exact ht h
  have key : ∀ w yd c, c = L.d1 ∨ c = L.d2 ∨ c = L.d3 ∨ c = L.t1 ∨ c = L.t2 ∨ c = L.t3 →
      (Cal.init A).method (tupOf (.short y m d) h mi s w yd) c = .ok (shownText y m d h mi s c) := by
    intro w yd c hc
    obtain ⟨a1, a2, a3⟩ := hmem c hc
    exact shown_method h0 y1 a1 (fun e => hyc (a2 e)) (fun e => hI (a3 e) w yd)
  have hX : ∀ w yd, (Cal.init A).allDirectives L (structOf ⟨.short y m d, h, mi, s, us, tz, 0⟩ z w yd) 'X' none =
      .ok (outOf (shownText y m d h mi s) (toks3 L.t1 L.t2 L.t3 L.tSep)) := by
    intro w yd
    change joinThree L.tSep ((Cal.init A).method (tupOf (.short y m d) h mi s w yd) L.t1)
      ((Cal.init A).method (tupOf (.short y m d) h mi s w yd) L.t2) ((Cal.init A).method (tupOf (.short y m d) h mi s w yd) L.t3) = _
    rw [key w yd _ (by simp), key w yd _ (by simp), key w yd _ (by simp)]
    simp [joinThree, bind, Except.bind, toks3, outOf]
  have hx' : ∀ w yd, (Cal.init A).allDirectives L (structOf ⟨.short y m d, h, mi, s, us, tz, 0⟩ z w yd) 'x' none =
      .ok (outOf (shownText y m d h mi s) (toks3 L.d1 L.d2 L.d3 L.dSep)) := by
    intro w yd
    change joinThree L.dSep ((Cal.init A).method (tupOf (.short y m d) h mi s w yd) L.d1)
      ((Cal.init A).method (tupOf (.short y m d) h mi s w yd) L.d2) ((Cal.init A).method (tupOf (.short y m d) h mi s w yd) L.d3) = _
    rw [key w yd _ (by simp), key w yd _ (by simp), key w yd _ (by simp)]
    simp [joinThree, bind, Except.bind, toks3, outOf]
  constructor
  · rw [e, show wrapFormat (padInt 6 us) "%x %X".toList = tokText [.dir 'x' none, .lit ' ', .dir 'X' none] by rfl,
      C40_copies_partial _ _ (by simp) (by simp [Tok.Documented]) (by decide)
        (by intro a b ha hb; simp at ha; subst ha; simp [Tok.isLit])]
    simp only [tokValues, Tok.value]
    rw [hX, hx']
    simp [bind, Except.bind, xToks, toks3, outOf]
  · rw [e', show "%X".toList = ['%', 'X'] by decide, wrap_one _ (by decide), strftimeWith_one _ (by decide), hX]

theorem locale_T {A : Astro} (hE : TehranEvening A) (hO : NewYearOrder (Cal.init A)) (hG : GreenwichSteady A) {L : Locale}
    {zones : List Str} (hL : KnownLocale L zones) {T : LocaleTime} (hT : (Cal.init A).localeTime L zones = .ok T) (C : Cal)
    (s fmt : Str) (fresh : ℕ) : C.strptimeLocale T s fmt fresh = C.strptime s (spellOut L fmt) fresh := by
  obtain ⟨T', e1, e2⟩ := C103_expand A hE hO hG L zones hL
  rw [hT] at e1
  injection e1 with e1
  subst e1
  exact e2 C s fmt fresh

/-- **C103.** In a locale whose dates have the year with its century and whose times have 24 hours, every naive datetime of the short
form with an hour of at most 23 is written with `%x %X` and read back to the same date, hour, minute and second. Missing from the
full property: the other locales, where it is false (below), hour 24 and the long form. -/
theorem C103_locale_partial (A : Astro) (hE : TehranEvening A) (hO : NewYearOrder (Cal.init A)) (hG : GreenwichSteady A)
    (L : Locale) (zones : List Str) (hL : KnownLocale L zones) (hY : 'Y' ∈ [L.d1, L.d2, L.d3]) (hH : L.t1 = 'H') (T : LocaleTime)
    (hT : (Cal.init A).localeTime L zones = .ok T) (y m d h mi s us n : ℤ) (z : Option TzInfo)
    (hx : IsDT (Cal.init A) ⟨.short y m d, h, mi, s, us, none, 0⟩ n) (hy : -1842 ≤ y) (hh : h ≤ 23) (fresh : ℕ) :
    ∃ text, (Cal.init A).datetimeStrftime L ⟨.short y m d, h, mi, s, us, none, 0⟩ z "%x %X".toList = .ok text ∧
      (Cal.init A).strptimeLocale T text "%x %X".toList fresh = some (.ok ⟨.short y m d, h, mi, s, 0, none, 0⟩) := by
  obtain ⟨htok, -⟩ := tupleOf_ok hE hO hx hy hh
  obtain ⟨yc, hyc, hp⟩ := hL.date
  obtain rfl : yc = 'Y' := by
    have := hp.mem_iff.mp hY
    simp only [List.mem_cons, List.not_mem_nil, or_false] at this
    rcases this with h | h | h
    · exact absurd h (by decide)
    · exact absurd h (by decide)
    · exact h.symm
  refine ⟨_, (x_text hE hO hL (Or.inr rfl) hp hx hy (by simp) (fun h => absurd (hH ▸ h) (by decide))).1, ?_⟩
  obtain ⟨a0, a1, a2, a3, a4, a5, a6, a7, -⟩ := hx.time
  simp only [DT.timetz] at a0 a1 a2 a3 a4 a5 a6 a7
  rw [locale_T hE hO hG hL hT]
  have := x_read hE hO hL (val := shownText y m d h mi s) (num := shownNum y m d h mi s) (Or.inr rfl) hp (by
    intro c hc
    rw [hH] at hc
    refine shown_facts htok ?_ ?_
    · revert hc; revert c; decide
    · rintro rfl; exact absurd hc (by decide)) (n := n) hx.day (fun h => absurd (hH ▸ h) (by decide))
    (by rw [hH]; exact ⟨a0, a1, a2, a3, a4, a5, by simp [DT.timetz], by simp [DT.timetz], Or.inl rfl⟩) fresh
  rw [hH] at this
  exact this

/-- **C103 is false in locales with two digits for the year**, such as the default `%m/%d/%y`: the datetimes of every year from
100 on are read back in the first century (the intercalary days are left out, as the other year may not have the fifth). -/
theorem C103_century_negation (A : Astro) (hE : TehranEvening A) (hO : NewYearOrder (Cal.init A)) (hG : GreenwichSteady A)
    (L : Locale) (zones : List Str) (hL : KnownLocale L zones) (hY : 'y' ∈ [L.d1, L.d2, L.d3]) (hH : L.t1 = 'H') (T : LocaleTime)
    (hT : (Cal.init A).localeTime L zones = .ok T) (y m d h mi s us n : ℤ) (z : Option TzInfo)
    (hx : IsDT (Cal.init A) ⟨.short y m d, h, mi, s, us, none, 0⟩ n) (hy : 100 ≤ y) (hm : 1 ≤ m) (hh : h ≤ 23) (fresh : ℕ) :
    ∃ text, (Cal.init A).datetimeStrftime L ⟨.short y m d, h, mi, s, us, none, 0⟩ z "%x %X".toList = .ok text ∧
      (Cal.init A).strptimeLocale T text "%x %X".toList fresh = some (.ok ⟨.short (y % 100) m d, h, mi, s, 0, none, 0⟩) ∧
      y % 100 ≠ y := by
  obtain ⟨htok, -⟩ := tupleOf_ok hE hO hx (by omega) hh
  obtain ⟨yc, hyc, hp⟩ := hL.date
  obtain rfl : yc = 'y' := by
    have := hp.mem_iff.mp hY
    simp only [List.mem_cons, List.not_mem_nil, or_false] at this
    rcases this with h | h | h
    · exact absurd h (by decide)
    · exact absurd h (by decide)
    · exact h.symm
  refine ⟨_, (x_text hE hO hL (Or.inl rfl) hp hx (by omega) (fun _ => by omega) (fun h => absurd (hH ▸ h) (by decide))).1, ?_, by omega⟩
  obtain ⟨a0, a1, a2, a3, a4, a5, a6, a7, -⟩ := hx.time
  simp only [DT.timetz] at a0 a1 a2 a3 a4 a5 a6 a7
  rw [locale_T hE hO hG hL hT]
  have h1 : m ≤ 19 := htok.m.2
  have h2 : 1 ≤ d ∧ d ≤ 19 := htok.d
  have hd' : DayNumber (Cal.init A) (y % 100) m d _ :=
    (dayNumber_iff hE).mpr ⟨by omega, by omega, Or.inl ⟨by omega, by omega, by omega, by omega⟩, rfl⟩
  have := x_read hE hO hL (val := shownText y m d h mi s) (num := shownNum y m d h mi s) (Or.inl rfl) hp (by
    intro c hc
    rw [hH] at hc
    refine shown_facts htok ?_ ?_
    · revert hc; revert c; decide
    · rintro rfl; exact absurd hc (by decide)) hd' (fun h => absurd (hH ▸ h) (by decide))
    (by rw [hH]; exact ⟨a0, a1, a2, a3, a4, a5, by simp [DT.timetz], by simp [DT.timetz], Or.inl rfl⟩) fresh
  rw [hH] at this
  exact this

/-- **C103 is false in locales with a 12 hour clock**, as its format has no `%p`: the hours from 13 on come back 12 hours
earlier. -/
theorem C103_afternoon_negation (A : Astro) (hE : TehranEvening A) (hO : NewYearOrder (Cal.init A)) (hG : GreenwichSteady A)
    (L : Locale) (zones : List Str) (hL : KnownLocale L zones) (hY : 'Y' ∈ [L.d1, L.d2, L.d3]) (hI : L.t1 = 'I') (T : LocaleTime)
    (hT : (Cal.init A).localeTime L zones = .ok T) (y m d h mi s us n : ℤ) (z : Option TzInfo)
    (hx : IsDT (Cal.init A) ⟨.short y m d, h, mi, s, us, none, 0⟩ n) (hy : -1842 ≤ y) (hn : ClockDay n) (h13 : 13 ≤ h) (hh : h ≤ 23)
    (hs : s ≤ 59) (fresh : ℕ) :
    ∃ text, (Cal.init A).datetimeStrftime L ⟨.short y m d, h, mi, s, us, none, 0⟩ z "%x %X".toList = .ok text ∧
      (Cal.init A).strptimeLocale T text "%x %X".toList fresh = some (.ok ⟨.short y m d, h - 12, mi, s, 0, none, 0⟩) := by
  obtain ⟨htok, -⟩ := tupleOf_ok hE hO hx hy hh
  obtain ⟨yc, hyc, hp⟩ := hL.date
  obtain rfl : yc = 'Y' := by
    have := hp.mem_iff.mp hY
    simp only [List.mem_cons, List.not_mem_nil, or_false] at this
    rcases this with h | h | h
    · exact absurd h (by decide)
    · exact absurd h (by decide)
    · exact h.symm
  obtain ⟨a0, a1, a2, a3, a4, a5, a6, a7, -⟩ := hx.time
  simp only [DT.timetz] at a0 a1 a2 a3 a4 a5 a6 a7
  have half := fun w yd => halfDay (w := w) (yd := yd) hE hG hx.day hn a0 hh a2 a3 a4 hs (Or.inr (by omega))
  refine ⟨_, (x_text hE hO hL (Or.inr rfl) hp hx hy (by simp) (fun _ w yd => ⟨half w yd, a0, hh⟩)).1, ?_⟩
  rw [locale_T hE hO hG hL hT]
  have e12 : h % 12 = h - 12 := by omega
  have := x_read hE hO hL (val := shownText y m d h mi s) (num := shownNum y m d h mi s) (Or.inr rfl) hp (by
    intro c hc
    rw [hI] at hc
    refine shown_facts htok ?_ (fun _ => by omega)
    revert hc; revert c; decide) (n := n) hx.day (fun _ => by change h % 12 ≠ 12; omega)
    (by
      rw [hI]
      refine ⟨?_, ?_, a2, a3, a4, a5, by simp [DT.timetz], by simp [DT.timetz], Or.inl rfl⟩
      · change 0 ≤ h % 12; omega
      · change h % 12 ≤ 24; omega) fresh
  rw [hI] at this
  change _ = some (Except.ok (⟨.short y m d, h % 12, mi, s, 0, none, 0⟩ : DT)) at this
  rw [e12] at this
  exact this

theorem no_zero (ps : List Piece) (r : Str) : matchAll (.dir 'I' :: ps) ('0' :: '0' :: r) = [] := rfl

/-- **C103 is false in locales with a 12 hour clock** also for the hours 0 and 12 (two minutes around noon left out): the text
that `%X` writes is refused by `%X` with ValueError. -/
theorem C103_noon_negation (A : Astro) (hE : TehranEvening A) (hO : NewYearOrder (Cal.init A)) (hG : GreenwichSteady A)
    (L : Locale) (zones : List Str) (hL : KnownLocale L zones) (hI : L.t1 = 'I') (T : LocaleTime)
    (hT : (Cal.init A).localeTime L zones = .ok T) (y m d h mi s us n : ℤ) (z : Option TzInfo)
    (hx : IsDT (Cal.init A) ⟨.short y m d, h, mi, s, us, none, 0⟩ n) (hy : 0 ≤ y) (hn : ClockDay n)
    (h0 : h = 0 ∨ h = 12 ∧ 2 ≤ mi) (hs : s ≤ 59) (fresh : ℕ) :
    ∃ text, (Cal.init A).datetimeStrftime L ⟨.short y m d, h, mi, s, us, none, 0⟩ z "%X".toList = .ok text ∧
      (Cal.init A).strptimeLocale T text "%X".toList fresh = some (.error .value) := by
  obtain ⟨yc, hyc, hp⟩ := hL.date
  obtain ⟨a0, a1, a2, a3, a4, a5, a6, a7, -⟩ := hx.time
  simp only [DT.timetz] at a0 a1 a2 a3 a4 a5 a6 a7
  have half := fun w yd => halfDay (w := w) (yd := yd) hE hG hx.day hn a0 (by omega) a2 a3 a4 hs (by omega)
  refine ⟨_, (x_text hE hO hL (by simpa using hyc) hp hx (by omega) (fun _ => hy) (fun _ w yd => ⟨half w yd, a0, by omega⟩)).2, ?_⟩
  rw [locale_T hE hO hG hL hT]
  obtain ⟨-, ⟨k4, k5, k6⟩, -, kt⟩ := hL.fields
  have e : spellOut L "%X".toList = ['%', L.t1, L.tSep, '%', L.t2, L.tSep, '%', L.t3] := by
    rw [show "%X".toList = ['%', 'X'] by decide, spell_pct, if_neg (by decide), if_neg (by decide), if_pos rfl]
    rfl
  have hc := compile_three k4 k5 k6 kt false []
  rw [List.append_nil, ← e] at hc
  unfold Cal.strptime
  rw [hc]
  change some (do
    let gs ← findRegex _ (piecesOf false (toks3 L.t1 L.t2 L.t3 L.tSep) ++ [])
    _) = _
  have ht : outOf (shownText y m d h mi s) (toks3 L.t1 L.t2 L.t3 L.tSep) = '0' :: '0' :: L.tSep ::
      (shownText y m d h mi s L.t2 ++ L.tSep :: (shownText y m d h mi s L.t3 ++ [])) := by
    rw [hI]
    change padInt 2 (h % 12) ++ _ = _
    rw [show h % 12 = 0 by omega]
    rfl
  have hz : findRegex (outOf (shownText y m d h mi s) (toks3 L.t1 L.t2 L.t3 L.tSep))
      (piecesOf false (toks3 L.t1 L.t2 L.t3 L.tSep) ++ []) = .error .value := by
    unfold findRegex
    rw [ht, hI, show piecesOf false (toks3 'I' L.t2 L.t3 L.tSep) ++ [] =
      .dir 'I' :: (piecesOf false (toks3 'I' L.t2 L.t3 L.tSep)).tail by rw [List.append_nil]; rfl, no_zero]
    rfl
  rw [hz, pyErr_bind]

/-! ## Examples -/

/-- The assumptions on the sun hold together, and there are datetimes in month 15, at noon and in the afternoon of days on which
the clock is sound. -/
example : TehranEvening greenwichSun ∧ NewYearOrder (Cal.init greenwichSun) ∧ GreenwichSteady greenwichSun ∧
    IsDT (Cal.init greenwichSun) ⟨.short 182 15 5, 0, 30, 0, 0, none, 0⟩ (ysInt 182 + 14 * 19 + 4) ∧
    IsDT (Cal.init greenwichSun) ⟨.short 182 3 5, 17, 30, 12, 250000, none, 0⟩ (ysInt 182 + 2 * 19 + 4) ∧
    ClockDay (ysInt 182 + 14 * 19 + 4) ∧ ClockDay (ysInt 182 + 2 * 19 + 4) := by
  refine ⟨greenwichSun_tehran, greenwichSun_order, greenwichSun_steady,
    ⟨(dayNumber_iff greenwichSun_tehran).mpr ⟨by omega, by omega, Or.inl ⟨by omega, by omega, by omega, by omega⟩, by
      simp [dBefore]; ring⟩, by constructor <;> decide⟩,
    ⟨(dayNumber_iff greenwichSun_tehran).mpr ⟨by omega, by omega, Or.inl ⟨by omega, by omega, by omega, by omega⟩, by
      simp [dBefore]; ring⟩, by constructor <;> decide⟩, ?_, ?_⟩
  · unfold ClockDay; decide +kernel
  · unfold ClockDay; decide +kernel

end Verif
