import Verif.Lemmas.LocaleTime
import Verif.Props.StrpClock

/-!
# Property C103: the formats of the locale in `strptime`
-/

namespace Verif

/-! ## Specification -/

/-- A locale with a usual format of dates (month, day and year in some order, the year with or without its century) and of
times, and names of time zones as POSIX allows them: three or more letters, digits and signs. -/
structure KnownLocale (L : Locale) (zones : List Str) : Prop where
  date : ∃ yc ∈ ['y', 'Y'], [L.d1, L.d2, L.d3].Perm ['m', 'd', yc]
  dSep : L.dSep ∈ ['/', '-', '.', ':', ' ', ',']
  time : (L.t1 = 'H' ∨ L.t1 = 'I') ∧ L.t2 = 'M' ∧ L.t3 = 'S'
  tSep : L.tSep ∈ ['/', '-', '.', ':', ' ', ',']
  pm : lowerS L.pm = [] ∨ lowerS L.pm = "pm".toList
  zones : ∀ z ∈ zones, 3 ≤ z.length ∧ ∀ c ∈ z, c.isDigit = true ∨ c.isLower = true ∨ c = '+' ∨ c = '-'

/-- The directives of the locale in a format are spelled out. -/
def spellOut (L : Locale) : Str → Str
  | '%' :: c :: r =>
    if c = 'c' then "%a %b %d %H:%M:%S %Y".toList ++ spellOut L r
    else if c = 'x' then ['%', L.d1, L.dSep, '%', L.d2, L.dSep, '%', L.d3] ++ spellOut L r
    else if c = 'X' then ['%', L.t1, L.tSep, '%', L.t2, L.tSep, '%', L.t3] ++ spellOut L r
    else '%' :: c :: spellOut L r
  | c :: r => c :: spellOut L r
  | [] => []

/-! ## The formats -/

theorem KnownLocale.zoneOk {L : Locale} {zones : List Str} (h : KnownLocale L zones) :
    ∀ z ∈ zones, 3 ≤ z.length ∧ ∀ c ∈ z, zoneChar c = true := by
  intro z hz
  refine ⟨(h.zones z hz).1, fun c hc => ?_⟩
  unfold zoneChar isDig range
  rcases (h.zones z hz).2 c hc with h | h | rfl | rfl
  · simp only [Char.isDigit, Bool.and_eq_true, decide_eq_true_eq, ge_iff_le] at h
    have h1 : 48 ≤ c.toNat := h.1
    have h2 : c.toNat ≤ 57 := h.2
    simp [h1, h2]
  · simp only [Char.isLower, Bool.and_eq_true, decide_eq_true_eq, ge_iff_le] at h
    have h1 : 97 ≤ c.toNat := h.1
    have h2 : c.toNat ≤ 122 := h.2
    simp [h1, h2]
  · decide
  · decide

theorem KnownLocale.dateMem {L : Locale} {zones : List Str} (h : KnownLocale L zones) :
    L.d1 ∈ ['m', 'd', 'y', 'Y'] ∧ L.d2 ∈ ['m', 'd', 'y', 'Y'] ∧ L.d3 ∈ ['m', 'd', 'y', 'Y'] := by
  obtain ⟨yc, hy, hp⟩ := h.date
  have key : ∀ c ∈ [L.d1, L.d2, L.d3], c ∈ ['m', 'd', 'y', 'Y'] := by
    intro c hc
    have := hp.mem_iff.mp hc
    simp only [List.mem_cons, List.not_mem_nil, or_false] at this hy ⊢
    rcases this with rfl | rfl | rfl
    · simp
    · simp
    · rcases hy with rfl | rfl <;> simp
  exact ⟨key _ (by simp), key _ (by simp), key _ (by simp)⟩

theorem method_sample {C : Cal} {w yd : ℤ} {c : Char} (h : c ∈ ['m', 'd', 'y', 'Y', 'H', 'M', 'S']) :
    C.method (tupOf (.short 199 3 17) 22 4 30 w yd) c = .ok (sampleText c) := by
  simp only [List.mem_cons, List.not_mem_nil, or_false] at h
  rcases h with rfl | rfl | rfl | rfl | rfl | rfl | rfl
  · change Except.ok (padInt 2 (3 : ℤ)) = Except.ok (sampleText 'm')
    exact congrArg Except.ok (by decide +kernel : padInt 2 (3 : ℤ) = sampleText 'm')
  · change Except.ok (padInt 2 (17 : ℤ)) = Except.ok (sampleText 'd')
    exact congrArg Except.ok (by decide +kernel : padInt 2 (17 : ℤ) = sampleText 'd')
  · change Except.ok (padInt 2 ((199 : ℤ) - pyInt (fl (((199 : ℤ) : ℚ) / 100)) * 100)) = Except.ok (sampleText 'y')
    exact congrArg Except.ok (by decide +kernel : padInt 2 ((199 : ℤ) - pyInt (fl (((199 : ℤ) : ℚ) / 100)) * 100) = sampleText 'y')
  · change Except.ok (signedYear 199) = Except.ok (sampleText 'Y')
    exact congrArg Except.ok (by decide +kernel : signedYear 199 = sampleText 'Y')
  · change Except.ok (padInt 2 (22 : ℤ)) = Except.ok (sampleText 'H')
    exact congrArg Except.ok (by decide +kernel : padInt 2 (22 : ℤ) = sampleText 'H')
  · change Except.ok (padInt 2 (4 : ℤ)) = Except.ok (sampleText 'M')
    exact congrArg Except.ok (by decide +kernel : padInt 2 (4 : ℤ) = sampleText 'M')
  · change Except.ok (padInt 2 (30 : ℤ)) = Except.ok (sampleText 'S')
    exact congrArg Except.ok (by decide +kernel : padInt 2 (30 : ℤ) = sampleText 'S')

theorem method_hour {A : Astro} (hE : TehranEvening A) (hG : GreenwichSteady A) {w yd : ℤ} :
    (Cal.init A).method (tupOf (.short 199 3 17) 22 4 30 w yd) 'I' = .ok (sampleText 'I') := by
  unfold Cal.method Cal.dirI Cal.hour12
  rw [if_pos rfl, halfDay hE hG (d := .short 199 3 17) (sample_days hE).2 sample_clock.2 (by omega) (by omega) (by omega) (by omega) (by omega) (by omega)
    (Or.inr (by omega)), pyOk_bind, pyOk_bind]
  change Except.ok (padInt 2 (22 - 12)) = Except.ok (sampleText 'I')
  exact congrArg Except.ok (by decide +kernel : padInt 2 (22 - 12) = sampleText 'I')

theorem calcAmPm_ok {A : Astro} (hE : TehranEvening A) (hO : NewYearOrder (Cal.init A)) (hG : GreenwichSteady A) (L : Locale) :
    (Cal.init A).calcAmPm L = .ok (lowerS L.am, lowerS L.pm) := by
  obtain ⟨yd, e1, e2⟩ := sample_struct hE hO (sample_days hE).1 (h := 1) (mi := 44) (s := 55) (by omega) (by omega) (by omega)
  obtain ⟨yd', e3, e4⟩ := sample_struct hE hO (sample_days hE).1 (h := 22) (mi := 44) (s := 55) (by omega) (by omega) (by omega)
  have k1 := fun w => halfDay (w := w) (yd := yd) hE hG (d := .short 199 1 1) (sample_days hE).1 sample_clock.1 (h := 1) (mi := 44) (s := 55) (by omega) (by omega)
    (by omega) (by omega) (by omega) (by omega) (Or.inl (by omega))
  have k2 := fun w => halfDay (w := w) (yd := yd') hE hG (d := .short 199 1 1) (sample_days hE).1 sample_clock.1 (h := 22) (mi := 44) (s := 55) (by omega) (by omega)
    (by omega) (by omega) (by omega) (by omega) (Or.inr (by omega))
  unfold Cal.calcAmPm
  rw [e1, pyOk_bind, one_toks _ L _ (by decide), e2, pyOk_bind]
  change (do
    let am ← (Cal.init A).dirP L (tupOf (.short 199 1 1) 1 44 55 _ yd)
    _) = _
  unfold Cal.dirP
  rw [k1, pyOk_bind, pyOk_bind, e3, pyOk_bind, one_toks _ L _ (by decide), e4, pyOk_bind]
  change (do
    let pm ← (Cal.init A).dirP L (tupOf (.short 199 1 1) 22 44 55 _ yd')
    _) = _
  unfold Cal.dirP
  rw [k2, pyOk_bind, pyOk_bind]
  rfl

/-- One round of the loop. -/
theorem localeFormat_ok {A : Astro} (hE : TehranEvening A) (hO : NewYearOrder (Cal.init A)) {L : Locale} {pm : Str}
    {zones : List Str} {c : Char} {t : Str} (hc : c ∈ "aAbBcCdDefGhHIjkKlmMnprSTuUVWxXyYzZ".toList)
    (h : ∀ yd, (Cal.init A).allDirectives L ⟨tupOf (.short 199 3 17) 22 4 30 2 yd, dstFlag 0 none, none, offsetSeconds none⟩ c none =
      .ok t) :
    (Cal.init A).localeFormat L pm zones c = .ok (guessFormat pm zones (lowerS t)) := by
  obtain ⟨yd, e1, e2⟩ := sample_struct hE hO (sample_days hE).2 (h := 22) (mi := 4) (s := 30) (by omega) (by omega) (by omega)
  obtain ⟨yd', e3, e4⟩ := sample_struct hE hO (sample_days hE).1 (h := 1) (mi := 1) (s := 1) (by omega) (by omega) (by omega)
  have hw : ((745592 : ℤ) + 1) % 7 = 2 := by decide
  rw [hw] at e1 e2
  unfold Cal.localeFormat
  rw [e1, pyOk_bind, one_toks _ L _ hc, e2, pyOk_bind, h yd, pyOk_bind, e3, pyOk_bind]

/-- **C103.** `LocaleTime` finds the formats of the locale: that of `%c` is `%a %b %d %H:%M:%S %Y`, and those of `%x` and `%X`
have the fields of the locale in their order with its separators. -/
theorem C103_formats (A : Astro) (hE : TehranEvening A) (hO : NewYearOrder (Cal.init A)) (hG : GreenwichSteady A) (L : Locale)
    (zones : List Str) (hL : KnownLocale L zones) :
    (Cal.init A).localeTime L zones = .ok ⟨lowerS L.am, lowerS L.pm, "%a %b %d %H:%M:%S %Y".toList,
      ['%', L.d1, L.dSep, '%', L.d2, L.dSep, '%', L.d3], ['%', L.t1, L.tSep, '%', L.t2, L.tSep, '%', L.t3]⟩ := by
  have hpm : lowerS L.pm ∈ [[], "pm".toList] := by
    rcases hL.pm with h | h <;> rw [h] <;> simp
  obtain ⟨m1, m2, m3⟩ := hL.dateMem
  have c1 : (Cal.init A).localeFormat L (lowerS L.pm) zones 'c' = .ok "%a %b %d %H:%M:%S %Y".toList := by
    rw [localeFormat_ok hE hO (t := "Kam Jam 17 22:04:30 0199".toList) (by decide) (fun yd => by
      change Except.ok (dirC (tupOf (.short 199 3 17) 22 4 30 2 yd)) = _
      simp only [dirC, tupOf, if_true]
      exact congrArg Except.ok (by decide +kernel))]
    obtain ⟨a, b, c⟩ := good_dateTime _ hpm
    rw [guess_split hL.zoneOk a b c]
  have split : ∀ {a b c sep : Char}, goodFormat (lowerS L.pm) a b c sep = true →
      guessFormat (lowerS L.pm) zones (lowerS (sampleText a ++ sep :: sampleText b ++ sep :: sampleText c)) = threeOf a b c sep := by
    intro a b c sep h
    unfold goodFormat at h
    simp only [Bool.and_eq_true, beq_iff_eq] at h
    exact guess_split hL.zoneOk h.1.1 h.1.2 h.2
  have sub : ∀ c ∈ ['m', 'd', 'y', 'Y'], c ∈ ['m', 'd', 'y', 'Y', 'H', 'M', 'S'] := by decide
  have c2 : (Cal.init A).localeFormat L (lowerS L.pm) zones 'x' = .ok (threeOf L.d1 L.d2 L.d3 L.dSep) := by
    rw [localeFormat_ok hE hO (t := sampleText L.d1 ++ L.dSep :: sampleText L.d2 ++ L.dSep :: sampleText L.d3) (by decide) (fun yd => by
      change joinThree L.dSep ((Cal.init A).method _ L.d1) ((Cal.init A).method _ L.d2) ((Cal.init A).method _ L.d3) = _
      rw [method_sample (sub _ m1), method_sample (sub _ m2), method_sample (sub _ m3)]
      rfl), split (good_dates _ hpm _ m1 _ m2 _ m3 _ hL.dSep)]
  have c3 : (Cal.init A).localeFormat L (lowerS L.pm) zones 'X' = .ok (threeOf L.t1 L.t2 L.t3 L.tSep) := by
    obtain ⟨h1, h2, h3⟩ := hL.time
    rw [h2, h3]
    rw [localeFormat_ok hE hO (t := sampleText L.t1 ++ L.tSep :: sampleText 'M' ++ L.tSep :: sampleText 'S') (by decide) (fun yd => by
      change joinThree L.tSep ((Cal.init A).method _ L.t1) ((Cal.init A).method _ L.t2) ((Cal.init A).method _ L.t3) = _
      rw [h2, h3, method_sample (c := 'M') (by decide), method_sample (c := 'S') (by decide)]
      rcases h1 with h1 | h1 <;> rw [h1]
      · rw [method_sample (by decide)]; rfl
      · rw [method_hour hE hG]; rfl),
      split (good_times _ hpm _ (by rcases h1 with h1 | h1 <;> rw [h1] <;> simp) _ hL.tSep)]
  unfold Cal.localeTime
  rw [calcAmPm_ok hE hO hG, pyOk_bind]
  simp only
  rw [c1, pyOk_bind, c2, pyOk_bind, c3, pyOk_bind]
  rfl

/-! ## The formats in patterns -/

/-- The pieces of a format of three directives. -/
def toks3 (a b c sep : Char) : List Tok := [.dir a none, .lit sep, .dir b none, .lit sep, .dir c none]

theorem plain_dirs : ∀ c ∈ ['a', 'b', 'm', 'd', 'y', 'Y', 'H', 'I', 'M', 'S'],
    (altsOf c).isNone = false ∧ inSet "cxXZ" c = false ∧ c ≠ '%' := by decide

theorem compile_dir {c : Char} (hc : c ∈ ['a', 'b', 'm', 'd', 'y', 'Y', 'H', 'I', 'M', 'S']) (b : Bool) (r : Str) :
    compileFmt b ('%' :: c :: r) = (compileFmt false r).map (·.map (.dir c :: ·)) := by
  obtain ⟨h1, h2, h3⟩ := plain_dirs c hc
  rw [compileFmt.eq_def]
  simp [h1, h2, h3]

theorem compile_lit {c : Char} (hc : c ≠ '%') (b : Bool) (r : Str) :
    compileFmt b (c :: r) = if isSpaceC c then
      if b then compileFmt true r else (compileFmt true r).map (·.map (.space :: ·))
    else (compileFmt false r).map (·.map (.lit c :: ·)) := by
  rw [compileFmt.eq_def]
  split
  · contradiction
  · simp_all
  · simp_all
  · rename_i h
    injection h with h1 h2
    subst h1 h2
    rfl

theorem compile_sep_dir {c sep : Char} (hs : sep ≠ '%') (hc : c ∈ ['a', 'b', 'm', 'd', 'y', 'Y', 'H', 'I', 'M', 'S']) (r : Str) :
    compileFmt false (sep :: '%' :: c :: r) =
      (compileFmt false r).map (·.map ((if isSpaceC sep then Piece.space else .lit sep) :: .dir c :: ·)) := by
  rw [compile_lit hs, compile_dir hc, compile_dir hc]
  cases isSpaceC sep with
  | false =>
    cases compileFmt false r with
    | none => rfl
    | some o => cases o <;> rfl
  | true =>
    cases compileFmt false r with
    | none => rfl
    | some o => cases o <;> rfl

/-- The class of the directives of the locale's formats. -/
def FieldChar (c : Char) : Prop := c ∈ ['a', 'b', 'm', 'd', 'y', 'Y', 'H', 'I', 'M', 'S']

theorem compile_three {a b c sep : Char} (ha : FieldChar a) (hb : FieldChar b) (hc : FieldChar c) (hs : sep ≠ '%') (i : Bool) (r : Str) :
    compileFmt i (['%', a, sep, '%', b, sep, '%', c] ++ r) =
      (compileFmt false r).map (·.map (piecesOf false (toks3 a b c sep) ++ ·)) := by
  change compileFmt i ('%' :: a :: sep :: '%' :: b :: sep :: '%' :: c :: r) = _
  rw [compile_dir ha, compile_sep_dir hs hb, compile_sep_dir hs hc]
  have e : piecesOf false (toks3 a b c sep) = [.dir a, if isSpaceC sep then Piece.space else .lit sep, .dir b,
      if isSpaceC sep then Piece.space else .lit sep, .dir c] := by
    unfold toks3
    simp only [piecesOf]
    split_ifs <;> simp_all
  rw [e]
  cases compileFmt false r with
  | none => rfl
  | some o => cases o <;> rfl

theorem compile_c (i : Bool) (r : Str) :
    compileFmt i ("%a %b %d %H:%M:%S %Y".toList ++ r) = (compileFmt false r).map (·.map (piecesOf false cToks ++ ·)) := by
  change compileFmt i ('%' :: 'a' :: ' ' :: '%' :: 'b' :: ' ' :: '%' :: 'd' :: ' ' :: '%' :: 'H' :: ':' :: '%' :: 'M' :: ':' ::
    '%' :: 'S' :: ' ' :: '%' :: 'Y' :: r) = _
  rw [compile_dir (by decide), compile_sep_dir (by decide) (by decide), compile_sep_dir (by decide) (by decide),
    compile_sep_dir (by decide) (by decide), compile_sep_dir (by decide) (by decide), compile_sep_dir (by decide) (by decide),
    compile_sep_dir (by decide) (by decide)]
  cases compileFmt false r with
  | none => rfl
  | some o => cases o <;> rfl

theorem loc_pct (T : LocaleTime) (b : Bool) (c : Char) (r : Str) : compileLocale T b ('%' :: c :: r) =
    if c = '%' then (compileLocale T false r).map (·.map (.lit '%' :: ·))
    else if c = 'c' then joinPieces (compileFmt false T.dateTime) (compileLocale T false r)
    else if c = 'x' then joinPieces (compileFmt false T.date) (compileLocale T false r)
    else if c = 'X' then joinPieces (compileFmt false T.time) (compileLocale T false r)
    else if c = 'Z' then none
    else if (altsOf c).isNone then some (.error .value)
    else (compileLocale T false r).map (·.map (.dir c :: ·)) := by
  rw [compileLocale]

theorem loc_lit (T : LocaleTime) (b : Bool) {c : Char} (hc : c ≠ '%') (r : Str) : compileLocale T b (c :: r) =
    if isSpaceC c then
      if b then compileLocale T true r else (compileLocale T true r).map (·.map (.space :: ·))
    else (compileLocale T false r).map (·.map (.lit c :: ·)) := by
  rw [compileLocale.eq_def]
  split
  · contradiction
  · simp_all
  · simp_all
  · rename_i h
    injection h with h1 h2
    subst h1 h2
    rfl

theorem compile_pct (b : Bool) (c : Char) (r : Str) : compileFmt b ('%' :: c :: r) =
    if c = '%' then (compileFmt false r).map (·.map (.lit '%' :: ·))
    else if inSet "cxXZ" c then none
    else if (altsOf c).isNone then some (.error .value)
    else (compileFmt false r).map (·.map (.dir c :: ·)) := by
  rw [compileFmt]

theorem spell_pct (L : Locale) (c : Char) (r : Str) : spellOut L ('%' :: c :: r) =
    if c = 'c' then "%a %b %d %H:%M:%S %Y".toList ++ spellOut L r
    else if c = 'x' then ['%', L.d1, L.dSep, '%', L.d2, L.dSep, '%', L.d3] ++ spellOut L r
    else if c = 'X' then ['%', L.t1, L.tSep, '%', L.t2, L.tSep, '%', L.t3] ++ spellOut L r
    else '%' :: c :: spellOut L r := by
  rw [spellOut]

theorem spell_lit (L : Locale) {c : Char} (hc : c ≠ '%') (r : Str) : spellOut L (c :: r) = c :: spellOut L r := by
  rw [spellOut.eq_def]
  split
  · simp_all
  · rename_i h
    injection h with h1 h2
    subst h1 h2
    rfl
  · contradiction

theorem KnownLocale.fields {L : Locale} {zones : List Str} (h : KnownLocale L zones) :
    (FieldChar L.d1 ∧ FieldChar L.d2 ∧ FieldChar L.d3) ∧ (FieldChar L.t1 ∧ FieldChar L.t2 ∧ FieldChar L.t3) ∧
      L.dSep ≠ '%' ∧ L.tSep ≠ '%' := by
  have sub : ∀ c ∈ ['m', 'd', 'y', 'Y'], FieldChar c := by unfold FieldChar; decide
  have sep : ∀ c ∈ ['/', '-', '.', ':', ' ', ','], c ≠ '%' := by decide
  obtain ⟨m1, m2, m3⟩ := h.dateMem
  refine ⟨⟨sub _ m1, sub _ m2, sub _ m3⟩, ⟨?_, ?_, ?_⟩, sep _ h.dSep, sep _ h.tSep⟩
  · rcases h.time.1 with h | h <;> rw [h] <;> unfold FieldChar <;> decide
  · rw [h.time.2.1]; unfold FieldChar; decide
  · rw [h.time.2.2]; unfold FieldChar; decide

theorem compile_spell {L : Locale} {zones : List Str} (hL : KnownLocale L zones) (fmt : Str) (b : Bool) :
    compileLocale ⟨lowerS L.am, lowerS L.pm, "%a %b %d %H:%M:%S %Y".toList,
      ['%', L.d1, L.dSep, '%', L.d2, L.dSep, '%', L.d3], ['%', L.t1, L.tSep, '%', L.t2, L.tSep, '%', L.t3]⟩ b fmt =
      compileFmt b (spellOut L fmt) := by
  obtain ⟨⟨k1, k2, k3⟩, ⟨k4, k5, k6⟩, ks, kt⟩ := hL.fields
  have c1 := compile_c false []
  have c2 := compile_three k1 k2 k3 ks false []
  have c3 := compile_three k4 k5 k6 kt false []
  rw [List.append_nil] at c1 c2 c3
  generalize hT : (⟨lowerS L.am, lowerS L.pm, "%a %b %d %H:%M:%S %Y".toList, ['%', L.d1, L.dSep, '%', L.d2, L.dSep, '%', L.d3],
    ['%', L.t1, L.tSep, '%', L.t2, L.tSep, '%', L.t3]⟩ : LocaleTime) = T
  have t1 : T.dateTime = "%a %b %d %H:%M:%S %Y".toList := by rw [← hT]
  have t2 : T.date = ['%', L.d1, L.dSep, '%', L.d2, L.dSep, '%', L.d3] := by rw [← hT]
  have t3 : T.time = ['%', L.t1, L.tSep, '%', L.t2, L.tSep, '%', L.t3] := by rw [← hT]
  clear hT
  have join : ∀ (ps : List Piece) (k : Option (Py (List Piece))), joinPieces ((compileFmt false []).map (·.map (ps ++ ·))) k =
      k.map (·.map (ps ++ ·)) := by
    intro ps k
    change joinPieces (some (.ok (ps ++ []))) k = _
    rw [List.append_nil]
    rfl
  induction hn : fmt.length using Nat.strong_induction_on generalizing fmt b with
  | _ n ih =>
    have ih : ∀ f : Str, f.length < n → ∀ b, compileLocale T b f = compileFmt b (spellOut L f) := fun f hf b => ih _ hf f b rfl
    match fmt, hn with
    | [], _ => cases b <;> rfl
    | a :: r, hn =>
      by_cases ha : a = '%'
      · subst ha
        cases r with
        | nil => cases b <;> rfl
        | cons c r =>
          simp only [List.length_cons] at hn
          rw [loc_pct, spell_pct, ih r (by omega)]
          by_cases h0 : c = '%'
          · subst h0
            rw [if_pos rfl, if_neg (by decide), if_neg (by decide), if_neg (by decide), compile_pct, if_pos rfl]
          · rw [if_neg h0]
            by_cases h1 : c = 'c'
            · rw [if_pos h1, if_pos h1, t1, c1, join, compile_c]
            · rw [if_neg h1, if_neg h1]
              by_cases h2 : c = 'x'
              · rw [if_pos h2, if_pos h2, t2, c2, join, compile_three k1 k2 k3 ks]
              · rw [if_neg h2, if_neg h2]
                by_cases h3 : c = 'X'
                · rw [if_pos h3, if_pos h3, t3, c3, join, compile_three k4 k5 k6 kt]
                · rw [if_neg h3, if_neg h3, compile_pct, if_neg h0]
                  have hZ : inSet "cxXZ" c = true ↔ c = 'Z' := by simp [inSet, h1, h2, h3]
                  by_cases h4 : c = 'Z'
                  · rw [if_pos h4, if_pos (hZ.mpr h4)]
                  · rw [if_neg h4, if_neg (fun h => h4 (hZ.mp h))]
      · simp only [List.length_cons] at hn
        rw [loc_lit T b ha, spell_lit L ha, compile_lit ha, ih r (by omega), ih r (by omega)]

/-- **C103.** In `strptime` the directives `%c`, `%x` and `%X` stand for the formats of the locale: every format with them reads
every text as the format in which they are spelled out does. -/
theorem C103_expand (A : Astro) (hE : TehranEvening A) (hO : NewYearOrder (Cal.init A)) (hG : GreenwichSteady A) (L : Locale)
    (zones : List Str) (hL : KnownLocale L zones) :
    ∃ T, (Cal.init A).localeTime L zones = .ok T ∧ ∀ (C : Cal) (s fmt : Str) (fresh : ℕ),
      C.strptimeLocale T s fmt fresh = C.strptime s (spellOut L fmt) fresh := by
  refine ⟨_, C103_formats A hE hO hG L zones hL, fun C s fmt fresh => ?_⟩
  unfold Cal.strptimeLocale Cal.strptime
  rw [compile_spell hL]
  rfl

/-- The default locale, a European one with 24 hours and the full year, and an English one, each with the zones of Tehran. -/
example : KnownLocale (localeOf [] [] "%m/%d/%y".toList ':' false) ["utc".toList, "gmt".toList, "+0330".toList] ∧
    KnownLocale (localeOf [] [] "%d.%m.%Y".toList ':' false) ["utc".toList, "gmt".toList, "+0330".toList] ∧
    KnownLocale (localeOf "AM".toList "PM".toList "%m/%d/%Y".toList ':' true) ["utc".toList, "gmt".toList, "+0330".toList] := by
  refine ⟨⟨⟨'y', by decide, by decide⟩, by decide, by decide, by decide, by decide, by decide⟩,
    ⟨⟨'Y', by decide, by decide⟩, by decide, by decide, by decide, by decide, by decide⟩,
    ⟨⟨'Y', by decide, by decide⟩, by decide, by decide, by decide, by decide, by decide⟩⟩

end Verif
