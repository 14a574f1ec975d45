import Verif.Model.Format

/-!
# C40: `strftime` on every format
-/

namespace Verif

/-- A piece of a format: a character to copy, or a directive with its modifier. -/
inductive Tok where
  | lit (c : Char)
  | dir (c : Char) (m : Option Char)
  deriving DecidableEq, Repr

/-- The text of a piece in the format. -/
def Tok.text : Tok → Str
  | .lit c => [c]
  | .dir c none => ['%', c]
  | .dir c (some m) => ['%', m, c]

/-- A format as text. -/
def tokText (ts : List Tok) : Str := ts.flatMap Tok.text

/-- What a piece should give. -/
def Tok.value (dir : Directives) : Tok → Py Str
  | .lit c => .ok [c]
  | .dir c m => dir c m

/-- What a format should give: the values of the pieces in order, or the first exception. -/
def tokValues (dir : Directives) : List Tok → Py Str
  | [] => .ok []
  | t :: ts => do
    let s ← t.value dir
    let r ← tokValues dir ts
    .ok (s ++ r)

/-- The documented directives, without `%%`. -/
def Tok.Documented : Tok → Prop
  | .lit c => c ≠ '%'
  | .dir c none => c ∈ "aAbBcCdDefGhHIjkKlmMnprSTuUVWxXyYzZ".toList
  | .dir c (some '-') => c ∈ "dHjlmMSy".toList
  | .dir c (some ':') => c ∈ "KVz".toList
  | .dir _ (some _) => False

def Tok.isLit : Tok → Bool
  | .lit _ => true
  | _ => false

/-- A literal dash or colon. -/
def Tok.isDash (t : Tok) : Bool := t = .lit '-' || t = .lit ':'

theorem lastChar_spec (f : Str) : lastChar f = f.getLastD ' ' := rfl

theorem inSet_iff (s : String) (c : Char) : inSet s c = true ↔ c ∈ s.toList := by
  unfold inSet; simp

theorem inSet_false (s : String) (c : Char) : inSet s c = false ↔ c ∉ s.toList := by
  rw [← inSet_iff]; simp

/-- The character a piece ends with. -/
def Tok.last : Tok → Char
  | .lit c => c
  | .dir c _ => c

/-- The documented directive characters. -/
theorem documented_facts {c : Char} {m : Option Char} (h : (Tok.dir c m).Documented) :
    c ≠ '%' ∧ c ∉ "-:".toList ∧ inSet validFormatChrs c = true ∧
      ((m = none) ∨ (m = some '-' ∧ inSet "dHjlmMSy" c = true) ∨ (m = some ':' ∧ inSet "KVz" c = true)) := by
  have all : ∀ x ∈ "aAbBcCdDefGhHIjkKlmMnprSTuUVWxXyYzZ".toList,
      x ≠ '%' ∧ x ∉ "-:".toList ∧ inSet validFormatChrs x = true := by decide
  have dash : ∀ x ∈ "dHjlmMSy".toList, x ∈ "aAbBcCdDefGhHIjkKlmMnprSTuUVWxXyYzZ".toList := by decide
  have colon : ∀ x ∈ "KVz".toList, x ∈ "aAbBcCdDefGhHIjkKlmMnprSTuUVWxXyYzZ".toList := by decide
  unfold Tok.Documented at h
  split at h
  · contradiction
  · rename_i heq; cases heq
    obtain ⟨a, b, d⟩ := all _ h
    exact ⟨a, b, d, Or.inl rfl⟩
  · rename_i heq; cases heq
    obtain ⟨a, b, d⟩ := all _ (dash _ h)
    exact ⟨a, b, d, Or.inr (Or.inl ⟨rfl, (inSet_iff _ _).2 h⟩)⟩
  · rename_i heq; cases heq
    obtain ⟨a, b, d⟩ := all _ (colon _ h)
    exact ⟨a, b, d, Or.inr (Or.inr ⟨rfl, (inSet_iff _ _).2 h⟩)⟩
  · exact h.elim

theorem dash_set {c : Char} : inSet "-:" c = true ↔ c = '-' ∨ c = ':' := by
  rw [inSet_iff]; simp

theorem drop_set {c : Char} : inSet "%-:" c = true ↔ c = '%' ∨ c = '-' ∨ c = ':' := by
  rw [inSet_iff]; simp

theorem formatLoop_dir {dir : Directives} {c : Char} {m : Option Char} (h : (Tok.dir c m).Documented) (prev : Char)
    (rest : Str) :
    formatLoop dir prev ((Tok.dir c m).text ++ rest) = (do
      let s ← dir c m
      let r ← formatLoop dir c rest
      .ok (s ++ r)) := by
  obtain ⟨h1, h2, h3, h4⟩ := documented_facts h
  have hc : inSet "-:" c = false := (inSet_false _ _).2 h2
  have step : formatLoop dir '%' (c :: rest) = formatLoop dir c rest := by
    rw [formatLoop, if_neg (by tauto)]
    have : inSet "%-:" '%' = true := by decide
    simp only [this, if_true]
    cases formatLoop dir c rest <;> rfl
  have stepm : ∀ x, (x = '-' ∨ x = ':') → formatLoop dir x (c :: rest) = formatLoop dir c rest := by
    intro x hx
    rw [formatLoop, if_neg (by tauto)]
    have : inSet "%-:" x = true := drop_set.2 (Or.inr hx)
    simp only [this, if_true]
    cases formatLoop dir c rest <;> rfl
  rcases h4 with rfl | ⟨rfl, -⟩ | ⟨rfl, -⟩
  · simp only [Tok.text, List.cons_append, List.nil_append]
    rw [formatLoop, if_pos ⟨rfl, by simp⟩, step]
    simp only [expand, hc, Bool.false_eq_true, if_false]
    cases dir c none with
    | error e => rfl
    | ok s => cases formatLoop dir c rest <;> rfl
  all_goals
    simp only [Tok.text, List.cons_append, List.nil_append]
    rw [formatLoop, if_pos ⟨rfl, by simp⟩, formatLoop, if_neg (by simp), stepm _ (by decide)]
    have e1 : inSet "%-:" '%' = true := by decide
    have e2 : inSet "-:" '-' = true := by decide
    have e3 : inSet "-:" ':' = true := by decide
    simp only [expand, e1, e2, e3, if_true]
  · cases dir c (some '-') with
    | error e => rfl
    | ok s => cases formatLoop dir c rest <;> rfl
  · cases dir c (some ':') with
    | error e => rfl
    | ok s => cases formatLoop dir c rest <;> rfl

theorem formatLoop_lit {dir : Directives} {c : Char} (h : c ≠ '%') (prev : Char) (hp : inSet "%-:" prev = false)
    (rest : Str) :
    formatLoop dir prev (c :: rest) = (do
      let r ← formatLoop dir c rest
      .ok (c :: r)) := by
  rw [formatLoop, if_neg (by tauto)]
  simp only [hp, Bool.false_eq_true, if_false]
  cases formatLoop dir c rest <;> rfl

theorem checkLoop_tok {t : Tok} (h : t.Documented) (prev : Char) (rest : Str) :
    checkLoop prev (t.text ++ rest) = checkLoop t.last rest := by
  cases t with
  | lit c =>
    have h : c ≠ '%' := h
    simp only [Tok.text, List.cons_append, List.nil_append, Tok.last]
    rw [checkLoop, if_neg (by tauto)]
  | dir c m =>
    obtain ⟨h1, h2, h3, h4⟩ := documented_facts h
    have hc : inSet "-:" c = false := (inSet_false _ _).2 h2
    have step : ∀ x, checkLoop x (c :: rest) = checkLoop c rest := by
      intro x; rw [checkLoop, if_neg (by tauto)]
    have stepm : ∀ x y, x ≠ '%' → checkLoop y (x :: c :: rest) = checkLoop c rest := by
      intro x y hx; rw [checkLoop, if_neg (by tauto), step]
    have e2 : inSet "-:" '-' = true := by decide
    have e3 : inSet "-:" ':' = true := by decide
    rcases h4 with rfl | ⟨rfl, h5⟩ | ⟨rfl, h5⟩
    · simp only [Tok.text, List.cons_append, List.nil_append, Tok.last]
      have hd : checkDirective (c :: rest) = .ok () := by
        unfold checkDirective
        simp only [hc, Bool.false_eq_true, if_false, h3]
        rfl
      rw [checkLoop, hd, step]
      split_ifs <;> rfl
    · simp only [Tok.text, List.cons_append, List.nil_append, Tok.last]
      have hd : checkDirective ('-' :: c :: rest) = .ok () := by
        unfold checkDirective
        simp only [e2, if_true, h3, h5]
        rw [if_neg (by simp)]
      rw [checkLoop, hd, stepm _ _ (by decide)]
      split_ifs <;> rfl
    · simp only [Tok.text, List.cons_append, List.nil_append, Tok.last]
      have hd : checkDirective (':' :: c :: rest) = .ok () := by
        unfold checkDirective
        simp only [e3, if_true, h3, h5]
        rw [if_neg (by simp)]
      rw [checkLoop, hd, stepm _ _ (by decide)]
      split_ifs <;> rfl

theorem checkLoop_toks {ts : List Tok} (h : ∀ t ∈ ts, t.Documented) (prev : Char) (rest : Str) :
    ∃ p, checkLoop prev (tokText ts ++ rest) = checkLoop p rest := by
  induction ts generalizing prev with
  | nil => exact ⟨prev, rfl⟩
  | cons t ts ih =>
    obtain ⟨p, hp⟩ := ih (fun x hx => h x (List.mem_cons_of_mem _ hx)) t.last
    refine ⟨p, ?_⟩
    rw [← hp]
    simp only [tokText, List.flatMap_cons, List.append_assoc]
    exact checkLoop_tok (h _ List.mem_cons_self) _ _

/-- The pieces in a row where every literal is kept: none follows a literal dash or colon. -/
def NoDash (ts : List Tok) : Prop := ts.IsChain (fun a b => ¬ (a.isDash = true ∧ b.isLit = true))

theorem formatLoop_toks {dir : Directives} {ts : List Tok} (h : ∀ t ∈ ts, t.Documented) (hs : NoDash ts) (prev : Char)
    (hp : ∀ t ∈ ts.head?, t.isLit = true → inSet "%-:" prev = false) (rest : Str)
    (R : Py Str) (hR : ∀ p, formatLoop dir p rest = R) :
    formatLoop dir prev (tokText ts ++ rest) = (do
      let s ← tokValues dir ts
      let r ← R
      .ok (s ++ r)) := by
  induction ts generalizing prev with
  | nil =>
    simp only [tokText, List.flatMap_nil, List.nil_append, tokValues]
    rw [hR]
    cases R <;> rfl
  | cons t ts ih =>
    have ht := h _ List.mem_cons_self
    have htail := fun x hx => h x (List.mem_cons_of_mem _ hx)
    have hs' : NoDash ts := (List.isChain_cons.1 hs).2
    have hnext : ∀ b ∈ ts.head?, b.isLit = true → inSet "%-:" t.last = false := by
      intro b hb hl
      have := (List.isChain_cons.1 hs).1 b hb
      rw [Bool.eq_false_iff]
      intro hd
      rw [drop_set] at hd
      cases t with
      | lit c =>
        have hc : c ≠ '%' := ht
        apply this
        refine ⟨?_, hl⟩
        simp only [Tok.last] at hd
        unfold Tok.isDash
        rcases hd with hd | hd | hd
        · exact absurd hd hc
        · simp [hd]
        · simp [hd]
      | dir c m =>
        obtain ⟨h1, h2, -⟩ := documented_facts ht
        simp only [Tok.last] at hd
        rcases hd with hd | hd | hd
        · exact h1 hd
        · exact h2 (by simp [hd])
        · exact h2 (by simp [hd])
    have ih' := ih htail hs' t.last hnext
    simp only [tokText, List.flatMap_cons, List.append_assoc, tokValues] at ih' ⊢
    cases t with
    | lit c =>
      have hpr := hp (.lit c) (by simp) rfl
      rw [show (Tok.lit c).text ++ (List.flatMap Tok.text ts ++ rest) = c :: (List.flatMap Tok.text ts ++ rest) from rfl,
        formatLoop_lit ht _ hpr]
      rw [show (Tok.lit c).last = c from rfl] at ih'
      rw [ih', show Tok.value dir (Tok.lit c) = .ok [c] from rfl]
      cases tokValues dir ts with
      | error e => rfl
      | ok s => cases R <;> rfl
    | dir c m =>
      rw [formatLoop_dir ht]
      rw [show (Tok.dir c m).last = c from rfl] at ih'
      rw [ih', show Tok.value dir (Tok.dir c m) = dir c m from rfl]
      cases dir c m with
      | error e => rfl
      | ok v =>
        cases tokValues dir ts with
        | error e => rfl
        | ok s => cases R with
          | error e => rfl
          | ok r => simp [bind, Except.bind]

/-- C40: a format made of literals and documented directives gives the literals unchanged and in order, and the value
of each directive in its place (or the exception of the first directive that raises one), for any meaning of the
directives. Missing from the full property: a literal directly after a literal dash or colon, a literal in front of a
format that ends with a dash, a colon or a percent sign, and `%%`; for these it is false (below). -/
theorem C40_copies_partial (dir : Directives) (ts : List Tok) (hne : ts ≠ []) (h : ∀ t ∈ ts, t.Documented)
    (hs : ts.IsChain (fun a b => ¬ (a.isDash = true ∧ b.isLit = true)))
    (hf : ∀ a b, ts.head? = some a → ts.getLast? = some b → ¬ (a.isLit = true ∧ b.isDash = true)) :
    strftimeWith dir (tokText ts) = tokValues dir ts := by
  have hne' : tokText ts ≠ [] := by
    cases ts with
    | nil => exact absurd rfl hne
    | cons t ts => cases t with
      | lit c => simp [tokText, Tok.text]
      | dir c m => cases m <;> simp [tokText, Tok.text]
  have hchk : checkFormat (tokText ts) = .ok () := by
    obtain ⟨p, hp⟩ := checkLoop_toks h (lastChar (tokText ts)) []
    rw [List.append_nil] at hp
    unfold checkFormat
    rw [hp]
    simp only [checkLoop, if_neg hne']
  have hlast : ∀ b, ts.getLast? = some b → lastChar (tokText ts) = b.last := by
    intro b hb
    obtain ⟨pre, rfl⟩ : ∃ pre, ts = pre ++ [b] := by
      rw [List.getLast?_eq_some_iff] at hb; exact hb
    unfold lastChar tokText
    rw [List.flatMap_append]
    cases b with
    | lit c => simp [Tok.text, Tok.last]
    | dir c m => cases m <;> simp [Tok.text, Tok.last]
  have hprev : ∀ t ∈ ts.head?, t.isLit = true → inSet "%-:" (lastChar (tokText ts)) = false := by
    intro t ht hl
    obtain ⟨b, hb⟩ : ∃ b, ts.getLast? = some b := by
      cases hh : ts.getLast? with
      | none => rw [List.getLast?_eq_none_iff] at hh; exact absurd hh hne
      | some b => exact ⟨b, rfl⟩
    have hnd := hf t b ht hb
    rw [hlast b hb, Bool.eq_false_iff]
    intro hd
    rw [drop_set] at hd
    have hbm : b ∈ ts := List.mem_of_getLast? hb
    cases b with
    | lit c =>
      have hc : c ≠ '%' := h _ hbm
      apply hnd
      refine ⟨hl, ?_⟩
      simp only [Tok.last] at hd
      unfold Tok.isDash
      rcases hd with hd | hd | hd
      · exact absurd hd hc
      · simp [hd]
      · simp [hd]
    | dir c m =>
      obtain ⟨h1, h2, -⟩ := documented_facts (h _ hbm)
      simp only [Tok.last] at hd
      rcases hd with hd | hd | hd
      · exact h1 hd
      · exact h2 (by simp [hd])
      · exact h2 (by simp [hd])
  have := formatLoop_toks (dir := dir) h hs (lastChar (tokText ts)) hprev [] (.ok []) (fun p => rfl)
  rw [List.append_nil] at this
  unfold strftimeWith
  rw [hchk]
  simp only
  rw [this]
  cases tokValues dir ts with
  | error e => rfl
  | ok s => simp [bind, Except.bind]

/-- "on %-d %B, %H:%M" meets the hypotheses. -/
example :
    let ts : List Tok := [.lit 'o', .lit 'n', .lit ' ', .dir 'd' (some '-'), .lit ' ', .dir 'B' none, .lit ',',
      .lit ' ', .dir 'H' none, .lit ':', .dir 'M' none]
    tokText ts = "on %-d %B, %H:%M".toList ∧
    ts ≠ [] ∧ (∀ t ∈ ts, t.Documented) ∧ ts.IsChain (fun a b => ¬ (a.isDash = true ∧ b.isLit = true)) ∧
    (∀ a b, ts.head? = some a → ts.getLast? = some b → ¬ (a.isLit = true ∧ b.isDash = true)) := by
  refine ⟨by decide, by decide, ?_, by decide, ?_⟩
  · intro t ht
    simp only [List.mem_cons, List.not_mem_nil, or_false] at ht
    rcases ht with rfl | rfl | rfl | rfl | rfl | rfl | rfl | rfl | rfl | rfl | rfl <;> simp [Tok.Documented]
  · intro a b ha hb
    simp at ha hb
    subst ha hb
    decide

/-- C40, `%%` gives one percent sign at the end of a format that does not begin with a literal. -/
theorem C40_percent_partial (dir : Directives) (hpc : dir '%' none = .ok ['%']) (ts : List Tok)
    (h : ∀ t ∈ ts, t.Documented) (hs : ts.IsChain (fun a b => ¬ (a.isDash = true ∧ b.isLit = true)))
    (hf : ∀ a, ts.head? = some a → a.isLit = false) :
    strftimeWith dir (tokText ts ++ ['%', '%']) = (do
      let s ← tokValues dir ts
      .ok (s ++ ['%'])) := by
  have hend : ∀ p, checkLoop p ['%', '%'] = .ok () := by
    intro p
    rw [checkLoop]
    have : checkDirective ['%'] = .ok () := by decide
    rw [this]
    have e : checkLoop '%' ['%'] = .ok () := by decide
    rw [e]
    split_ifs <;> rfl
  have hchk : checkFormat (tokText ts ++ ['%', '%']) = .ok () := by
    obtain ⟨p, hp⟩ := checkLoop_toks h (lastChar (tokText ts ++ ['%', '%'])) ['%', '%']
    unfold checkFormat
    rw [hp, hend]
    simp
  have hR : ∀ p, formatLoop dir p ['%', '%'] = .ok ['%'] := by
    intro p
    rw [formatLoop, if_pos ⟨rfl, by simp⟩]
    have e : formatLoop dir '%' ['%'] = .ok [] := by
      rw [formatLoop, if_neg (by simp)]
      rfl
    have e2 : expand dir ['%'] = .ok ['%'] := by
      unfold expand
      have : inSet "-:" '%' = false := by decide
      simp only [this, Bool.false_eq_true, if_false, hpc]
    rw [e, e2]
    rfl
  have := formatLoop_toks (dir := dir) h hs (lastChar (tokText ts ++ ['%', '%']))
    (fun t ht hl => by rw [hf t ht] at hl; exact absurd hl (by decide)) ['%', '%'] _ hR
  unfold strftimeWith
  rw [hchk]
  simp only
  rw [this]
  rfl

example : (∀ t ∈ [Tok.dir 'd' none, .lit ' '], t.Documented) ∧
    [Tok.dir 'd' none, .lit ' '].IsChain (fun a b => ¬ (a.isDash = true ∧ b.isLit = true)) := by
  refine ⟨?_, by decide⟩
  intro t ht
  simp only [List.mem_cons, List.not_mem_nil, or_false] at ht
  rcases ht with rfl | rfl <;> simp [Tok.Documented]

/-- What may follow a percent sign. -/
def WellFormed (r : Str) : Prop :=
  (∃ c r', r = c :: r' ∧ c ∈ "aAbBcCdDefGhHIjkKlmMnprSTuUVWxXyYzZ%".toList) ∨
  (∃ c r', r = '-' :: c :: r' ∧ c ∈ "dHjlmMSy".toList) ∨
  (∃ c r', r = ':' :: c :: r' ∧ c ∈ "KVz".toList)

theorem checkDirective_bad {r : Str} (h : ¬ WellFormed r) :
    checkDirective r = .error .value ∨ checkDirective r = .error .index := by
  cases r with
  | nil => right; rfl
  | cons c r =>
    unfold checkDirective
    simp only
    by_cases hc : inSet "-:" c = true
    · rw [if_pos hc]
      cases r with
      | nil => right; rfl
      | cons c1 r =>
        left
        simp only
        apply if_pos
        rcases dash_set.1 hc with rfl | rfl
        · right; left
          refine ⟨rfl, ?_⟩
          rw [inSet_false]
          intro hm
          exact h (Or.inr (Or.inl ⟨c1, r, rfl, hm⟩))
        · right; right
          refine ⟨rfl, ?_⟩
          rw [inSet_false]
          intro hm
          exact h (Or.inr (Or.inr ⟨c1, r, rfl, hm⟩))
    · rw [if_neg hc]
      left
      apply if_pos
      rw [inSet_false]
      intro hm
      exact h (Or.inl ⟨c, r, rfl, hm⟩)

/-- C40: a format with a malformed directive is refused with ValueError (or IndexError, when it ends too early),
provided the percent sign does not follow another one. For the first character of the format the one before is the
last character. -/
theorem C40_refused (dir : Directives) (pre r : Str) (h : ¬ WellFormed r)
    (hp : pre.getLastD ((pre ++ '%' :: r).getLastD ' ') ≠ '%') :
    strftimeWith dir (pre ++ '%' :: r) = .error .value ∨ strftimeWith dir (pre ++ '%' :: r) = .error .index := by
  have key : ∀ (pre : Str) (p : Char), pre.getLastD p ≠ '%' →
      checkLoop p (pre ++ '%' :: r) = .error .value ∨ checkLoop p (pre ++ '%' :: r) = .error .index := by
    have all : ∀ r, checkDirective r = .ok () ∨ checkDirective r = .error .value ∨ checkDirective r = .error .index := by
      intro r
      unfold checkDirective
      cases r with
      | nil => tauto
      | cons c r =>
        simp only
        split_ifs
        · cases r with
          | nil => tauto
          | cons c1 r => simp only; split_ifs <;> tauto
        · tauto
        · tauto
    intro pre
    induction pre with
    | nil =>
      intro p hp
      simp only [List.getLastD_nil] at hp
      rw [List.nil_append, checkLoop, if_pos ⟨rfl, hp⟩]
      rcases checkDirective_bad h with e | e <;> rw [e] <;> simp
    | cons c pre ih =>
      intro p hp
      have hp' : pre.getLastD c ≠ '%' := by
        rw [List.getLastD_cons] at hp; exact hp
      have := ih c hp'
      rw [List.cons_append, checkLoop]
      split_ifs
      · rcases all (pre ++ '%' :: r) with e | e | e <;> rw [e] <;> simp [this]
      · exact this
  unfold strftimeWith checkFormat
  rcases key pre _ hp with e | e <;> unfold lastChar <;> rw [e] <;> simp

example : ¬ WellFormed "-Q".toList ∧ ¬ WellFormed ":d".toList ∧ ¬ WellFormed [] ∧ ¬ WellFormed "q".toList := by
  refine ⟨?_, ?_, ?_, ?_⟩ <;>
  · rintro (⟨c, r, e, hm⟩ | ⟨c, r, e, hm⟩ | ⟨c, r, e, hm⟩) <;>
    first
      | (cases e; revert hm; decide)
      | cases e

/-- C40: the empty format is refused with ValueError. -/
theorem C40_empty_refused (dir : Directives) : strftimeWith dir [] = .error .value := rfl

/-- C40 is false: a literal after a literal dash or colon is lost ("a-b" gives "a-"), and so is a first literal when
the last character is a dash, a colon or a percent sign ("at %H:" gives "t ..:"). -/
theorem C40_literal_negation (dir : Directives) :
    strftimeWith dir "a-b".toList = .ok "a-".toList ∧
    strftimeWith dir "at %H:".toList = (do
      let s ← dir 'H' none
      .ok ("t ".toList ++ s ++ ":".toList)) := by
  constructor
  · rfl
  · have e : checkFormat "at %H:".toList = .ok () := by decide
    unfold strftimeWith
    rw [e]
    change formatLoop dir ':' ['a', 't', ' ', '%', 'H', ':'] = _
    simp only [formatLoop, expand]
    cases dir 'H' none with
    | error e => rfl
    | ok s => simp [bind, Except.bind, inSet_iff]

/-- C40 is false: the second sign of `%%` starts a directive ("%%d" gives a percent sign and the day), and "5%%" loses
the 5. -/
theorem C40_percent_negation (dir : Directives) (hpc : dir '%' none = .ok ['%']) :
    strftimeWith dir "%%d".toList = (do
      let s ← dir 'd' none
      .ok ('%' :: s)) ∧
    strftimeWith dir "5%%".toList = .ok ['%'] := by
  constructor
  · have e : checkFormat "%%d".toList = .ok () := by decide
    unfold strftimeWith
    rw [e]
    change formatLoop dir 'd' ['%', '%', 'd'] = _
    simp only [formatLoop, expand]
    have e1 : inSet "-:" '%' = false := by decide
    have e2 : inSet "-:" 'd' = false := by decide
    simp only [e1, e2, hpc]
    cases dir 'd' none with
    | error e => rfl
    | ok s => simp [bind, Except.bind, inSet_iff]
  · have e : checkFormat "5%%".toList = .ok () := by decide
    unfold strftimeWith
    rw [e]
    change formatLoop dir '%' ['5', '%', '%'] = _
    simp only [formatLoop, expand]
    have e1 : inSet "-:" '%' = false := by decide
    simp only [e1, hpc]
    rfl

/-- C40 is false: a malformed directive at the start of a format that ends with a percent sign is accepted. -/
theorem C40_refused_negation (dir : Directives) (hpc : dir '%' none = .ok ['%']) (s : Str)
    (ha : dir 'a' (some '-') = .ok s) :
    ¬ WellFormed "-a%%".toList ∧ strftimeWith dir "%-a%%".toList = .ok (s ++ ['%']) := by
  constructor
  · rintro (⟨c, r, e, hm⟩ | ⟨c, r, e, hm⟩ | ⟨c, r, e, hm⟩) <;>
    first
      | (cases e; revert hm; decide)
      | cases e
  · have e : checkFormat "%-a%%".toList = .ok () := by decide
    unfold strftimeWith
    rw [e]
    change formatLoop dir '%' ['%', '-', 'a', '%', '%'] = _
    simp only [formatLoop, expand]
    have e1 : inSet "-:" '%' = false := by decide
    have e2 : inSet "-:" '-' = true := by decide
    simp only [e1, e2, hpc, ha]
    simp [inSet_iff]

example : ∃ dir : Directives, dir '%' none = .ok ['%'] ∧ dir 'a' (some '-') = .ok ['J', 'a', 'l'] :=
  ⟨fun c _ => if c = '%' then .ok ['%'] else .ok ['J', 'a', 'l'], rfl, rfl⟩

end Verif
