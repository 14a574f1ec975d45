import Verif.Spec.PyExpr
import Verif.Model.Repr
import Verif.Lemmas.IsoText

/-!
# Helper lemmas: reading the texts of `repr`
-/

namespace Verif.PyExpr

/-- The text after an expression does not continue a word. -/
def Break (r : Str) : Prop := ∀ c ∈ r.head?, wordChar c = false

theorem lex_word {w : Str} (hw : ∀ c ∈ w, wordChar c = true) (acc r : Str) (hr : Break r) :
    lex .code acc (w ++ r) = flush (acc ++ w) ++ lex .code [] r := by
  induction w generalizing acc with
  | nil =>
    cases r with
    | nil => simp [lex, flush]
    | cons c r =>
      have : wordChar c = false := hr c (by simp)
      simp [lex, this, flush]
  | cons c w ih =>
    have h1 : wordChar c = true := hw c (by simp)
    have := ih (fun d hd => hw d (by simp [hd])) (acc ++ [c])
    simp only [List.cons_append, lex, h1, if_true, this, List.append_assoc, List.nil_append]

theorem lex_sym {c : Char} (hc : wordChar c = false) (h1 : c ≠ '\'' ∧ c ≠ '"') (h2 : c ≠ ' ') (r : Str) :
    lex .code [] (c :: r) = symbol c :: lex .code [] r := by
  simp [lex, hc, h1.1, h1.2, h2, flush]

theorem lex_space (r : Str) : lex .code [] (' ' :: r) = lex .code [] r := by
  have : wordChar ' ' = false := by decide
  simp [lex, this, flush]

theorem isDig_word {c : Char} (h : isDig c = true) : wordChar c = true := by
  simp only [isDig, Bool.and_eq_true, decide_eq_true_eq] at h
  have : c.isDigit = true := by
    unfold Char.isDigit
    simp only [ge_iff_le, Bool.and_eq_true, decide_eq_true_eq]
    constructor
    · show (48 : UInt32) ≤ c.val
      exact UInt32.le_iff_toNat_le.2 h.1
    · show c.val ≤ (57 : UInt32)
      exact UInt32.le_iff_toNat_le.2 h.2
  simp [wordChar, Char.isAlphanum, this]

/-- The tokens of an integer. -/
def intToks (n : ℤ) : List Tok := if n < 0 then [.minus, .num n.natAbs] else [.num n.toNat]

theorem flush_nat (w n : ℕ) : flush (padNat w n) = [.num n] := by
  unfold padNat
  set v := max w (Nat.log 10 n + 1) with hv
  have v0 : 0 < v := by omega
  have h : n < 10 ^ v := (Nat.lt_pow_succ_log_self (by norm_num) n).trans_le (Nat.pow_le_pow_right (by norm_num) (by omega))
  unfold flush
  rw [natVal_digits v0 h, if_neg]
  intro e
  have := digitsW_length v n
  rw [e] at this
  simp at this
  omega

theorem padNat_word (w n : ℕ) : ∀ c ∈ padNat w n, wordChar c = true := fun c hc => isDig_word (digitsW_isDig _ _ c hc)

theorem lex_int (n : ℤ) (r : Str) (hr : Break r) : lex .code [] (strInt n ++ r) = intToks n ++ lex .code [] r := by
  unfold strInt padInt intToks
  split_ifs with h
  · rw [List.cons_append, lex_sym (by decide) (by decide) (by decide), lex_word (padNat_word _ _) _ _ hr, List.nil_append, flush_nat]
    rfl
  · rw [lex_word (padNat_word _ _) _ _ hr, List.nil_append, flush_nat]

/-- The tokens after an argument. -/
def Tail (r : List Tok) : Prop := r = [] ∨ (∃ r', r = .comma :: r') ∨ ∃ r', r = .close :: r'

/-- The text is an argument with that name and that value. -/
structure FitArg (s : Str) (a : Str × Expr) (ts : List Tok) : Prop where
  lexed : ∀ r, Break r → lex .code [] (s ++ r) = ts ++ lex .code [] r
  key : ∀ r, Tail r → (keyword (ts ++ r)).1 = a.1
  val : ∀ f r, ts.length ≤ f → Tail r → value f (keyword (ts ++ r)).2 = some (a.2, r)
  ne : ∀ r, ts ++ r ≠ [] ∧ ∀ r', ts ++ r ≠ .close :: r'

/-- The text is that expression. -/
def Fit (s : Str) (e : Expr) (ts : List Tok) : Prop :=
  FitArg s ([], e) ts ∧ ∀ r, Tail r → (keyword (ts ++ r)).2 = ts ++ r

theorem fit_int (n : ℤ) : Fit (strInt n) (.int n) (intToks n) := by
  have k : ∀ r, Tail r → keyword (intToks n ++ r) = ([], intToks n ++ r) := by
    intro r hr
    unfold intToks
    split_ifs <;> rfl
  refine ⟨⟨fun r hr => lex_int n r hr, fun r hr => by rw [k r hr], ?_, ?_⟩, fun r hr => by rw [k r hr]⟩
  · intro f r hf hr
    rw [k r hr]
    unfold intToks at *
    split_ifs at * with h
    · obtain ⟨f, rfl⟩ : ∃ g, f = g + 1 := ⟨f - 1, by simp at hf; omega⟩
      simp only [List.cons_append, List.nil_append, value]
      rw [show -((n.natAbs : ℕ) : ℤ) = n by omega]
    · obtain ⟨f, rfl⟩ : ∃ g, f = g + 1 := ⟨f - 1, by simp at hf; omega⟩
      simp only [List.cons_append, List.nil_append, value]
      rw [show ((n.toNat : ℕ) : ℤ) = n by omega]
  · intro r
    unfold intToks
    split_ifs <;> simp

theorem fit_word {w : Str} (hw : ∀ c ∈ w, wordChar c = true) (hn : flush w = [.word w]) {e : Expr}
    (he : (if w = "None".toList then Expr.none else .name w) = e) : Fit w e [.word w] := by
  have k : ∀ r, Tail r → keyword ([.word w] ++ r) = ([], [.word w] ++ r) := by
    rintro r (rfl | ⟨r', rfl⟩ | ⟨r', rfl⟩) <;> rfl
  refine ⟨⟨fun r hr => by rw [lex_word hw _ _ hr, List.nil_append, hn], fun r hr => by rw [k r hr], ?_, ?_⟩, fun r hr => by rw [k r hr]⟩
  · intro f r hf hr
    rw [k r hr]
    obtain ⟨f, rfl⟩ : ∃ g, f = g + 1 := ⟨f - 1, by simp at hf; omega⟩
    rw [← he]
    rcases hr with rfl | ⟨r', rfl⟩ | ⟨r', rfl⟩ <;> simp only [List.cons_append, List.nil_append, value] <;> split_ifs <;> rfl
  · intro r; simp

theorem hexVal_digit : ∀ d < 16, hexVal ("0123456789abcdef".toList.getD d '0') = some d := by decide

theorem lex_hex (q : Char) (w n v : ℕ) (acc r : Str) (hv : (16 ^ (w + 1) * v + n % 16 ^ (w + 1)).isValidChar) :
    lex (.hex q (w + 1) v) acc (hexW (w + 1) n ++ r) =
      lex (.str q) (acc ++ [Char.ofNat (16 ^ (w + 1) * v + n % 16 ^ (w + 1))]) r := by
  induction w generalizing v with
  | zero =>
    have e := hexVal_digit (n / 16 ^ 0 % 16) (Nat.mod_lt _ (by norm_num))
    simp only [pow_zero, Nat.div_one] at e
    simp only [zero_add, pow_one] at hv ⊢
    rw [hexW, hexW]
    simp only [pow_zero, Nat.div_one, List.cons_append, List.nil_append, lex, e, lt_irrefl, if_false, hv, if_true]
  | succ w ih =>
    have e := hexVal_digit (n / 16 ^ (w + 1) % 16) (Nat.mod_lt _ (by norm_num))
    have k : 16 ^ (w + 1) * (16 * v + n / 16 ^ (w + 1) % 16) + n % 16 ^ (w + 1) = 16 ^ (w + 1 + 1) * v + n % 16 ^ (w + 1 + 1) := by
      have : n % 16 ^ (w + 1 + 1) = n % 16 ^ (w + 1) + 16 ^ (w + 1) * (n / 16 ^ (w + 1) % 16) := by
        rw [pow_succ 16 (w + 1), Nat.mod_mul]
      rw [this]
      ring
    have := ih (16 * v + n / 16 ^ (w + 1) % 16) (by rw [k]; exact hv)
    rw [hexW]
    simp only [List.cons_append, lex, e]
    rw [if_pos (by omega), show w + 1 + 1 - 1 = w + 1 by omega, this, k]

theorem lex_hexChar (q c : Char) (w : ℕ) (acc r : Str) (hw : c.toNat < 16 ^ (w + 1)) :
    lex (.hex q (w + 1) 0) acc (hexW (w + 1) c.toNat ++ r) = lex (.str q) (acc ++ [c]) r := by
  have e : 16 ^ (w + 1) * 0 + c.toNat % 16 ^ (w + 1) = c.toNat := by rw [Nat.mod_eq_of_lt hw]; omega
  rw [lex_hex _ _ _ _ _ _ (by rw [e]; exact c.valid), e, Char.ofNat_toNat]

theorem lex_char (P : Char → Bool) {q : Char} (hq : q = '\'' ∨ q = '"') (c : Char) (acc r : Str) :
    lex (.str q) acc (charRepr P q c ++ r) = lex (.str q) (acc ++ [c]) r := by
  have q1 : q ≠ '\\' := by rcases hq with rfl | rfl <;> decide
  have x : ∀ k, c.toNat < 16 ^ (k + 1) → ∀ u, (u, k) ∈ [('x', 1), ('u', 3), ('U', 7)] →
      lex (.str q) acc ('\\' :: u :: hexW (k + 1) c.toNat ++ r) = lex (.str q) (acc ++ [c]) r := by
    intro k hk u hu
    have h := lex_hexChar q c k acc r hk
    simp only [List.mem_cons, Prod.mk.injEq, List.not_mem_nil, or_false] at hu
    rcases hu with ⟨rfl, rfl⟩ | ⟨rfl, rfl⟩ | ⟨rfl, rfl⟩
    all_goals
      rw [← h]
      simp [lex]
  have hc : c.toNat < 16 ^ 8 := by
    have := c.valid
    simp only [UInt32.isValidChar, Nat.isValidChar] at this
    change c.val.toNat < _
    omega
  unfold charRepr
  split_ifs with h1 h2 h3 h4 h5 h6 h7 h8
  · have : c = '\'' ∨ c = '"' ∨ c = '\\' := by
      rcases h1 with rfl | rfl
      · rcases hq with rfl | rfl <;> simp
      · simp
    simp [lex, this]
  · subst h2; simp [lex]
  · subst h3; simp [lex]
  · subst h4; simp [lex]
  · exact x 1 (by omega) 'x' (by simp)
  · push Not at h1
    simp [lex, h1.1, h1.2, h3]
  · exact x 1 (by omega) 'x' (by simp)
  · exact x 3 (by omega) 'u' (by simp)
  · exact x 7 hc 'U' (by simp)

theorem lex_quote (P : Char → Bool) {q : Char} (hq : q = '\'' ∨ q = '"') (s acc r : Str) :
    lex (.str q) acc (s.flatMap (charRepr P q) ++ q :: r) = .str (acc ++ s) :: lex .code [] r := by
  induction s generalizing acc with
  | nil =>
    have q1 : q ≠ '\\' := by rcases hq with rfl | rfl <;> decide
    simp [lex, q1]
  | cons c s ih =>
    rw [List.flatMap_cons, List.append_assoc, lex_char P hq, ih]
    simp

theorem fit_str (P : Char → Bool) (s : Str) : Fit (strRepr P s) (.str s) [.str s] := by
  refine ⟨⟨fun r hr => ?_, fun r hr => rfl, ?_, by intro r; simp⟩, fun r hr => rfl⟩
  · unfold strRepr
    simp only
    generalize hq : (if '\'' ∈ s ∧ '"' ∉ s then '"' else '\'') = q
    have hq' : q = '\'' ∨ q = '"' := by
      rw [← hq]
      split_ifs <;> simp
    have w : wordChar q = false := by rcases hq' with rfl | rfl <;> decide
    have := lex_quote P hq' s [] r
    simp only [List.cons_append, List.append_assoc, List.nil_append, lex, w, if_false, Bool.false_eq_true, flush, if_true, hq', this]
  · intro f r hf hr
    obtain ⟨f, rfl⟩ : ∃ g, f = g + 1 := ⟨f - 1, by simp at hf; omega⟩
    rfl

/-- A keyword argument. -/
theorem fit_key {k s : Str} {e : Expr} {ts : List Tok} (hk : ∀ c ∈ k, wordChar c = true) (hn : flush k = [.word k])
    (h : Fit s e ts) : FitArg (k ++ '=' :: s) (k, e) (.word k :: .equals :: ts) := by
  refine ⟨fun r hr => ?_, fun r hr => rfl, ?_, by intro r; simp⟩
  · rw [List.append_assoc, lex_word hk _ _ (by intro c hc; simp at hc; subst hc; decide), List.nil_append, hn, List.cons_append,
      List.cons_append, List.nil_append, lex_sym (by decide) (by decide) (by decide), h.1.lexed r hr]
    rfl
  · intro f r hf hr
    have := h.1.val f r (by simp at hf; omega) hr
    rw [h.2 r hr] at this
    exact this

theorem args_step (f : ℕ) {r : List Tok} (h : ∀ r', r ≠ .close :: r') : args (f + 1) r =
    match value f (keyword r).2 with
    | some (v, .comma :: r') => (args f r').map fun p => (((keyword r).1, v) :: p.1, p.2)
    | some (v, .close :: r') => some ([((keyword r).1, v)], r')
    | _ => Option.none := by
  rw [args]
  · rfl
  · exact fun r' h' => h r' h'

/-- The arguments of a call. -/
theorem args_fit {ss : List Str} {as : List (Str × Expr)} (h : List.Forall₂ (fun s a => ∃ ts, FitArg s a ts) ss as) :
    ∃ ts, (∀ r, lex .code [] (joinComma ss ++ ')' :: r) = ts ++ lex .code [] r) ∧
      ∀ f r, ts.length ≤ f → args f (ts ++ r) = some (as, r) := by
  induction h with
  | nil =>
    refine ⟨[.close], fun r => ?_, ?_⟩
    · simp only [joinComma, List.nil_append]
      exact lex_sym (by decide) (by decide) (by decide) r
    · intro f r hf
      obtain ⟨f, rfl⟩ : ∃ g, f = g + 1 := ⟨f - 1, by simp at hf; omega⟩
      simp only [List.cons_append, List.nil_append, args]
  | @cons s a ss as hs hrest ih =>
    obtain ⟨ts, ft⟩ := hs
    cases hrest with
    | nil =>
      refine ⟨ts ++ [.close], fun r => ?_, ?_⟩
      · simp only [joinComma]
        rw [ft.lexed _ (by intro c hc; simp at hc; subst hc; decide), lex_sym (by decide) (by decide) (by decide)]
        simp [show symbol ')' = Tok.close from rfl]
      · intro f r hf
        obtain ⟨f, rfl⟩ : ∃ g, f = g + 1 := ⟨f - 1, by simp at hf; omega⟩
        rw [List.append_assoc, args_step _ (ft.ne _).2]
        have hf' : ts.length ≤ f := by simp at hf; omega
        simp only [List.cons_append, List.nil_append]
        rw [ft.val f _ hf' (Or.inr (Or.inr ⟨r, rfl⟩)), ft.key _ (Or.inr (Or.inr ⟨r, rfl⟩))]
    | @cons s' a' ss as hs' hrest' =>
      obtain ⟨us, l, p⟩ := ih
      refine ⟨ts ++ .comma :: us, fun r => ?_, ?_⟩
      · rw [joinComma]
        · rw [List.append_assoc, ft.lexed _ (by intro c hc; simp at hc; subst hc; decide), List.cons_append, List.cons_append,
            lex_sym (by decide) (by decide) (by decide), lex_space, l r]
          simp [show symbol ',' = Tok.comma from rfl]
        · simp
      · intro f r hf
        obtain ⟨f, rfl⟩ : ∃ g, f = g + 1 := ⟨f - 1, by simp at hf; omega⟩
        rw [List.append_assoc, args_step _ (ft.ne _).2]
        have hf' : ts.length ≤ f ∧ us.length ≤ f := by simp at hf; omega
        rw [List.cons_append, ft.val f _ hf'.1 (Or.inr (Or.inl ⟨us ++ r, rfl⟩)), ft.key _ (Or.inr (Or.inl ⟨us ++ r, rfl⟩))]
        simp only [p f r hf'.2, Option.map_some]

/-- A call. -/
theorem fit_call {f : Str} (hf : ∀ c ∈ f, wordChar c = true) (hn : flush f = [.word f]) {ss : List Str} {as : List (Str × Expr)}
    (h : List.Forall₂ (fun s a => ∃ ts, FitArg s a ts) ss as) : ∃ ts, Fit (callText f ss) (.call f as) ts := by
  obtain ⟨us, l, p⟩ := args_fit h
  refine ⟨.word f :: .open :: us, ⟨fun r hr => ?_, fun r hr => rfl, ?_, by intro r; simp⟩, fun r hr => rfl⟩
  · unfold callText
    rw [List.append_assoc, List.append_assoc, lex_word hf _ _ (by intro c hc; simp at hc; subst hc; decide), List.nil_append, hn,
      List.cons_append, List.cons_append, List.nil_append, lex_sym (by decide) (by decide) (by decide)]
    simp only [List.cons_append, List.nil_append, l r]
    rfl
  · intro g r hg hr
    obtain ⟨g, rfl⟩ : ∃ k, g = k + 1 := ⟨g - 1, by simp at hg; omega⟩
    have := p g r (by simp at hg; omega)
    simp only [List.cons_append, keyword, value, this, Option.map_some]

theorem read_fit {s : Str} {e : Expr} (h : ∃ ts, Fit s e ts) : read s = some e := by
  obtain ⟨ts, h, k⟩ := h
  have l := h.lexed [] (by intro c hc; simp at hc)
  rw [List.append_nil] at l
  have e0 : lex .code [] ([] : Str) = [] := rfl
  rw [e0, List.append_nil] at l
  have v := h.val (ts.length + 1) [] (by omega) (Or.inl rfl)
  rw [k [] (Or.inl rfl), List.append_nil] at v
  unfold read
  rw [l, v]

/-- Arguments before one that cannot be read. -/
theorem args_prefix {ss : List Str} {as : List (Str × Expr)} (h : List.Forall₂ (fun s a => ∃ ts, FitArg s a ts) ss as)
    (b : Str) (bs : List Str) :
    ∃ ts, (∀ r, lex .code [] (joinComma (ss ++ b :: bs) ++ r) = ts ++ lex .code [] (joinComma (b :: bs) ++ r)) ∧
      ∀ f r, ts.length ≤ f → (∀ g, args g r = none) → args f (ts ++ r) = none := by
  induction h with
  | nil => exact ⟨[], fun r => rfl, fun f r _ hr => hr f⟩
  | @cons s a ss as hs hrest ih =>
    obtain ⟨ts, ft⟩ := hs
    obtain ⟨us, l, p⟩ := ih
    refine ⟨ts ++ .comma :: us, fun r => ?_, ?_⟩
    · rw [List.cons_append, joinComma]
      · rw [List.append_assoc, ft.lexed _ (by intro c hc; simp at hc; subst hc; decide), List.cons_append, List.cons_append,
          lex_sym (by decide) (by decide) (by decide), lex_space, l r]
        simp [show symbol ',' = Tok.comma from rfl]
      · simp
    · intro f r hf hr
      obtain ⟨f, rfl⟩ : ∃ g, f = g + 1 := ⟨f - 1, by simp at hf; omega⟩
      rw [List.append_assoc, args_step _ (ft.ne _).2]
      have hf' : ts.length ≤ f ∧ us.length ≤ f := by simp at hf; omega
      rw [List.cons_append, ft.val f _ hf'.1 (Or.inr (Or.inl ⟨us ++ r, rfl⟩))]
      simp only [p f r hf'.2 hr, Option.map_none]

/-- A keyword argument whose value is a name with something after it that does not end the argument. -/
theorem args_bad {k w : Str} {t : Tok} (h1 : t ≠ .open) (h2 : t ≠ .comma) (h3 : t ≠ .close) (g : ℕ) (r : List Tok) :
    args g (.word k :: .equals :: .word w :: t :: r) = none := by
  cases g with
  | zero => simp [args]
  | succ g =>
    rw [args_step _ (by simp)]
    cases g with
    | zero => simp [value]
    | succ g =>
      have : value (g + 1) (.word w :: t :: r) = some (if w = "None".toList then .none else .name w, t :: r) := by
        rw [value]
        · split_ifs <;> rfl
        · intro x h
          injection h with h _
          exact h1 h
      simp only [keyword, this]
      cases t <;> simp_all

/-- A call with arguments that cannot be read. -/
theorem read_bad {f : Str} (hf : ∀ c ∈ f, wordChar c = true) (hn : flush f = [.word f]) {ss : List Str} {as : List (Str × Expr)}
    (h : List.Forall₂ (fun s a => ∃ ts, FitArg s a ts) ss as) {b : Str} {bs : List Str} {toks : List Tok}
    (bad : lex .code [] (joinComma (b :: bs) ++ [')']) = toks) (none : ∀ g, args g toks = none) :
    read (callText f (ss ++ b :: bs)) = Option.none := by
  obtain ⟨us, l, p⟩ := args_prefix h b bs
  have L : lex .code [] (callText f (ss ++ b :: bs)) = .word f :: .open :: (us ++ toks) := by
    unfold callText
    rw [List.append_assoc, lex_word hf _ _ (by intro c hc; simp at hc; subst hc; decide), List.nil_append, hn,
      List.cons_append, List.cons_append, List.nil_append, lex_sym (by decide) (by decide) (by decide), l, bad]
    rfl
  unfold read
  rw [L, value, p _ _ (by simp; omega) none]
  rfl

/-- The tokens of a keyword argument whose value begins with a name that another character ends. -/
theorem lex_bad {k w s : Str} {c : Char} (bs : List Str)
    (hk : ∀ c ∈ k, wordChar c = true) (kn : flush k = [.word k])
    (hw : ∀ c ∈ w, wordChar c = true) (wn : flush w = [.word w]) (hc : wordChar c = false) (c1 : c ≠ '\'' ∧ c ≠ '"') (c2 : c ≠ ' ') :
    ∃ rest, lex .code [] (joinComma ((k ++ '=' :: w ++ c :: s) :: bs) ++ [')']) =
      .word k :: .equals :: .word w :: symbol c :: rest := by
  have e : ∃ q, joinComma ((k ++ '=' :: w ++ c :: s) :: bs) ++ [')'] = k ++ '=' :: (w ++ c :: q) := by
    cases bs with
    | nil => exact ⟨s ++ [')'], by simp [joinComma]⟩
    | cons b bs =>
      exact ⟨s ++ ',' :: ' ' :: joinComma (b :: bs) ++ [')'], by
        show (k ++ '=' :: w ++ c :: s) ++ ',' :: ' ' :: joinComma (b :: bs) ++ [')'] = _
        simp⟩
  obtain ⟨q, e⟩ := e
  refine ⟨lex .code [] q, ?_⟩
  rw [e, lex_word hk _ _ (by intro c hc; simp at hc; subst hc; decide), List.nil_append, kn,
    lex_sym (by decide) (by decide) (by decide), lex_word hw _ _ (by intro d hd; simp at hd; subst hd; exact hc), List.nil_append, wn,
    lex_sym hc c1 c2]
  rfl

end Verif.PyExpr
