import Verif.Lemmas.StrpSound
import Verif.Props.StrpTime

/-!
# Lemmas: a format of `strptime` that ends with `%z`
-/

namespace Verif

/-! ## The match of `%z` at the end of the text -/

/-- The length of the first alternative that matches. -/
def firstLen (ps : List Pat) (v : Str) : Option ℕ := ps.findSome? (fun p => (afterPat p v).map (fun _ => p.length))

theorem afterPat_append (p q : Pat) (s : Str) : afterPat (p ++ q) s = (afterPat p s).bind (afterPat q) := by
  induction p generalizing s with
  | nil => rfl
  | cons f p ih =>
    cases s with
    | nil => rfl
    | cons c s =>
      simp only [List.cons_append, afterPat]
      split_ifs
      · exact ih s
      · rfl

theorem firstLen_append (a b : List Pat) (v : Str) : firstLen (a ++ b) v = (firstLen a v).or (firstLen b v) := by
  unfold firstLen
  rw [List.findSome?_append]

theorem firstLen_map (q : Pat) (ps : List Pat) (v : Str) :
    firstLen (ps.map (q ++ ·)) v = (afterPat q v).bind (fun r => (firstLen ps r).map (q.length + ·)) := by
  unfold firstLen
  induction ps with
  | nil => cases afterPat q v <;> rfl
  | cons p ps ih =>
    rw [List.map_cons, List.findSome?_cons, afterPat_append, ih]
    cases afterPat q v with
    | none => rfl
    | some r =>
      simp only [Option.bind_some, List.findSome?_cons]
      cases afterPat p r with
      | none => rfl
      | some r' => simp

theorem firstLen_digits {n : ℕ} {w : Str} (h : ∀ c ∈ w, isDig c = true) (h0 : 1 ≤ w.length) (h1 : w.length ≤ n) :
    firstLen (digitsUpTo n) w = some w.length := by
  have all : ∀ (w : Str), (∀ c ∈ w, isDig c = true) → afterPat (List.replicate w.length isDig) w = some [] := by
    intro w h
    induction w with
    | nil => rfl
    | cons c w ih =>
      rw [List.length_cons, List.replicate_succ, afterPat, if_pos (h c (by simp))]
      exact ih (fun x hx => h x (by simp [hx]))
  have short : ∀ (w : Str) (k : ℕ), w.length < k → afterPat (List.replicate k isDig) w = none := by
    intro w
    induction w with
    | nil =>
      intro k hk
      cases k with
      | zero => simp at hk
      | succ k => rfl
    | cons c w ih =>
      intro k hk
      cases k with
      | zero => simp at hk
      | succ k =>
        rw [List.replicate_succ, afterPat]
        split_ifs
        · exact ih k (by simpa using hk)
        · rfl
  induction n with
  | zero => omega
  | succ n ih =>
    unfold firstLen at ih ⊢
    rw [digitsUpTo, List.findSome?_cons]
    by_cases e : w.length = n + 1
    · rw [← e, all w h]
      simp
    · rw [short w (n + 1) (by omega)]
      exact ih (by omega)

theorem firstLen_frac {fr : Str} {f : ℕ} (h : FracText fr f) : firstLen zoneFraction fr = some fr.length := by
  rcases h with ⟨rfl, rfl⟩ | ⟨k, n, k0, k1, hn, rfl, rfl⟩
  · rfl
  · have hl : (digitsW k n).length = k := by
      clear hn k0 k1
      induction k with
      | zero => rfl
      | succ k ih => rw [digitsW, List.length_cons, ih]
    unfold zoneFraction
    rw [firstLen_append, show (digitsUpTo 6).map ((fun c : Char => c == '.') :: ·) = (digitsUpTo 6).map ([(· == '.')] ++ ·) from rfl,
      firstLen_map, show afterPat [(· == '.')] ('.' :: digitsW k n) = some (digitsW k n) from rfl, Option.bind_some,
      firstLen_digits (digitsW_isDig k n) (by omega) (by omega)]
    simp [hl, add_comm]

theorem sixty_exact : ∀ s < 60, exactB [range '0' '5', isDig] (digitsW 2 s) = true := by decide

theorem afterPat_sixty {s : ℕ} (hs : s < 60) (t : Str) : afterPat [range '0' '5', isDig] (digitsW 2 s ++ t) = some t :=
  afterPat_exact (sixty_exact s hs) t

theorem firstLen_tail {b tail : Str} {us : ℕ} (hb : Colon b) (h : TailText b tail us) :
    firstLen zoneSeconds tail = some tail.length := by
  rcases h with ⟨rfl, rfl⟩ | ⟨s, f, fr, hs, rfl, rfl, hf⟩
  · rfl
  · unfold zoneSeconds
    rw [firstLen_append, firstLen_append, firstLen_map, firstLen_map]
    rcases hb with rfl | rfl
    · rw [show afterPat [(· == ':'), range '0' '5', isDig] ([] ++ (digitsW 2 s ++ fr)) = none by
          change (if (dg (s / 10 ^ 1) == ':') = true then _ else none) = none
          rw [if_neg]
          simpa using dg_colon _,
        List.nil_append, afterPat_sixty hs, Option.bind_some, firstLen_frac hf]
      simp [digitsW]
      omega
    · rw [show afterPat [(· == ':'), range '0' '5', isDig] ([':'] ++ (digitsW 2 s ++ fr)) =
          afterPat [range '0' '5', isDig] (digitsW 2 s ++ fr) from rfl, afterPat_sixty hs, Option.bind_some, firstLen_frac hf]
      simp [digitsW]
      omega

/-- The pattern of `%z` matches the whole text of an offset. -/
theorem firstLen_zone {a b v : Str} {off : ℤ} (ha : Colon a) (hb : Colon b) (h : ZoneText a b v off) :
    firstLen zonePats v = some v.length := by
  obtain ⟨neg, hh, m, us, tail, h0, h1, rfl, ht, rfl⟩ := h
  change TailText b tail us at ht
  have hd : ∀ n < 100, isDig (dg (n / 10 ^ 1)) = true ∧ isDig (dg (n / 10 ^ 0)) = true := by decide
  obtain ⟨d1, d2⟩ := hd hh h0
  have sg : ∀ (p : Pat) (r : Str), afterPat ((fun c => c == '+' || c == '-') :: isDig :: isDig :: p)
      ((if neg then '-' else '+') :: (digitsW 2 hh ++ r)) = afterPat p r := by
    intro p r
    change (if ((if neg then '-' else '+') == '+' || (if neg then '-' else '+') == '-') = true then
      (if isDig (dg (hh / 10 ^ 1)) = true then if isDig (dg (hh / 10 ^ 0)) = true then afterPat p r else none else none) else none) = _
    rw [d1, d2]
    cases neg <;> simp
  unfold zonePats
  simp only
  rw [firstLen_append, firstLen_append, firstLen_map, firstLen_map, sg, sg]
  rcases ha with rfl | rfl
  · rw [show afterPat [(· == ':'), range '0' '5', isDig] ([] ++ (digitsW 2 m ++ tail)) = none by
          change (if (dg (m / 10 ^ 1) == ':') = true then _ else none) = none
          rw [if_neg]
          simpa using dg_colon _,
        List.nil_append, afterPat_sixty h1, Option.bind_some, firstLen_tail hb ht]
    simp [digitsW]
    omega
  · rw [show afterPat [(· == ':'), range '0' '5', isDig] ([':'] ++ (digitsW 2 m ++ tail)) =
          afterPat [range '0' '5', isDig] (digitsW 2 m ++ tail) from rfl, afterPat_sixty h1, Option.bind_some, firstLen_tail hb ht]
    simp [digitsW]
    omega

theorem firstLen_offset {v : Str} {off : ℤ} (h : OffsetText v off) : firstLen zonePats v = some v.length := by
  rcases h with ⟨rfl, rfl⟩ | ⟨a, ha, h⟩
  · rfl
  · exact firstLen_zone ha ha h

theorem match_end {c : Char} {alts : List Pat} {v : Str} (hc : altsOf c = some alts) (h : firstLen alts v = some v.length) :
    (matchAll [.dir c] v).head? = some ([(c, v)], []) := by
  unfold matchAll
  rw [hc, Option.getD_some]
  clear hc
  unfold firstLen at h
  induction alts with
  | nil => simp at h
  | cons p ps ih =>
    rw [List.findSome?_cons] at h
    rw [List.flatMap_cons, List.head?_append]
    cases ha : afterPat p v with
    | none =>
      rw [ha] at h
      exact ih h
    | some r =>
      rw [ha] at h
      simp only [Option.map_some, Option.some.injEq] at h
      have e := (afterPat_inv ha).1
      rw [h, List.take_length] at e
      have : r = [] := by
        have := congrArg List.length e
        rw [List.length_append] at this
        exact List.length_eq_zero_iff.mp (by omega)
      subst this
      rw [h, List.take_length]
      rfl

/-! ## The format -/

theorem compile_z (b : Bool) : compileFmt b ['%', 'z'] = some (.ok [.dir 'z']) := by cases b <;> rfl

theorem compile_toks_app {ts : List Tok} (h : ∀ t ∈ ts, t.Readable) {k : Str} {ps : List Piece}
    (hk : ∀ b, compileFmt b k = some (.ok ps)) (b : Bool) :
    compileFmt b (tokText ts ++ k) = some (.ok (piecesOf b ts ++ ps)) := by
  induction ts generalizing b with
  | nil => exact hk b
  | cons t ts ih =>
    have ht := h _ List.mem_cons_self
    have ih := ih (fun x hx => h x (List.mem_cons_of_mem _ hx))
    cases t with
    | lit c =>
      have hc : c ≠ '%' := ht
      change compileFmt b (c :: (tokText ts ++ k)) = _
      generalize tokText ts ++ k = r at ih
      have e : compileFmt b (c :: r) = if isSpaceC c then
          if b then compileFmt true r else (compileFmt true r).map (·.map (.space :: ·))
        else (compileFmt false r).map (·.map (.lit c :: ·)) := by
        rw [compileFmt.eq_def]
        split
        · contradiction
        · rename_i heq; simp at heq; exact absurd heq.1 hc
        · rename_i heq; simp at heq; exact absurd heq.1 hc
        · rename_i heq
          simp at heq
          obtain ⟨rfl, rfl⟩ := heq
          rfl
      rw [e, ih, ih]
      conv_rhs => rw [piecesOf]
      split_ifs <;> rfl
    | dir c m =>
      obtain ⟨rfl, hm⟩ := ht
      change compileFmt b ('%' :: c :: (tokText ts ++ k)) = _
      generalize tokText ts ++ k = r at ih
      have all : ∀ x ∈ "YmdHMSfjBbAa".toList, x ≠ '%' ∧ inSet "cxXZ" x = false ∧ (altsOf x).isNone = false := by
        decide
      obtain ⟨h1, h2, h3⟩ := all c hm
      have e : compileFmt b ('%' :: c :: r) =
          if c = '%' then (compileFmt false r).map (·.map (.lit '%' :: ·))
          else if inSet "cxXZ" c then none
          else if (altsOf c).isNone then some (.error .value)
          else (compileFmt false r).map (·.map (.dir c :: ·)) := by
        rw [compileFmt]
      rw [e, if_neg h1, h2, h3, ih]
      rfl

theorem compile_toks_z {ts : List Tok} (h : ∀ t ∈ ts, t.Readable) (b : Bool) :
    compileFmt b (tokText ts ++ ['%', 'z']) = some (.ok (piecesOf b ts ++ [.dir 'z'])) := compile_toks_app h compile_z b

theorem match_toks_app {ts : List Tok} {val : Char → Str} {ps : List Piece} {r e : Str} {g : List (Char × Str)}
    (h : ∀ c, Tok.dir c none ∈ ts → readsB ((altsOf c).getD []) (val c) = true ∧ ∃ x r, val c = x :: r ∧ isSpaceC x = false)
    (hm : ∀ c m, Tok.dir c m ∈ ts → m = none) (hr : (matchAll ps r).head? = some (g, e)) (hs : r.dropWhile isSpaceC = r) :
    (matchAll (piecesOf false ts ++ ps) (outOf val ts ++ r)).head? = some (groupsOf val ts ++ g, e) ∧
    (matchAll (piecesOf true ts ++ ps) ((outOf val ts ++ r).dropWhile isSpaceC)).head? = some (groupsOf val ts ++ g, e) := by
  induction ts with
  | nil =>
    refine ⟨hr, ?_⟩
    change (matchAll ps (([] ++ r).dropWhile isSpaceC)).head? = _
    rw [List.nil_append, hs]
    exact hr
  | cons t ts ih =>
    obtain ⟨i1, i2⟩ := ih (fun c hc => h c (List.mem_cons_of_mem _ hc))
      (fun c m hc => hm c m (List.mem_cons_of_mem _ hc))
    cases t with
    | lit c =>
      simp only [outOf, groupsOf, piecesOf, List.cons_append]
      by_cases hc : isSpaceC c = true
      · simp only [hc, if_true, List.dropWhile_cons, Bool.false_eq_true, if_false, List.cons_append]
        exact ⟨matchAll_space hc i2, i2⟩
      · simp only [hc, List.dropWhile_cons, Bool.false_eq_true, if_false, List.cons_append]
        exact ⟨matchAll_lit i1, matchAll_lit i1⟩
    | dir c m =>
      obtain rfl := hm c m List.mem_cons_self
      obtain ⟨hr, x, r', hx, hs⟩ := h c List.mem_cons_self
      simp only [outOf, groupsOf, piecesOf, List.cons_append, List.append_assoc]
      have e : (val c ++ (outOf val ts ++ r)).dropWhile isSpaceC = val c ++ (outOf val ts ++ r) := by
        rw [hx, List.cons_append, List.dropWhile_cons, hs]
        simp
      rw [e]
      exact ⟨matchAll_dir hr i1, matchAll_dir hr i1⟩

theorem pieces_split {ps qs : List Piece} {s : Str} {g : List (Char × Str)} (h : PiecesMatch (ps ++ qs) s g) :
    ∃ s1 s2 g1 g2, s = s1 ++ s2 ∧ g = g1 ++ g2 ∧ PiecesMatch ps s1 g1 ∧ PiecesMatch qs s2 g2 := by
  induction ps generalizing s g with
  | nil => exact ⟨[], s, [], g, rfl, rfl, .nil, h⟩
  | cons p ps ih =>
    cases h with
    | lit hx hn =>
      obtain ⟨s1, s2, g1, g2, rfl, rfl, h1, h2⟩ := ih hn
      exact ⟨_ :: s1, s2, g1, g2, rfl, rfl, .lit hx h1, h2⟩
    | space ha hb hn =>
      obtain ⟨s1, s2, g1, g2, rfl, rfl, h1, h2⟩ := ih hn
      exact ⟨_ ++ s1, s2, g1, g2, by rw [List.append_assoc], rfl, .space ha hb h1, h2⟩
    | dir hd hn =>
      obtain ⟨s1, s2, g1, g2, rfl, rfl, h1, h2⟩ := ih hn
      exact ⟨_ ++ s1, s2, _ :: g1, g2, by rw [List.append_assoc], rfl, .dir hd h1, h2⟩

/-- A match of a format that ends with `%z`: the text ends with an offset. -/
theorem pieces_end {ps : List Piece} {s : Str} {g : List (Char × Str)} (h : PiecesMatch (ps ++ [.dir 'z']) s g) :
    ∃ s1 v g1, s = s1 ++ v ∧ g = g1 ++ [('z', v)] ∧ DirText 'z' v := by
  induction ps generalizing s g with
  | nil =>
    cases h with
    | dir hd hn =>
      cases hn
      exact ⟨[], _, [], by simp, rfl, hd⟩
  | cons p ps ih =>
    cases h with
    | lit hx hn =>
      obtain ⟨s1, v, g1, rfl, rfl, hd⟩ := ih hn
      exact ⟨_ :: s1, v, g1, rfl, rfl, hd⟩
    | space ha hb hn =>
      obtain ⟨s1, v, g1, rfl, rfl, hd⟩ := ih hn
      exact ⟨_ ++ s1, v, g1, by rw [List.append_assoc], rfl, hd⟩
    | dir hd' hn =>
      obtain ⟨s1, v, g1, rfl, rfl, hd⟩ := ih hn
      exact ⟨_ ++ s1, v, _ :: g1, by rw [List.append_assoc], rfl, hd⟩

end Verif
