import Verif.Props.Format
import Verif.Model.StrpTime
import Verif.Lemmas.IsoText

/-!
# Lemmas about the matching of `strptime`
-/

namespace Verif

/-- The pattern matches exactly this text. -/
def exactB : Pat → Str → Bool
  | [], [] => true
  | f :: p, c :: v => f c && exactB p v
  | _, _ => false

/-- The pattern does not match any text that starts with this one. -/
def clashB : Pat → Str → Bool
  | f :: p, c :: v => !f c || clashB p v
  | _, _ => false

/-- The first alternative that can match reads exactly this text. -/
def readsB : List Pat → Str → Bool
  | [], _ => false
  | p :: ps, v => exactB p v || (clashB p v && readsB ps v)

theorem afterPat_exact {p : Pat} {v : Str} (h : exactB p v = true) (r : Str) : afterPat p (v ++ r) = some r := by
  induction p generalizing v with
  | nil => cases v with
    | nil => rfl
    | cons c v => simp [exactB] at h
  | cons f p ih => cases v with
    | nil => simp [exactB] at h
    | cons c v =>
      simp only [exactB, Bool.and_eq_true] at h
      simp only [List.cons_append, afterPat, h.1, if_true]
      exact ih h.2

theorem exactB_length {p : Pat} {v : Str} (h : exactB p v = true) : p.length = v.length := by
  induction p generalizing v with
  | nil => cases v with
    | nil => rfl
    | cons c v => simp [exactB] at h
  | cons f p ih => cases v with
    | nil => simp [exactB] at h
    | cons c v =>
      simp only [exactB, Bool.and_eq_true] at h
      simp [ih h.2]

theorem afterPat_clash {p : Pat} {v : Str} (h : clashB p v = true) (r : Str) : afterPat p (v ++ r) = none := by
  induction p generalizing v with
  | nil => simp [clashB] at h
  | cons f p ih => cases v with
    | nil => simp [clashB] at h
    | cons c v =>
      simp only [clashB, Bool.or_eq_true, Bool.not_eq_true'] at h
      simp only [List.cons_append, afterPat]
      rcases h with h | h
      · simp [h]
      · split_ifs
        · exact ih h
        · rfl

theorem head_flatMap {α β : Type} {f : α → List β} {a : α} {l : List α} {x : β} (h : (f a).head? = some x) :
    ((a :: l).flatMap f).head? = some x := by
  rw [List.flatMap_cons, List.head?_append, h]; rfl

theorem matchAll_dir {c : Char} {v r e : Str} {ps : List Piece} {g : List (Char × Str)}
    (h : readsB ((altsOf c).getD []) v = true) (hr : (matchAll ps r).head? = some (g, e)) :
    (matchAll (.dir c :: ps) (v ++ r)).head? = some ((c, v) :: g, e) := by
  unfold matchAll
  generalize (altsOf c).getD [] = alts at h
  induction alts with
  | nil => simp [readsB] at h
  | cons p alts ih =>
    simp only [readsB, Bool.or_eq_true, Bool.and_eq_true] at h
    rcases h with h | ⟨h, h'⟩
    · apply head_flatMap
      rw [afterPat_exact h]
      simp only
      rw [exactB_length h, List.take_left', List.head?_map, hr]
      · rfl
      · rfl
    · rw [List.flatMap_cons, afterPat_clash h]
      simp only [List.nil_append]
      exact ih h'

theorem takeWhile_drop (s : Str) : s.drop (s.takeWhile isSpaceC).length = s.dropWhile isSpaceC := by
  induction s with
  | nil => rfl
  | cons c s ih =>
    by_cases h : isSpaceC c = true
    · simp [h, ih]
    · simp [h]

theorem matchAll_space {c : Char} {s e : Str} {ps : List Piece} {g : List (Char × Str)} (hc : isSpaceC c = true)
    (hr : (matchAll ps (s.dropWhile isSpaceC)).head? = some (g, e)) :
    (matchAll (.space :: ps) (c :: s)).head? = some (g, e) := by
  unfold matchAll
  rw [show ((c :: s).takeWhile isSpaceC).length = (s.takeWhile isSpaceC).length + 1 by simp [hc]]
  unfold dropsDown
  apply head_flatMap
  rw [List.drop_succ_cons, takeWhile_drop]
  exact hr

theorem matchAll_lit {c : Char} {s e : Str} {ps : List Piece} {g : List (Char × Str)}
    (hr : (matchAll ps s).head? = some (g, e)) : (matchAll (.lit c :: ps) (c :: s)).head? = some (g, e) := by
  unfold matchAll
  rw [if_pos (by simp [sameLetter])]
  exact hr

/-- The directives that the round trip allows. -/
def rtChars : Str := "YmdHMSfjBbAa".toList

/-- A piece that may stand in a format for the round trip. -/
def Tok.Readable : Tok → Prop
  | .lit c => c ≠ '%'
  | .dir c m => m = none ∧ c ∈ "YmdHMSfjBbAa".toList

/-- The pieces of the regular expression. -/
def piecesOf : Bool → List Tok → List Piece
  | _, [] => []
  | _, .dir c _ :: ts => .dir c :: piecesOf false ts
  | b, .lit c :: ts =>
    if isSpaceC c then (if b then piecesOf true ts else .space :: piecesOf true ts) else .lit c :: piecesOf false ts

theorem compile_toks {ts : List Tok} (h : ∀ t ∈ ts, t.Readable) (b : Bool) :
    compileFmt b (tokText ts) = some (.ok (piecesOf b ts)) := by
  induction ts generalizing b with
  | nil => rfl
  | cons t ts ih =>
    have ht := h _ List.mem_cons_self
    have ih := ih (fun x hx => h x (List.mem_cons_of_mem _ hx))
    cases t with
    | lit c =>
      have hc : c ≠ '%' := ht
      change compileFmt b (c :: tokText ts) = _
      have e : compileFmt b (c :: tokText ts) = if isSpaceC c then
          if b then compileFmt true (tokText ts) else (compileFmt true (tokText ts)).map (·.map (.space :: ·))
        else (compileFmt false (tokText ts)).map (·.map (.lit c :: ·)) := by
        rw [compileFmt.eq_def]
        split
        · contradiction
        · rename_i heq; simp at heq; exact absurd heq.1 hc
        · rename_i heq; simp at heq; exact absurd heq.1 hc
        · rename_i heq
          simp at heq
          obtain ⟨rfl, rfl⟩ := heq
          rfl
      rw [e, ih, ih]
      conv_rhs => rw [piecesOf]
      split_ifs <;> rfl
    | dir c m =>
      obtain ⟨rfl, hm⟩ := ht
      change compileFmt b ('%' :: c :: tokText ts) = _
      have all : ∀ x ∈ "YmdHMSfjBbAa".toList, x ≠ '%' ∧ inSet "cxXZ" x = false ∧ (altsOf x).isNone = false := by
        decide
      obtain ⟨h1, h2, h3⟩ := all c hm
      have e : compileFmt b ('%' :: c :: tokText ts) =
          if c = '%' then (compileFmt false (tokText ts)).map (·.map (.lit '%' :: ·))
          else if inSet "cxXZ" c then none
          else if (altsOf c).isNone then some (.error .value)
          else (compileFmt false (tokText ts)).map (·.map (.dir c :: ·)) := by
        rw [compileFmt]
      rw [e, if_neg h1, h2, h3, ih]
      rfl

/-- The text of a list of pieces, where `val` is the text of the directives. -/
def outOf (val : Char → Str) : List Tok → Str
  | [] => []
  | .lit c :: ts => c :: outOf val ts
  | .dir c _ :: ts => val c ++ outOf val ts

/-- The groups of the match. -/
def groupsOf (val : Char → Str) : List Tok → List (Char × Str)
  | [] => []
  | .lit _ :: ts => groupsOf val ts
  | .dir c _ :: ts => (c, val c) :: groupsOf val ts

theorem match_toks {ts : List Tok} {val : Char → Str} (h : ∀ c, Tok.dir c none ∈ ts →
      readsB ((altsOf c).getD []) (val c) = true ∧ ∃ x r, val c = x :: r ∧ isSpaceC x = false)
    (hm : ∀ c m, Tok.dir c m ∈ ts → m = none) :
    (matchAll (piecesOf false ts) (outOf val ts)).head? = some (groupsOf val ts, []) ∧
    (matchAll (piecesOf true ts) ((outOf val ts).dropWhile isSpaceC)).head? = some (groupsOf val ts, []) := by
  induction ts with
  | nil => exact ⟨rfl, rfl⟩
  | cons t ts ih =>
    obtain ⟨i1, i2⟩ := ih (fun c hc => h c (List.mem_cons_of_mem _ hc))
      (fun c m hc => hm c m (List.mem_cons_of_mem _ hc))
    cases t with
    | lit c =>
      simp only [outOf, groupsOf, piecesOf]
      by_cases hc : isSpaceC c = true
      · simp only [hc, if_true, List.dropWhile_cons, Bool.false_eq_true, if_false]
        exact ⟨matchAll_space hc i2, i2⟩
      · simp only [hc, List.dropWhile_cons, Bool.false_eq_true, if_false]
        exact ⟨matchAll_lit i1, matchAll_lit i1⟩
    | dir c m =>
      obtain rfl := hm c m List.mem_cons_self
      obtain ⟨hr, x, r, hx, hs⟩ := h c List.mem_cons_self
      simp only [outOf, groupsOf, piecesOf]
      have e : (val c ++ outOf val ts).dropWhile isSpaceC = val c ++ outOf val ts := by
        rw [hx, List.cons_append, List.dropWhile_cons, hs]
        simp
      rw [e]
      exact ⟨matchAll_dir hr i1, matchAll_dir hr i1⟩

/-- What `%f` becomes before the directives are expanded. -/
def subF (us : Str) : Tok → List Tok
  | .dir 'f' none => us.map .lit
  | t => [t]

theorem wrap_toks {ts : List Tok} (h : ∀ t ∈ ts, t.Readable) (us : Str) :
    wrapFormat us (tokText ts) = tokText (ts.flatMap (subF us)) := by
  induction ts with
  | nil => rfl
  | cons t ts ih =>
    have ht := h _ List.mem_cons_self
    have ih := ih (fun x hx => h x (List.mem_cons_of_mem _ hx))
    have htt : ∀ (l m : List Tok), tokText (l ++ m) = tokText l ++ tokText m := by
      intro l m; unfold tokText; rw [List.flatMap_append]
    cases t with
    | lit c =>
      have hc : c ≠ '%' := ht
      change wrapFormat us (c :: tokText ts) = _
      have e : wrapFormat us (c :: tokText ts) = c :: wrapFormat us (tokText ts) := by
        rw [wrapFormat.eq_def]
        split
        · contradiction
        · rename_i heq; simp at heq; exact absurd heq.1 hc
        · rename_i heq; simp at heq; exact absurd heq.1 hc
        · rename_i heq; simp at heq; rw [heq.1, heq.2]
      rw [e, ih, List.flatMap_cons, htt]
      rfl
    | dir c m =>
      obtain ⟨rfl, hm⟩ := ht
      change wrapFormat us ('%' :: c :: tokText ts) = _
      by_cases hf : c = 'f'
      · subst hf
        rw [wrapFormat, ih, List.flatMap_cons, htt]
        congr 1
        have : ∀ u : Str, tokText (u.map Tok.lit) = u := by
          intro u
          induction u with
          | nil => rfl
          | cons a u ih => change a :: tokText (u.map Tok.lit) = _; rw [ih]
        exact (this us).symm
      · have e : wrapFormat us ('%' :: c :: tokText ts) = '%' :: c :: wrapFormat us (tokText ts) := by
          rw [wrapFormat]
          exact fun h => hf h
        have s : subF us (.dir c none) = [.dir c none] := by
          unfold subF
          split
          · rename_i heq; simp at heq; exact absurd heq hf
          · rfl
        rw [e, ih, List.flatMap_cons, htt, s]
        rfl

end Verif
