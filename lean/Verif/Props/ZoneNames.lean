import Verif.Model.ZoneNames
import Verif.Props.StrpZone
import Mathlib.Data.List.Sort

/-!
# C106 `strptime` with `%Z`
-/

namespace Verif

/-- The text is one of the names, whatever the case of its letters. -/
def KnownName (names : List Str) (w : Str) : Prop := ∃ z ∈ names, lowerS w = lowerS z

/-! ## The match of `%Z` at the end -/

theorem afterPat_letters (z w r : Str) : afterPat (z.map sameLetter) w = some r →
    ∃ u, w = u ++ r ∧ lowerS u = lowerS z := by
  intro h
  induction z generalizing w with
  | nil =>
    simp only [List.map_nil, afterPat, Option.some.injEq] at h
    exact ⟨[], by rw [h]; rfl, rfl⟩
  | cons c z ih =>
    cases w with
    | nil => simp [afterPat] at h
    | cons x w =>
      simp only [List.map_cons, afterPat] at h
      split_ifs at h with hx
      obtain ⟨u, rfl, hu⟩ := ih w h
      refine ⟨x :: u, rfl, ?_⟩
      simp only [sameLetter, beq_iff_eq] at hx
      simp only [lowerS, List.map_cons, hx] at hu ⊢
      rw [hu]

theorem afterPat_letters_self (z w : Str) (h : lowerS w = lowerS z) : afterPat (z.map sameLetter) w = some [] := by
  induction z generalizing w with
  | nil =>
    cases w with
    | nil => rfl
    | cons x w => simp [lowerS] at h
  | cons c z ih =>
    cases w with
    | nil => simp [lowerS] at h
    | cons x w =>
      simp only [lowerS, List.map_cons, List.cons.injEq] at h
      simp only [List.map_cons, afterPat]
      rw [if_pos (by simp [sameLetter, h.1])]
      exact ih w h.2

theorem length_lower (s : Str) : (lowerS s).length = s.length := by simp [lowerS]

/-- One `%Z` after matches. -/
def withName (names : List Str) (g : List (Char × Str) × Str) : List (List (Char × Str) × Str) :=
  (zoneNamePats names).flatMap (fun p =>
    match afterPat p g.2 with
    | none => []
    | some r => [(g.1 ++ [('Z', g.2.take p.length)], r)])

theorem matchNamed_plain (names : List Str) {ps : List Piece} (h : Piece.dir 'Z' ∉ ps) (s : Str) :
    matchNamed names (ps ++ [.dir 'Z']) s = (matchAll ps s).flatMap (withName names) := by
  induction ps generalizing s with
  | nil =>
    simp only [List.nil_append, matchNamed, altsNamed, if_true, Option.getD_some, matchAll, List.flatMap_cons, List.flatMap_nil,
      List.append_nil, withName]
    rfl
  | cons p ps ih =>
    have ih := ih (fun hp => h (by simp [hp]))
    cases p with
    | lit c =>
      cases s with
      | nil => rfl
      | cons x s =>
        simp only [List.cons_append, matchNamed, matchAll]
        split_ifs
        · exact ih s
        · rfl
    | space =>
      simp only [List.cons_append, matchNamed, matchAll, List.flatMap_assoc]
      congr 1
      funext r
      exact ih r
    | dir c =>
      have hc : c ≠ 'Z' := by rintro rfl; simp at h
      simp only [List.cons_append, matchNamed, matchAll, altsNamed, if_neg hc, List.flatMap_assoc]
      congr 1
      funext p
      cases afterPat p s with
      | none => rfl
      | some r =>
        simp only [ih r, List.map_flatMap, List.flatMap_map]
        congr 1
        funext g
        simp only [withName, List.map_flatMap]
        congr 1
        funext q
        cases afterPat q g.2 <;> rfl

/-- A known name is matched as a whole. -/
theorem withName_known {names : List Str} {w : Str} (h : KnownName names w) (g : List (Char × Str)) :
    (withName names (g, w)).head? = some (g ++ [('Z', w)], []) := by
  obtain ⟨z, hz, hw⟩ := h
  have hlen : w.length = z.length := by rw [← length_lower w, hw, length_lower]
  unfold withName zoneNamePats
  have hs : (names.mergeSort (fun a b => decide (b.length ≤ a.length))).Pairwise (fun a b => b.length ≤ a.length) := by
    have := List.pairwise_mergeSort (le := fun a b : Str => decide (b.length ≤ a.length))
      (fun a b c h1 h2 => by simp only [decide_eq_true_eq] at *; omega)
      (fun a b => by simp only [Bool.or_eq_true, decide_eq_true_eq]; omega) names
    simpa using this
  have hm : z ∈ names.mergeSort (fun a b => decide (b.length ≤ a.length)) := List.mem_mergeSort.2 hz
  generalize names.mergeSort (fun a b => decide (b.length ≤ a.length)) = l at hs hm
  induction l with
  | nil => simp at hm
  | cons y l ih =>
    rw [List.map_cons, List.flatMap_cons, List.head?_append]
    cases ha : afterPat (y.map sameLetter) w with
    | some r =>
      obtain ⟨u, e, hu⟩ := afterPat_letters y w r ha
      have hyl : z.length ≤ y.length := by
        rcases List.mem_cons.1 hm with rfl | hm
        · exact le_rfl
        · exact List.rel_of_pairwise_cons hs hm
      have hul : u.length = y.length := by rw [← length_lower u, hu, length_lower]
      have : w.length = u.length + r.length := by rw [e, List.length_append]
      have hr : r = [] := List.length_eq_zero_iff.1 (by omega)
      subst hr
      simp only [List.length_map]
      rw [List.take_of_length_le (by omega)]
      rfl
    | none =>
      rcases List.mem_cons.1 hm with rfl | hm
      · rw [afterPat_letters_self z w hw] at ha
        exact absurd ha (by simp)
      · exact ih (List.Pairwise.of_cons hs) hm

theorem head_flatMap' {α β : Type} {l : List α} {f : α → List β} {a : α} {b : β} (ha : l.head? = some a) (hb : (f a).head? = some b) :
    (l.flatMap f).head? = some b := by
  cases l with
  | nil => simp at ha
  | cons x l =>
    simp only [List.head?_cons, Option.some.injEq] at ha
    subst ha
    exact head_flatMap hb

/-! ## The format -/

theorem compileNamed_dir {c : Char} (hc : c ≠ '%') (hx : inSet "cxX" c = false) (ha : c = 'Z' ∨ (altsOf c).isNone = false) (b : Bool) (r : Str) :
    compileNamed b ('%' :: c :: r) = (compileNamed false r).map (·.map (.dir c :: ·)) := by
  rw [compileNamed]
  rw [if_neg hc, if_neg (by simp [hx]), if_neg]
  rintro ⟨h1, h2⟩
  rcases ha with rfl | ha
  · exact h1 rfl
  · rw [ha] at h2; exact absurd h2 (by simp)

theorem compile_named (b : Bool) (f : Str) (ps : List Piece) (h : compileFmt b f = some (.ok ps)) :
    compileNamed b (f ++ ['%', 'Z']) = some (.ok (ps ++ [.dir 'Z'])) ∧ Piece.dir 'Z' ∉ ps := by
  induction hn : f.length using Nat.strong_induction_on generalizing f b ps with
  | _ n ih =>
    rw [compileFmt.eq_def] at h
    split at h
    · simp only [Option.some.injEq, Except.ok.injEq] at h
      subst h
      exact ⟨rfl, by simp⟩
    · simp at h
    · rename_i c r
      have hr : ∀ qs, compileFmt false r = some (.ok qs) →
          compileNamed false (r ++ ['%', 'Z']) = some (.ok (qs ++ [.dir 'Z'])) ∧ Piece.dir 'Z' ∉ qs :=
        fun qs hq => ih r.length (by simp at hn; omega) false r qs hq rfl
      rw [List.cons_append, List.cons_append]
      split_ifs at h with h1 h2 h3
      · subst h1
        cases hq : compileFmt false r with
        | none => rw [hq] at h; simp at h
        | some p =>
          cases p with
          | error e => rw [hq] at h; simp [Except.map] at h
          | ok qs =>
            rw [hq] at h
            simp only [Option.map_some, Except.map, Option.some.injEq, Except.ok.injEq] at h
            subst h
            obtain ⟨e, hm⟩ := hr qs hq
            refine ⟨?_, by simp [hm]⟩
            rw [compileNamed, if_pos rfl, e]
            rfl
      · simp at h
      · cases hq : compileFmt false r with
        | none => rw [hq] at h; simp at h
        | some p =>
          cases p with
          | error e => rw [hq] at h; simp [Except.map] at h
          | ok qs =>
            rw [hq] at h
            simp only [Option.map_some, Except.map, Option.some.injEq, Except.ok.injEq] at h
            subst h
            obtain ⟨e, hm⟩ := hr qs hq
            have hx : inSet "cxX" c = false ∧ c ≠ 'Z' := by
              simp only [inSet, Bool.not_eq_true] at h2 ⊢
              constructor
              · simp only [List.elem_eq_mem, decide_eq_false_iff_not] at h2 ⊢
                simp at h2 ⊢
                tauto
              · rintro rfl
                revert h2; decide
            refine ⟨?_, by simpa [Ne.symm hx.2] using hm⟩
            rw [compileNamed_dir h1 hx.1 (Or.inr (by simpa only [Bool.not_eq_true] using h3)), e]
            rfl
    · rename_i c r hp1 hp2
      have hr : ∀ (b : Bool) qs, compileFmt b r = some (.ok qs) →
          compileNamed b (r ++ ['%', 'Z']) = some (.ok (qs ++ [.dir 'Z'])) ∧ Piece.dir 'Z' ∉ qs :=
        fun b qs hq => ih r.length (by simp at hn; omega) b r qs hq rfl
      have hc : c ≠ '%' := by
        rintro rfl
        cases r with
        | nil => exact hp1 rfl rfl
        | cons x r => exact hp2 x r rfl rfl
      have e : ∀ q, compileNamed b (c :: q) = if isSpaceC c then
          if b then compileNamed true q else (compileNamed true q).map (·.map (.space :: ·))
        else (compileNamed false q).map (·.map (.lit c :: ·)) := by
        intro q
        rw [compileNamed.eq_def]
        split
        · contradiction
        · rename_i heq; simp at heq; exact absurd heq.1 hc
        · rename_i heq; simp at heq; exact absurd heq.1 hc
        · rename_i heq; simp at heq; rw [heq.1, heq.2]
      rw [List.cons_append, e]
      split_ifs at h ⊢ with h1 h2
      · exact hr true ps h
      · cases hq : compileFmt true r with
        | none => rw [hq] at h; simp at h
        | some p =>
          cases p with
          | error e => rw [hq] at h; simp [Except.map] at h
          | ok qs =>
            rw [hq] at h
            simp only [Option.map_some, Except.map, Option.some.injEq, Except.ok.injEq] at h
            subst h
            obtain ⟨e, hm⟩ := hr true qs hq
            exact ⟨by rw [e]; rfl, by simp [hm]⟩
      · cases hq : compileFmt false r with
        | none => rw [hq] at h; simp at h
        | some p =>
          cases p with
          | error e => rw [hq] at h; simp [Except.map] at h
          | ok qs =>
            rw [hq] at h
            simp only [Option.map_some, Except.map, Option.some.injEq, Except.ok.injEq] at h
            subst h
            obtain ⟨e, hm⟩ := hr false qs hq
            exact ⟨by rw [e]; rfl, by simp [hm]⟩

/-! ## The fields -/

theorem newDT_tz (C : Cal) (x : DT) (z : Option Tz) : C.newDT { x with tz := z } = (C.newDT x).map (fun y => { y with tz := z }) := by
  unfold Cal.newDT
  simp only
  cases C.newDate x.d with
  | error e => rfl
  | ok o =>
    rw [pyOk_bind, pyOk_bind]
    cases checkTimeFields x.h x.mi x.s x.us x.fold <;> rfl

/-- What the name adds to a datetime that was read. -/
def putName (fresh : ℕ) (name : Option Str) (x : DT) : Py (DT × Option Zone) :=
  match x.tz with
  | none => .ok (x, none)
  | some t => (newZone fresh t.off name).map (fun w => ({ x with tz := some w.tz }, some w))

theorem newZone_off {fresh : ℕ} {off : ℤ} {name : Option Str} {w : Zone} (h : newZone fresh off name = .ok w) : w.off = off := by
  unfold newZone at h
  split_ifs at h with h1 h2
  · injection h with h
    rw [← h, h1.2]
    rfl
  · injection h with h
    rw [← h]

theorem newZone_name {fresh : ℕ} {off : ℤ} {name : Option Str} {w : Zone} (h : newZone fresh off none = .ok w) :
    ∃ u, newZone fresh off name = .ok u := by
  unfold newZone at h ⊢
  split_ifs at h ⊢ with h1 h2 h3 h4 h5 <;> simp_all

theorem named_found {C : Cal} {gs : List (Char × Str)} {fresh : ℕ} {x : DT} (h : C.strptimeFound gs fresh = .ok x) :
    C.namedFound gs fresh = putName fresh (if gs.lookup 'Z' = some [] then none else gs.lookup 'Z') x := by
  unfold Cal.strptimeFound at h
  unfold Cal.namedFound
  cases h1 : parseFound gs with
  | error e => rw [h1] at h; cases h
  | ok f =>
    rw [h1, pyOk_bind] at h
    rw [pyOk_bind]
    cases h2 : checkIsoWeek f with
    | error e => rw [h2] at h; cases h
    | ok u =>
      rw [h2, pyOk_bind] at h
      rw [pyOk_bind]
      cases h3 : C.fromWeeks f with
      | error e => rw [h3] at h; cases h
      | ok r =>
        rw [h3, pyOk_bind] at h
        rw [pyOk_bind]
        cases h4 : C.fromJulian r.1 r.2.1 r.2.2.1 r.2.2.2 with
        | error e => rw [h4] at h; cases h
        | ok q =>
          rw [h4, pyOk_bind] at h
          rw [pyOk_bind]
          cases h5 : C.missingWeekday f q.1 q.2.1 q.2.2 with
          | error e => rw [h5] at h; cases h
          | ok v =>
            rw [h5, pyOk_bind] at h
            rw [pyOk_bind]
            unfold Found.zone at h
            unfold Found.namedZone
            have key : ∀ z : Option Tz, C.newDT ⟨.short q.1 q.2.1 q.2.2, f.hour, f.minute, f.second, f.fraction, z, 0⟩ = .ok x →
                x.tz = z ∧ ∀ z', C.newDT ⟨.short q.1 q.2.1 q.2.2, f.hour, f.minute, f.second, f.fraction, z', 0⟩ =
                  .ok { x with tz := z' } := by
              intro z hz
              refine ⟨?_, fun z' => ?_⟩
              · have := newDT_tz C ⟨.short q.1 q.2.1 q.2.2, f.hour, f.minute, f.second, f.fraction, z, 0⟩ z
                simp only at this
                rw [hz] at this
                injection this with this
                rw [this]
              · have := newDT_tz C ⟨.short q.1 q.2.1 q.2.2, f.hour, f.minute, f.second, f.fraction, z, 0⟩ z'
                simp only at this
                rw [this, hz]
                rfl
            cases hg : f.gmtoff with
            | none =>
              rw [hg] at h
              simp only [pyOk_bind] at h ⊢
              obtain ⟨e1, e2⟩ := key none h
              rw [show Option.map Zone.tz none = none from rfl, h, pyOk_bind]
              unfold putName
              rw [e1]
            | some off =>
              rw [hg] at h
              simp only at h ⊢
              cases hw : newZone fresh off none with
              | error e => rw [hw] at h; cases h
              | ok w =>
                rw [hw] at h
                simp only [Except.map] at h
                rw [pyOk_bind] at h
                obtain ⟨e1, e2⟩ := key _ h
                unfold putName
                rw [e1]
                simp only
                rw [show w.tz.off = off from newZone_off hw]
                cases hu : newZone fresh off (if gs.lookup 'Z' = some [] then none else gs.lookup 'Z') with
                | error e => rfl
                | ok u =>
                  simp only [Except.map]
                  rw [pyOk_bind, show Option.map Zone.tz (some u) = some u.tz from rfl, e2, pyOk_bind]

theorem lookup_z {val : Char → Str} {ts : List Tok} (h : ∀ c m, Tok.dir c m ∈ ts → c ≠ 'Z') (gs : List (Char × Str)) :
    (groupsOf val ts ++ gs).lookup 'Z' = gs.lookup 'Z' := by
  induction ts with
  | nil => rfl
  | cons t ts ih =>
    have ih := ih (fun c m hc => h c m (List.mem_cons_of_mem _ hc))
    cases t with
    | lit c => exact ih
    | dir c m =>
      have hc := h c m List.mem_cons_self
      change ((c, val c) :: (groupsOf val ts ++ gs)).lookup 'Z' = _
      rw [List.lookup_cons, ih]
      have : ('Z' == c) = false := by simp [Ne.symm hc]
      rw [this]

/-! ## An offset and white space -/

theorem afterPat_space {p : Pat} (hp : ∀ q ∈ p, q ' ' = false) (v w : Str) :
    afterPat p (v ++ ' ' :: w) = (afterPat p v).map (· ++ ' ' :: w) := by
  induction p generalizing v with
  | nil => rfl
  | cons q p ih =>
    cases v with
    | nil =>
      change (if q ' ' then afterPat p w else none) = none
      rw [hp q List.mem_cons_self]
      rfl
    | cons x v =>
      change (if q x then afterPat p (v ++ ' ' :: w) else none) = Option.map _ (if q x then afterPat p v else none)
      split_ifs
      · exact ih (fun q hq => hp q (List.mem_cons_of_mem _ hq)) v
      · rfl

theorem match_space {c : Char} {alts : List Pat} {ps : List Piece} {v w e : Str} {g : List (Char × Str)} (hc : altsOf c = some alts)
    (hp : ∀ p ∈ alts, ∀ q ∈ p, q ' ' = false) (h : firstLen alts v = some v.length)
    (hg : (matchAll ps (' ' :: w)).head? = some (g, e)) :
    (matchAll (.dir c :: ps) (v ++ ' ' :: w)).head? = some ((c, v) :: g, e) := by
  unfold matchAll
  rw [hc, Option.getD_some]
  clear hc
  unfold firstLen at h
  induction alts with
  | nil => simp at h
  | cons p l ih =>
    rw [List.findSome?_cons] at h
    rw [List.flatMap_cons, List.head?_append, afterPat_space (hp p List.mem_cons_self)]
    cases ha : afterPat p v with
    | none =>
      rw [ha] at h
      exact ih (fun p hp' => hp p (List.mem_cons_of_mem _ hp')) h
    | some r =>
      rw [ha] at h
      simp only [Option.map_some, Option.some.injEq] at h
      have e := (afterPat_inv ha).1
      rw [h, List.take_length] at e
      have : r = [] := by
        have := congrArg List.length e
        rw [List.length_append] at this
        exact List.length_eq_zero_iff.mp (by omega)
      subst this
      simp only [Option.map_some, List.nil_append]
      rw [h, List.take_left, List.head?_map, hg]
      rfl

theorem zone_no_space : ∀ p ∈ zonePats, ∀ q ∈ p, q ' ' = false := by decide

theorem space_match {w : Str} (hw : w.dropWhile isSpaceC = w) : (matchAll [.space] (' ' :: w)).head? = some ([], w) := by
  have h : w.takeWhile isSpaceC = [] := by
    have := List.takeWhile_append_dropWhile (p := isSpaceC) (l := w)
    rw [hw] at this
    exact List.append_left_eq_self.mp this
  unfold matchAll
  rw [List.takeWhile_cons_of_pos (by decide), h]
  rfl

/-! ## The texts that are read -/

theorem dropsDown_suffix {n : ℕ} {s r : Str} (h : r ∈ dropsDown n s) : ∃ a, s = a ++ r := by
  induction n with
  | zero => simp [dropsDown] at h
  | succ n ih =>
    rcases List.mem_cons.1 h with rfl | h
    · exact ⟨s.take (n + 1), (List.take_append_drop _ _).symm⟩
    · exact ih h

theorem matchAll_rest {ps : List Piece} (hz : Piece.dir 'Z' ∉ ps) {s r : Str} {g : List (Char × Str)} (h : (g, r) ∈ matchAll ps s) :
    (∃ a, s = a ++ r) ∧ ∀ gs, (g ++ gs).lookup 'Z' = gs.lookup 'Z' := by
  induction ps generalizing s g with
  | nil =>
    simp only [matchAll, List.mem_singleton, Prod.mk.injEq] at h
    obtain ⟨rfl, rfl⟩ := h
    exact ⟨⟨[], rfl⟩, fun _ => rfl⟩
  | cons p ps ih =>
    have ih := @ih (fun hp => hz (by simp [hp]))
    cases p with
    | lit c =>
      cases s with
      | nil => simp [matchAll] at h
      | cons x s =>
        simp only [matchAll] at h
        split_ifs at h
        · obtain ⟨⟨a, rfl⟩, hl⟩ := ih h
          exact ⟨⟨x :: a, rfl⟩, hl⟩
        · simp at h
    | space =>
      simp only [matchAll, List.mem_flatMap] at h
      obtain ⟨t, ht, h⟩ := h
      obtain ⟨a, rfl⟩ := dropsDown_suffix ht
      obtain ⟨⟨b, rfl⟩, hl⟩ := ih h
      exact ⟨⟨a ++ b, by rw [List.append_assoc]⟩, hl⟩
    | dir c =>
      have hc : c ≠ 'Z' := by rintro rfl; simp at hz
      simp only [matchAll, List.mem_flatMap] at h
      obtain ⟨p, -, h⟩ := h
      cases ha : afterPat p s with
      | none => rw [ha] at h; simp at h
      | some t =>
        rw [ha] at h
        simp only [List.mem_map, Prod.mk.injEq] at h
        obtain ⟨⟨g', r'⟩, hg, rfl, rfl⟩ := h
        obtain ⟨⟨b, rfl⟩, hl⟩ := ih hg
        refine ⟨⟨s.take p.length ++ b, ?_⟩, fun gs => ?_⟩
        · conv_lhs => rw [(afterPat_inv ha).1]
          rw [List.append_assoc]
        · rw [List.cons_append, List.lookup_cons, hl]
          have : ('Z' == c) = false := by simp [Ne.symm hc]
          rw [this]

/-- What is found by a format with `%Z` at the end. -/
theorem findNamed_end {names : List Str} {ps : List Piece} (hz : Piece.dir 'Z' ∉ ps) {s : Str} {g : List (Char × Str)}
    (h : findNamed names s (ps ++ [.dir 'Z']) = .ok g) : ∃ a w, s = a ++ w ∧ KnownName names w ∧ g.lookup 'Z' = some w := by
  unfold findNamed at h
  rw [matchNamed_plain names hz] at h
  split at h
  · cases h
  · rename_i g' r hh
    split_ifs at h with hr
    subst hr
    injection h with h
    subst h
    have hm := List.mem_of_mem_head? hh
    simp only [List.mem_flatMap] at hm
    obtain ⟨⟨g0, r0⟩, h0, hm⟩ := hm
    unfold withName zoneNamePats at hm
    simp only [List.mem_flatMap, List.mem_map] at hm
    obtain ⟨p, ⟨z, hz', rfl⟩, hm⟩ := hm
    obtain ⟨⟨a, rfl⟩, hl⟩ := matchAll_rest hz h0
    cases ha : afterPat (z.map sameLetter) r0 with
    | none => rw [ha] at hm; simp at hm
    | some t =>
      rw [ha] at hm
      simp only [List.mem_singleton, Prod.mk.injEq] at hm
      obtain ⟨rfl, rfl⟩ := hm
      obtain ⟨u, e, hu⟩ := afterPat_letters z r0 [] ha
      rw [List.append_nil] at e
      subst e
      refine ⟨a, r0, rfl, ⟨z, List.mem_mergeSort.1 hz', hu⟩, ?_⟩
      rw [hl, List.take_of_length_le]
      · rfl
      · have : r0.length = z.length := by rw [← length_lower r0, hu, length_lower]
        simp; omega

theorem namedFound_zone {C : Cal} {gs : List (Char × Str)} {fresh : ℕ} {x : DT} {z : Option Zone} {w : Str} (hw : gs.lookup 'Z' = some w)
    (h : C.namedFound gs fresh = .ok (x, z)) : x.tz = z.map Zone.tz ∧ ∀ t, z = some t → w ≠ [] → t.name = some w := by
  unfold Cal.namedFound at h
  cases h1 : parseFound gs with
  | error e => rw [h1] at h; cases h
  | ok f =>
    rw [h1, pyOk_bind] at h
    cases h2 : checkIsoWeek f with
    | error e => rw [h2] at h; cases h
    | ok u =>
      rw [h2, pyOk_bind] at h
      cases h3 : C.fromWeeks f with
      | error e => rw [h3] at h; cases h
      | ok r =>
        rw [h3, pyOk_bind] at h
        cases h4 : C.fromJulian r.1 r.2.1 r.2.2.1 r.2.2.2 with
        | error e => rw [h4] at h; cases h
        | ok q =>
          rw [h4, pyOk_bind] at h
          cases h5 : C.missingWeekday f q.1 q.2.1 q.2.2 with
          | error e => rw [h5] at h; cases h
          | ok v =>
            rw [h5, pyOk_bind] at h
            cases h6 : f.namedZone fresh (gs.lookup 'Z') with
            | error e => rw [h6] at h; cases h
            | ok z' =>
              rw [h6, pyOk_bind] at h
              have h7 := newDT_tz C ⟨.short q.1 q.2.1 q.2.2, f.hour, f.minute, f.second, f.fraction, z'.map Zone.tz, 0⟩ (z'.map Zone.tz)
              simp only at h7
              cases h8 : C.newDT ⟨.short q.1 q.2.1 q.2.2, f.hour, f.minute, f.second, f.fraction, z'.map Zone.tz, 0⟩ with
              | error e => rw [h8] at h; cases h
              | ok x' =>
                rw [h8, pyOk_bind] at h
                rw [h8] at h7
                injection h7 with h7
                injection h with h
                injection h with ha hb
                subst ha
                subst hb
                refine ⟨by rw [h7], ?_⟩
                rintro t rfl hne
                unfold Found.namedZone at h6
                cases hg : f.gmtoff with
                | none => rw [hg] at h6; cases h6
                | some off =>
                  rw [hg, hw] at h6
                  simp only at h6
                  rw [if_neg (by simpa using hne)] at h6
                  unfold newZone at h6
                  rw [if_neg (by simp)] at h6
                  split_ifs at h6
                  · injection h6 with h6
                    injection h6 with h6
                    rw [← h6]
                  · cases h6

/-- C106: whatever the format before `%Z`, a text is read only if it ends with a name of the host's time zone, `UTC` or `GMT` (in
any case of the letters); the zone of the result, if there is one, has the name as it stood in the text. Any other text is
refused with ValueError. -/
theorem C106_names (C : Cal) (names : List Str) (f : Str) (ps : List Piece) (hf : compileFmt false f = some (.ok ps)) (text : Str)
    (fresh : ℕ) :
    (∀ x z, C.strptimeNamed names text (f ++ "%Z".toList) fresh = some (.ok (x, z)) →
      ∃ head w, text = head ++ w ∧ KnownName names w ∧ x.tz = z.map Zone.tz ∧ ∀ t, z = some t → w ≠ [] → t.name = some w) ∧
    ((∀ head w, text = head ++ w → ¬ KnownName names w) →
      C.strptimeNamed names text (f ++ "%Z".toList) fresh = some (.error .value)) := by
  obtain ⟨e, hz⟩ := compile_named false f ps hf
  rw [show "%Z".toList = ['%', 'Z'] by decide]
  unfold Cal.strptimeNamed
  rw [e]
  simp only
  refine ⟨fun x z h => ?_, fun h => ?_⟩
  · injection h with h
    cases hg : findNamed names text (ps ++ [.dir 'Z']) with
    | error e => rw [hg] at h; cases h
    | ok g =>
      rw [hg, pyOk_bind] at h
      obtain ⟨a, w, rfl, hw, hl⟩ := findNamed_end hz hg
      obtain ⟨h1, h2⟩ := namedFound_zone hl h
      exact ⟨a, w, rfl, hw, h1, h2⟩
  · have : findNamed names text (ps ++ [.dir 'Z']) = .error .value := by
      cases hg : findNamed names text (ps ++ [.dir 'Z']) with
      | ok g =>
        obtain ⟨a, w, e, hw, -⟩ := findNamed_end hz hg
        exact absurd hw (h a w e)
      | error e =>
        unfold findNamed at hg
        split at hg
        · exact hg.symm
        · split_ifs at hg
          exact hg.symm
    rw [this]
    rfl

/-- A host in Eastern time, whose names are these; a format; a text that ends with a name of the host and one that does not. -/
example : HostZone.Names ⟨"EST".toList, "EDT".toList, true⟩ ["gmt".toList, "utc".toList, "est".toList, "edt".toList] ∧
    compileFmt false (tokText isoLike ++ "%z ".toList) = some (.ok (piecesOf false isoLike ++ [.dir 'z', .space])) ∧
    KnownName ["gmt".toList, "utc".toList, "est".toList, "edt".toList] "EDT".toList ∧
    ∀ head w, "0182-01-01 Asia/Tehran".toList = head ++ w → ¬ KnownName ["gmt".toList, "utc".toList, "est".toList, "edt".toList] w := by
  refine ⟨⟨["gmt".toList, "utc".toList, "est".toList], ["edt".toList], rfl, ?_, ?_⟩,
    compile_toks_app zone_format.pieces (fun b => by cases b <;> rfl) false, ⟨"edt".toList, by simp, by decide⟩, ?_⟩
  · intro s
    rw [show lowerS "EST".toList = "est".toList by decide]
    simp only [List.mem_cons, List.not_mem_nil, or_false]
    tauto
  · intro s
    rw [show lowerS "EDT".toList = "edt".toList by decide]
    simp
  · rintro head w e ⟨z, hz, hw⟩
    have h1 : lowerS z <:+ lowerS "0182-01-01 Asia/Tehran".toList :=
      ⟨lowerS head, by rw [← hw, e]; simp [lowerS]⟩
    have all : ∀ z ∈ ["gmt".toList, "utc".toList, "est".toList, "edt".toList], ¬ lowerS z <:+ lowerS "0182-01-01 Asia/Tehran".toList := by
      decide
    exact all z hz h1

theorem strptime_named {A : Astro} (hE : TehranEvening A) (hO : NewYearOrder (Cal.init A)) {y m d h mi s us n : ℤ} {tz : Option Tz}
    (hx : IsDT (Cal.init A) ⟨.short y m d, h, mi, s, us, tz, 0⟩ n) (hy : -1842 ≤ y) (hh : h ≤ 23)
    {ts : List Tok} (hF : RoundTripFormat ts) (hb : Tok.dir 'b' none ∈ ts → m ≠ 15)
    (hj : Tok.dir 'j' none ∈ ts → Convertible (Cal.init A) n) (fresh : ℕ) {names : List Str} {w : Str} (hw : KnownName names w)
    {k : Str} {ps : List Piece} (hk : ∀ b, compileFmt b k = some (.ok ps)) {r : Str} {zs : List (Char × Str)} {off : Option ℤ}
    (hr : (matchAll ps r).head? = some (zs, w)) (hs : r.dropWhile isSpaceC = r)
    (hz : (zs = [] ∧ off = none) ∨ ∃ v o, zs = [('z', v)] ∧ parseOffset v = .ok o ∧ off = some o) (ho : ∀ o, off = some o → ValidOff o) :
    ∃ x : DT, x = ⟨.short y m d, keptField ts 'H' h, keptField ts 'M' mi, keptField ts 'S' s, keptField ts 'f' us, x.tz, 0⟩ ∧
      x.tz.map Tz.off = off ∧
      (Cal.init A).strptimeNamed names (outOf (fieldText (tupleOf y m d h mi s n) us) ts ++ r) (tokText ts ++ k ++ ['%', 'Z']) fresh =
        some (putName fresh (if w = [] then none else some w) x) := by
  obtain ⟨htok, -⟩ := tupleOf_ok hE hO hx hy hh
  have hc := compile_toks_app hF.pieces hk false
  obtain ⟨hcn, hnz⟩ := compile_named false _ _ hc
  have hmatch := (match_toks_app (ts := ts) (val := fieldText (tupleOf y m d h mi s n) us)
    (fun c hc => by
      obtain ⟨a, b, -⟩ := field_facts htok (hF.pieces _ hc).2 (fun e => hb (by subst e; exact hc))
      exact ⟨a, b⟩) (fun c m' hc => (hF.pieces _ hc).1) hr hs).1
  have hfound := strptimeFound_more hE hO hx.day htok hF hb hj (fresh := fresh) (zs := zs ++ [('Z', w)]) (off := off) (hr := fun x => x) (by
    intro f hp hg
    rcases hz with ⟨rfl, rfl⟩ | ⟨v, o, rfl, hv, rfl⟩
    · cases f
      simp only at hg
      subst hg
      rfl
    · change (setGroup f ('z', v) >>= fun f => [('Z', w)].foldlM setGroup f) = _
      rw [show setGroup f ('z', v) = (parseOffset v).map (fun n => { f with gmtoff := some n }) from rfl, hv]
      rfl)
  have hzone : ∃ t : Option Tz, Found.zone fresh { gmtoff := off } = .ok t ∧ t.map Tz.off = off := by
    unfold Found.zone
    cases off with
    | none => exact ⟨none, rfl, rfl⟩
    | some o =>
      obtain ⟨v0, v1⟩ := ho o rfl
      simp only
      unfold newZone
      by_cases h0 : o = 0
      · rw [if_pos ⟨rfl, h0⟩]
        exact ⟨_, rfl, by rw [h0]; rfl⟩
      · rw [if_neg (by simp [h0]), if_pos (by omega)]
        exact ⟨_, rfl, rfl⟩
  obtain ⟨t, ht, hto⟩ := hzone
  rw [ht, pyOk_bind, newDT_ok hE (n := n) (x := ⟨.short y m d, keptField ts 'H' h, keptField ts 'M' mi, keptField ts 'S' s,
      keptField ts 'f' us, t, 0⟩) ⟨hx.day, kept_valid (z := t)
      ⟨hx.time.h0, hx.time.h1, hx.time.mi0, hx.time.mi1, hx.time.s0, hx.time.s1, hx.time.us0, hx.time.us1, hx.time.fold⟩⟩] at hfound
  refine ⟨⟨.short y m d, keptField ts 'H' h, keptField ts 'M' mi, keptField ts 'S' s, keptField ts 'f' us, t, 0⟩, rfl, hto, ?_⟩
  unfold Cal.strptimeNamed
  rw [hcn]
  simp only
  unfold findNamed
  rw [matchNamed_plain names hnz, head_flatMap' hmatch (withName_known hw _)]
  simp only [if_true]
  rw [pyOk_bind, List.append_assoc, named_found hfound, lookup_z (fun c m' hc => by
    have all : ∀ x ∈ "YmdHMSfjBbAa".toList, x ≠ 'Z' := by decide
    exact all c (hF.pieces _ hc).2)]
  have hl : (zs ++ [('Z', w)]).lookup 'Z' = some w := by
    rcases hz with ⟨rfl, -⟩ | ⟨v, o, rfl, -, -⟩ <;> rfl
  rw [hl]
  simp only [Option.some.injEq]

/-- C106: the text that `strftime` makes of an aware datetime with `%z %Z` at the end of the format, for a zone a whole number of
hours from UTC whose name the host knows, is read back to the same datetime, offset and name (the clock as far as the format
mentions it). Missing from the full property: the other zones; for names that the host does not know it is false (below), and
for zero and the quarters of an hour `%z` alone fails (C85). -/
theorem C106_round_partial (A : Astro) (hE : TehranEvening A) (hO : NewYearOrder (Cal.init A)) (L : Locale)
    (y m d h mi s us n : ℤ) (i : TzInfo) (k : ℤ) (hz : i.zone.off = 3600000000 * k) (k0 : k ≠ 0) (k1 : |k| ≤ 23)
    (hx : IsDT (Cal.init A) ⟨.short y m d, h, mi, s, us, some i.zone.tz, 0⟩ n) (hy : -1842 ≤ y) (hh : h ≤ 23)
    (ts : List Tok) (hF : RoundTripFormat ts) (hb : Tok.dir 'b' none ∈ ts → m ≠ 15)
    (hj : Tok.dir 'j' none ∈ ts → Convertible (Cal.init A) n) (fresh : ℕ) (names : List Str) (hw : KnownName names (tzName i.zone))
    (hne : tzName i.zone ≠ []) (hs : (tzName i.zone).dropWhile isSpaceC = tzName i.zone) :
    ∃ text t, (Cal.init A).datetimeStrftime L ⟨.short y m d, h, mi, s, us, some i.zone.tz, 0⟩ (some i)
        (tokText ts ++ "%z %Z".toList) = .ok text ∧
      (Cal.init A).strptimeNamed names text (tokText ts ++ "%z %Z".toList) fresh = some (.ok (⟨.short y m d, keptField ts 'H' h,
        keptField ts 'M' mi, keptField ts 'S' s, keptField ts 'f' us, some t.tz, 0⟩, some t)) ∧
      t.off = i.zone.off ∧ tzName t = tzName i.zone := by
  have q1 : |4 * k| = 4 * |k| := by rw [abs_mul]; norm_num
  have hd := dirZ_quarters (q := 4 * k) (by omega) (by omega) false
  simp only [Bool.false_eq_true, if_false] at hd
  have ht := hundredths_text (q := 4 * k) (by omega) (by omega)
  have e : (if 4 * k < 0 then (-1 : ℤ) else 1) * ((|4 * k| / 4 * 3600 + 25 * (|4 * k| % 4) * 60) * 1000000) = i.zone.off := by
    rw [hz, q1, show 4 * |k| / 4 = |k| by omega, show 4 * |k| % 4 = 0 by omega]
    rcases abs_cases k with ⟨e, h⟩ | ⟨e, h⟩ <;> rw [e] <;> split_ifs <;> omega
  rw [e] at ht
  generalize hw' : tzName i.zone = w at hw hne hs
  have hv : ValidOff i.zone.off := by unfold ValidOff; rcases abs_cases k with h | h <;> omega
  have hsp : (hundredths (4 * k) false ++ ' ' :: w).dropWhile isSpaceC = hundredths (4 * k) false ++ ' ' :: w := by
    rcases ht with ⟨e, -⟩ | ⟨a, -, neg, hh, m, us, tail, -, -, e, -⟩
    · rw [e]; rfl
    · rw [e]; cases neg <;> rfl
  have htext : (Cal.init A).datetimeStrftime L ⟨.short y m d, h, mi, s, us, some i.zone.tz, 0⟩ (some i) (tokText ts ++ "%z %Z".toList) =
      .ok (outOf (fieldText (tupleOf y m d h mi s n) us) ts ++ (hundredths (4 * k) false ++ ' ' :: w)) := by
    rw [show "%z %Z".toList = tokText [.dir 'z' none, .lit ' ', .dir 'Z' none] by decide]
    refine strftime_more hE hO L hx hy hh hF (ks := [.dir 'z' none, .lit ' ', .dir 'Z' none]) rfl (fun us => by rfl) ?_ (by simp [Tok.isDash]) ?_ ?_
    · intro t ht
      simp only [List.mem_cons, List.not_mem_nil, or_false] at ht
      rcases ht with rfl | rfl | rfl <;> simp [Tok.Documented]
    · intro b hb
      simp at hb
      subst hb
      rfl
    · change Except.ok (dirZ (offsetSeconds (some i)) none ++ ([' '] ++ (tzName i.zone ++ []))) = _
      rw [offsetSeconds_quarters (q := 4 * k) (by omega) (by omega) (by omega), hd, hw', List.append_nil]
      rfl
  obtain ⟨x, hxe, hxo, hr⟩ := strptime_named hE hO hx hy hh hF hb hj fresh hw (k := ['%', 'z', ' ']) (ps := [.dir 'z', .space])
    (fun b => by cases b <;> rfl) (match_space rfl zone_no_space (firstLen_offset ht) (space_match hs)) hsp
    (Or.inr ⟨_, _, rfl, parseOffset_ok ht, rfl⟩) (fun o ho => by injection ho with ho; rw [← ho]; exact hv)
  refine ⟨_, ⟨fresh, i.zone.off, some w⟩, htext, ?_, rfl, rfl⟩
  rw [show tokText ts ++ "%z %Z".toList = tokText ts ++ ['%', 'z', ' '] ++ ['%', 'Z'] by rw [List.append_assoc]; rfl, hr, if_neg hne]
  unfold putName
  cases hxt : x.tz with
  | none => rw [hxt] at hxo; simp at hxo
  | some t =>
    rw [hxt] at hxo
    simp only [Option.map_some, Option.some.injEq] at hxo
    simp only
    rw [hxo]
    unfold newZone
    obtain ⟨v0, v1⟩ := hv
    rw [if_neg (by simp), if_pos (by omega)]
    simp only [Except.map]
    rw [hxe]

/-- Eastern time, a host that knows it, a datetime in it. -/
example : (⟨7, 3600000000 * -5, some "EST".toList⟩ : Zone).off = 3600000000 * -5 ∧
    KnownName ["gmt".toList, "utc".toList, "est".toList, "edt".toList] (tzName ⟨7, 3600000000 * -5, some "EST".toList⟩) ∧
    (tzName ⟨7, 3600000000 * -5, some "EST".toList⟩).dropWhile isSpaceC = tzName ⟨7, 3600000000 * -5, some "EST".toList⟩ ∧
    RoundTripFormat isoLike ∧ IsDT (Cal.init newYearSun) (witnessDT (some ⟨7, 3600000000 * -5⟩) 0) 739675 :=
  ⟨rfl, ⟨"est".toList, by simp, by decide⟩, by decide, zone_format, witnessDT_is _ (Or.inl rfl)⟩

/-- The text of a datetime with a format that ends with `%Z`. -/
theorem strftime_name {A : Astro} (hE : TehranEvening A) (hO : NewYearOrder (Cal.init A)) (L : Locale) {y m d h mi s us n : ℤ}
    {i : TzInfo} (hx : IsDT (Cal.init A) ⟨.short y m d, h, mi, s, us, some i.zone.tz, 0⟩ n) (hy : -1842 ≤ y) (hh : h ≤ 23)
    {ts : List Tok} (hF : RoundTripFormat ts) :
    (Cal.init A).datetimeStrftime L ⟨.short y m d, h, mi, s, us, some i.zone.tz, 0⟩ (some i) (tokText ts ++ ['%', 'Z']) =
      .ok (outOf (fieldText (tupleOf y m d h mi s n) us) ts ++ tzName i.zone) := by
  refine strftime_more hE hO L hx hy hh hF (ks := [.dir 'Z' none]) rfl (fun us => wrap_one us (by decide)) ?_ (by simp) ?_ ?_
  · intro t ht
    rw [List.mem_singleton] at ht
    subst ht
    simp [Tok.Documented]
  · intro b hb
    simp at hb
    subst hb
    rfl
  · change Except.ok (tzName i.zone ++ []) = _
    rw [List.append_nil]

/-- C106: with `%Z` and no `%z` the zone is lost: the text of an aware datetime is read as a naive one, even if the host knows the
name. -/
theorem C106_alone_negation (A : Astro) (hE : TehranEvening A) (hO : NewYearOrder (Cal.init A)) (L : Locale)
    (y m d h mi s us n : ℤ) (i : TzInfo)
    (hx : IsDT (Cal.init A) ⟨.short y m d, h, mi, s, us, some i.zone.tz, 0⟩ n) (hy : -1842 ≤ y) (hh : h ≤ 23)
    (ts : List Tok) (hF : RoundTripFormat ts) (hb : Tok.dir 'b' none ∈ ts → m ≠ 15)
    (hj : Tok.dir 'j' none ∈ ts → Convertible (Cal.init A) n) (fresh : ℕ) (names : List Str) (hw : KnownName names (tzName i.zone))
    (hs : (tzName i.zone).dropWhile isSpaceC = tzName i.zone) :
    ∃ text, (Cal.init A).datetimeStrftime L ⟨.short y m d, h, mi, s, us, some i.zone.tz, 0⟩ (some i) (tokText ts ++ "%Z".toList) =
        .ok text ∧
      (Cal.init A).strptimeNamed names text (tokText ts ++ "%Z".toList) fresh = some (.ok (⟨.short y m d, keptField ts 'H' h,
        keptField ts 'M' mi, keptField ts 'S' s, keptField ts 'f' us, none, 0⟩, none)) := by
  rw [show "%Z".toList = ['%', 'Z'] by decide]
  refine ⟨_, strftime_name hE hO L hx hy hh hF, ?_⟩
  obtain ⟨x, hxe, hxo, hr⟩ := strptime_named hE hO hx hy hh hF hb hj fresh hw (k := []) (ps := [])
    (fun b => by cases b <;> rfl) (r := tzName i.zone) (zs := []) rfl hs (Or.inl ⟨rfl, rfl⟩) (fun o ho => by cases ho)
  rw [List.append_nil] at hr
  rw [hr]
  unfold putName
  have hxt : x.tz = none := by simpa using hxo
  rw [hxt]
  simp only
  rw [hxe, hxt]

/-- UTC is known on every host. -/
example (H : HostZone) (names : List Str) (h : H.Names names) : KnownName names (tzName utcZone) ∧
    (tzName utcZone).dropWhile isSpaceC = tzName utcZone := by
  obtain ⟨a, b, rfl, ha, -⟩ := h
  exact ⟨⟨"utc".toList, List.mem_append_left _ ((ha _).2 (Or.inl rfl)), by decide⟩, by decide⟩

/-- C106: the name of a zone that is not one of the host is refused with ValueError, though `strftime` wrote it; so is that of
`timezone.badi` on every host whose names do not end like it. -/
theorem C106_unknown_negation (A : Astro) (hE : TehranEvening A) (hO : NewYearOrder (Cal.init A)) (L : Locale)
    (y m d h mi s us n : ℤ) (i : TzInfo)
    (hx : IsDT (Cal.init A) ⟨.short y m d, h, mi, s, us, some i.zone.tz, 0⟩ n) (hy : -1842 ≤ y) (hh : h ≤ 23)
    (ts : List Tok) (hF : RoundTripFormat ts) (fresh : ℕ) (names : List Str)
    (hw : ∀ z ∈ names, ¬ lowerS z <:+ lowerS (tzName i.zone) ∧ ¬ lowerS (tzName i.zone) <:+ lowerS z) :
    ∃ text, (Cal.init A).datetimeStrftime L ⟨.short y m d, h, mi, s, us, some i.zone.tz, 0⟩ (some i) (tokText ts ++ "%Z".toList) =
        .ok text ∧
      (Cal.init A).strptimeNamed names text (tokText ts ++ "%Z".toList) fresh = some (.error .value) := by
  refine ⟨_, strftime_name hE hO L hx hy hh hF, ?_⟩
  have hc := compile_toks_app hF.pieces (k := []) (ps := []) (fun b => by cases b <;> rfl) false
  rw [List.append_nil] at hc
  refine (C106_names _ names _ _ hc _ fresh).2 ?_
  rintro head w e ⟨z, hz, hlw⟩
  obtain ⟨h1, h2⟩ := hw z hz
  rcases List.append_eq_append_iff.mp e with ⟨u, -, e2⟩ | ⟨u, -, e2⟩
  · exact h1 ⟨lowerS u, by rw [← hlw, e2]; simp [lowerS]⟩
  · exact h2 ⟨lowerS u, by rw [← hlw, e2]; simp [lowerS]⟩

/-- The zone of the Badi day on a host in Eastern time. -/
example : (∀ z ∈ ["gmt".toList, "utc".toList, "est".toList, "edt".toList],
      ¬ lowerS z <:+ lowerS (tzName badiZone) ∧ ¬ lowerS (tzName badiZone) <:+ lowerS z) ∧
    IsDT (Cal.init newYearSun) (witnessDT (some badiZone.tz) 0) 739675 :=
  ⟨by decide, witnessDT_is _ (Or.inl rfl)⟩

theorem toNat_ofNat {n : ℕ} (h : n < 55296) : (Char.ofNat n).toNat = n := toNat_ofNat_valid (Or.inl h)

theorem lowerC_idem (c : Char) : lowerC (lowerC c) = lowerC c := by
  by_cases h1 : (65 ≤ c.toNat ∧ c.toNat ≤ 90) ∨ (192 ≤ c.toNat ∧ c.toNat ≤ 222 ∧ c.toNat ≠ 215)
  · have e : lowerC c = Char.ofNat (c.toNat + 32) := by unfold lowerC; simp only [if_pos h1]
    rw [e]
    unfold lowerC
    simp only
    rw [toNat_ofNat (by omega), if_neg (by omega), if_neg (by omega)]
  · by_cases h2 : ((256 ≤ c.toNat ∧ c.toNat ≤ 310) ∨ (7680 ≤ c.toNat ∧ c.toNat ≤ 7828)) ∧ c.toNat % 2 = 0
    · have e : lowerC c = Char.ofNat (c.toNat + 1) := by unfold lowerC; simp only [if_neg h1, if_pos h2]
      rw [e]
      unfold lowerC
      simp only
      rw [toNat_ofNat (by omega), if_neg (by omega), if_neg (by omega)]
    · have e : lowerC c = c := by unfold lowerC; simp only [if_neg h1, if_neg h2]
      rw [e, e]

theorem lowerS_idem (s : Str) : lowerS (lowerS s) = lowerS s := by
  unfold lowerS
  rw [List.map_map]
  congr 1
  funext c
  exact lowerC_idem c

/-- C106: the names that are known, in any order of the two sets: `UTC`, `GMT`, the name of the zone of the host and, if it has
daylight saving time, the name of that; in any case of the letters. -/
theorem C106_known (H : HostZone) (names : List Str) (h : H.Names names) (w : Str) :
    KnownName names w ↔ lowerS w = "utc".toList ∨ lowerS w = "gmt".toList ∨ lowerS w = lowerS H.std ∨
      (H.daylight = true ∧ lowerS w = lowerS H.dst) := by
  obtain ⟨a, b, rfl, ha, hb⟩ := h
  have hu : lowerS "utc".toList = "utc".toList := by decide
  have hg : lowerS "gmt".toList = "gmt".toList := by decide
  constructor
  · rintro ⟨z, hz, hw⟩
    rcases List.mem_append.1 hz with hz | hz
    · rcases (ha z).1 hz with rfl | rfl | rfl
      · rw [hu] at hw; exact Or.inl hw
      · rw [hg] at hw; exact Or.inr (Or.inl hw)
      · rw [lowerS_idem] at hw; exact Or.inr (Or.inr (Or.inl hw))
    · obtain ⟨hd, rfl⟩ := (hb z).1 hz
      rw [lowerS_idem] at hw
      exact Or.inr (Or.inr (Or.inr ⟨hd, hw⟩))
  · rintro (hw | hw | hw | ⟨hd, hw⟩)
    · exact ⟨_, List.mem_append_left _ ((ha _).2 (Or.inl rfl)), by rw [hw, hu]⟩
    · exact ⟨_, List.mem_append_left _ ((ha _).2 (Or.inr (Or.inl rfl))), by rw [hw, hg]⟩
    · exact ⟨_, List.mem_append_left _ ((ha _).2 (Or.inr (Or.inr rfl))), by rw [hw, lowerS_idem]⟩
    · exact ⟨_, List.mem_append_right _ ((hb _).2 ⟨hd, rfl⟩), by rw [hw, lowerS_idem]⟩

example : HostZone.Names ⟨"UTC".toList, "UTC".toList, false⟩ ["utc".toList, "gmt".toList] ∧ lowerS "Gmt".toList = "gmt".toList := by
  refine ⟨⟨["utc".toList, "gmt".toList], [], rfl, ?_, ?_⟩, by decide⟩
  · intro s
    rw [show lowerS "UTC".toList = "utc".toList by decide]
    simp only [List.mem_cons, List.not_mem_nil, or_false]
    tauto
  · intro s
    simp

end Verif
