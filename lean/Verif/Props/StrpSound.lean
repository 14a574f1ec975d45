import Verif.Lemmas.StrpSound
import Verif.Props.StrpTimeNeg

/-!
# C73: what `strptime` accepts

`Follows`, `FieldIs`, `HourIs`, `ZoneIs`, `FractionIs` and `MonthIs` are in `Spec/StrpTime`.
-/

namespace Verif

theorem map_ok_inv {α β : Type} {f : α → β} {o : Py α} {b : β} (h : o.map f = .ok b) : ∃ a, o = .ok a ∧ b = f a := by
  cases o with
  | error e => simp [Except.map] at h
  | ok a => simp [Except.map] at h; exact ⟨a, rfl, h.symm⟩

/-- The effect of one group. -/
theorem setGroup_inv {f f' : Found} {c : Char} {v : Str} (h : setGroup f (c, v) = .ok f') :
    (if c = 'H' then intOf v = .ok f'.hour else if c = 'I' then ∃ h, intOf v = .ok h ∧ f'.hour = hourOf12 f.ampm h else
      f'.hour = f.hour) ∧
    (if c = 'M' then intOf v = .ok f'.minute else f'.minute = f.minute) ∧
    (if c = 'S' then intOf v = .ok f'.second else f'.second = f.second) ∧
    (if c = 'd' then intOf v = .ok f'.day else f'.day = f.day) ∧
    (if c = 'Y' ∨ c = 'y' then ∃ n, intOf v = .ok n ∧ f'.year = some n else f'.year = f.year) ∧
    (if c = 'j' then ∃ n, intOf v = .ok n ∧ f'.julian = some n else f'.julian = f.julian) ∧
    (if c = 'f' then intOf (v ++ List.replicate (6 - v.length) '0') = .ok f'.fraction else f'.fraction = f.fraction) ∧
    (if c = 'm' then intOf v = .ok f'.month else if c = 'B' then nameIndex monthNames v = .ok f'.month else
      if c = 'b' then nameIndex monthAbbrs v = .ok f'.month else f'.month = f.month) ∧
    (if c = 'U' ∨ c = 'W' then True else f'.weekOfYear = f.weekOfYear) ∧
    (if c = 'G' then True else f'.isoYear = f.isoYear) ∧
    (if c = 'V' then True else f'.isoWeek = f.isoWeek) ∧
    (if c = 'z' then ∃ n, parseOffset v = .ok n ∧ f'.gmtoff = some n else f'.gmtoff = f.gmtoff) ∧ f'.ampm = f.ampm := by
  unfold setGroup at h
  simp only at h
  split at h
  all_goals first
    | (obtain ⟨n, hn, rfl⟩ := map_ok_inv h; simp [hn])
    | (injection h with h; subst h; simp_all)

theorem fold_field {T : Type} {proj : Found → T} {cs : List Char} {R : Char → Str → T → Prop}
    (hstep : ∀ f f' c v, setGroup f (c, v) = .ok f' → if c ∈ cs then R c v (proj f') else proj f' = proj f)
    {gs : List (Char × Str)} {f f' : Found} (h : gs.foldlM setGroup f = .ok f') :
    (∃ c ∈ cs, ∃ v, (c, v) ∈ gs ∧ R c v (proj f')) ∨ ((∀ c ∈ cs, ∀ v, (c, v) ∉ gs) ∧ proj f' = proj f) := by
  induction gs generalizing f with
  | nil =>
    have : f = f' := by
      rw [List.foldlM_nil] at h
      injection h
    subst this
    right; simp
  | cons p gs ih =>
    obtain ⟨c, v⟩ := p
    rw [List.foldlM_cons] at h
    cases h1 : setGroup f (c, v) with
    | error e => rw [h1] at h; cases h
    | ok f1 =>
      rw [h1, pyOk_bind] at h
      have hs := hstep _ _ _ _ h1
      rcases ih h with ⟨c', hc', v', hv', hr⟩ | ⟨hn, he⟩
      · exact Or.inl ⟨c', hc', v', by simp [hv'], hr⟩
      · split_ifs at hs with hc
        · exact Or.inl ⟨c, hc, v, by simp, by rw [he]; exact hs⟩
        · refine Or.inr ⟨?_, by rw [he, hs]⟩
          intro c' hc' v' hv'
          rcases List.mem_cons.mp hv' with hv' | hv'
          · simp only [Prod.mk.injEq] at hv'
            rw [hv'.1] at hc'
            exact hc hc'
          · exact hn c' hc' v' hv'

theorem nameIndex_inv {names : List String} {v : Str} {m : ℤ} (h : nameIndex names v = .ok m) :
    0 ≤ m ∧ (names[m.toNat]?).map (fun s => lowerS s.toList) = some (lowerS v) := by
  unfold nameIndex at h
  split at h
  · rename_i i hi
    injection h with h
    subst h
    refine ⟨by omega, ?_⟩
    obtain ⟨hlt, he, -⟩ := List.findIdx?_eq_some_iff_getElem.mp hi
    simp only [List.length_map] at hlt
    rw [Int.toNat_natCast, List.getElem?_eq_getElem hlt, Option.map_some]
    simp only [List.getElem_map, beq_iff_eq] at he
    rw [he]
  · cases h

theorem fold_ampm {gs : List (Char × Str)} {f f' : Found} (h : gs.foldlM setGroup f = .ok f') : f'.ampm = f.ampm := by
  induction gs generalizing f with
  | nil =>
    rw [List.foldlM_nil] at h
    injection h with h
    rw [h]
  | cons p gs ih =>
    rw [List.foldlM_cons] at h
    cases h1 : setGroup f p with
    | error e => rw [h1] at h; cases h
    | ok f1 =>
      rw [h1, pyOk_bind] at h
      rw [ih h]
      exact (setGroup_inv (c := p.1) (v := p.2) h1).2.2.2.2.2.2.2.2.2.2.2.2

/-- The hour of a successful parse. -/
theorem parse_hour {gs : List (Char × Str)} {f f' : Found} {am : Str} (h : gs.foldlM setGroup f = .ok f') (ha : f.ampm = am) :
    (∃ v, ('H', v) ∈ gs ∧ intOf v = .ok f'.hour) ∨ (∃ v h, ('I', v) ∈ gs ∧ intOf v = .ok h ∧ f'.hour = hourOf12 am h) ∨
      ((∀ c ∈ ['H', 'I'], ∀ v, (c, v) ∉ gs) ∧ f'.hour = f.hour) := by
  induction gs generalizing f with
  | nil =>
    rw [List.foldlM_nil] at h
    injection h with h
    subst h
    right; right; simp
  | cons p gs ih =>
    obtain ⟨c, v⟩ := p
    rw [List.foldlM_cons] at h
    cases h1 : setGroup f (c, v) with
    | error e => rw [h1] at h; cases h
    | ok f1 =>
      rw [h1, pyOk_bind] at h
      have hs := setGroup_inv h1
      have ha' : f1.ampm = am := by rw [hs.2.2.2.2.2.2.2.2.2.2.2.2, ha]
      rcases ih h ha' with ⟨v', hv', e⟩ | ⟨v', n, hv', e⟩ | ⟨hn, he⟩
      · exact Or.inl ⟨v', by simp [hv'], e⟩
      · exact Or.inr (Or.inl ⟨v', n, by simp [hv'], e⟩)
      · have h2 := hs.1
        split_ifs at h2 with c1 c2
        · subst c1
          exact Or.inl ⟨v, by simp, by rw [he]; exact h2⟩
        · subst c2
          obtain ⟨n, e1, e2⟩ := h2
          exact Or.inr (Or.inl ⟨v, n, by simp, e1, by rw [he, e2, ha]⟩)
        · refine Or.inr (Or.inr ⟨?_, by rw [he, h2]⟩)
          intro c' hc' v' hv'
          rcases List.mem_cons.mp hv' with hv' | hv'
          · simp only [Prod.mk.injEq] at hv'
            obtain ⟨rfl, -⟩ := hv'
            simp only [List.mem_cons, List.not_mem_nil, or_false] at hc'
            exact hc'.elim c1 c2
          · exact hn c' hc' v' hv'

theorem lookup_mem {gs : List (Char × Str)} {t : Str} (h : gs.lookup 'p' = some t) : ('p', t) ∈ gs := by
  induction gs with
  | nil => simp at h
  | cons p gs ih =>
    obtain ⟨c, v⟩ := p
    rw [List.lookup_cons] at h
    split at h
    · rename_i hc
      simp only [beq_iff_eq] at hc
      injection h with h
      rw [hc, h]
      exact List.mem_cons_self
    · exact List.mem_cons_of_mem _ (ih h)

/-- Which half of the day the text names. -/
theorem ampm_cases {gs : List (Char × Str)} (h : ∀ t, ('p', t) ∈ gs → NameText ["AM", "PM"] t) :
    ((ampmOf gs = [] ∨ ampmOf gs = "am".toList) ∧ ∀ t, ('p', t) ∈ gs → ∃ t', ('p', t') ∈ gs ∧ lowerS t' = "am".toList) ∨
      (ampmOf gs = "pm".toList ∧ ∃ t, ('p', t) ∈ gs ∧ lowerS t = "pm".toList) := by
  cases hl : gs.lookup 'p' with
  | none =>
    left
    refine ⟨Or.inl (by unfold ampmOf; rw [hl]; rfl), ?_⟩
    intro t ht
    rw [List.lookup_eq_none_iff] at hl
    exact absurd (hl _ ht) (by simp)
  | some t =>
    have hm := lookup_mem hl
    have e : ampmOf gs = lowerS t := by unfold ampmOf; rw [hl]; rfl
    obtain ⟨s, hs, hst⟩ := h t hm
    simp only [List.mem_cons, List.not_mem_nil, or_false] at hs
    rcases hs with rfl | rfl
    · left
      have hst : lowerS t = "am".toList := by rw [hst]; decide
      exact ⟨Or.inr (by rw [e, hst]), fun _ _ => ⟨t, hm, hst⟩⟩
    · right
      have hst : lowerS t = "pm".toList := by rw [hst]; decide
      exact ⟨by rw [e, hst], t, hm, hst⟩

theorem follows_dirs {fmt s : Str} {g : List (Char × Str)} (h : Follows fmt s g) : ∀ p ∈ g, DirText p.1 p.2 := by
  induction h with
  | nil => simp
  | percent _ ih => exact ih
  | dir hd _ ih =>
    intro p hp
    rcases List.mem_cons.mp hp with rfl | hp
    · exact hd
    · exact ih p hp
  | char _ _ _ _ ih => exact ih
  | spaces _ _ _ _ _ ih => exact ih

theorem hour_is {fmt s : Str} {g : List (Char × Str)} {f : Found} (hg : Follows fmt s g) (h : parseFound g = .ok f) :
    HourIs g f.hour := by
  unfold parseFound at h
  rcases parse_hour h rfl with ⟨v, hv, e⟩ | ⟨v, n, hv, e, e2⟩ | ⟨hn, e⟩
  · exact Or.inl ⟨v, hv, e⟩
  · refine Or.inr (Or.inl ⟨v, n, hv, e, ?_⟩)
    have ht : NumText 2 1 12 v := follows_dirs hg _ hv
    obtain ⟨-, -, -, n', e', l0, l1⟩ := ht
    rw [e] at e'
    injection e' with e'
    subst e'
    rw [e2]
    rcases ampm_cases (fun t ht => follows_dirs hg _ ht) with ⟨ha, hp⟩ | ⟨ha, hp⟩
    · refine Or.inl ⟨?_, hp⟩
      unfold hourOf12
      rw [if_pos ha]
      split_ifs <;> omega
    · refine Or.inr ⟨?_, hp⟩
      unfold hourOf12
      rw [if_neg (by rw [ha]; decide), if_pos ha]
      split_ifs <;> omega
  · exact Or.inr (Or.inr ⟨hn, e⟩)

theorem zone_is {fmt s : Str} {g : List (Char × Str)} {f : Found} {fresh : ℕ} {z : Option Tz} (hg : Follows fmt s g)
    (h : parseFound g = .ok f) (hz : f.zone fresh = .ok z) : ZoneIs g z := by
  unfold parseFound at h
  unfold Found.zone at hz
  rcases fold_field (proj := Found.gmtoff) (cs := ['z']) (R := fun _ v y => ∃ n, parseOffset v = .ok n ∧ y = some n)
    (fun f f' c v hs => by simpa using (setGroup_inv hs).2.2.2.2.2.2.2.2.2.2.2.1) h with ⟨c, hc, v, hv, n, hn, he⟩ | ⟨hn, he⟩
  · simp only [List.mem_cons, List.not_mem_nil, or_false] at hc
    subst hc
    rw [he] at hz
    simp only at hz
    obtain ⟨t, ht, rfl⟩ := map_ok_inv hz
    refine Or.inl ⟨v, t.tz, hv, rfl, ?_⟩
    have ho := parseOffset_inv (follows_dirs hg _ hv) hn
    have : t.tz.off = n := by
      unfold newZone at ht
      split_ifs at ht with h1 h2
      · injection ht with ht
        rw [← ht, h1.2]
        rfl
      · injection ht with ht
        rw [← ht]
        rfl
    rw [this]
    exact ho
  · rw [he] at hz
    simp only at hz
    injection hz with hz
    refine Or.inr ⟨fun v => hn 'z' (by simp) v, hz.symm⟩

/-- The values of a successful parse, from the texts of the directives. -/
theorem parse_fields {gs : List (Char × Str)} {f : Found} (h : parseFound gs = .ok f) :
    FieldIs gs ['M'] 0 f.minute ∧ FieldIs gs ['S'] 0 f.second ∧ FieldIs gs ['d'] 1 f.day ∧
    FractionIs gs f.fraction ∧ MonthIs gs f.month ∧
    ((∃ c ∈ ['Y', 'y'], ∃ v, (c, v) ∈ gs ∧ ∃ n, intOf v = .ok n ∧ f.year = some n) ∨
      ((∀ c ∈ ['Y', 'y'], ∀ v, (c, v) ∉ gs) ∧ f.year = none)) ∧
    ((∃ c ∈ ['j'], ∃ v, (c, v) ∈ gs ∧ ∃ n, intOf v = .ok n ∧ f.julian = some n) ∨
      ((∀ c ∈ ['j'], ∀ v, (c, v) ∉ gs) ∧ f.julian = none)) ∧
    ((∀ c ∈ ['U', 'W'], ∀ v, (c, v) ∉ gs) → f.weekOfYear = none) ∧ ((∀ v, ('G', v) ∉ gs) → f.isoYear = none) := by
  unfold parseFound at h
  refine ⟨?_, ?_, ?_, ?_, ?_, ?_, ?_, ?_, ?_⟩
  · exact fold_field (proj := Found.minute) (R := fun _ v n => intOf v = .ok n) (fun f f' c v hs => by
      simpa using (setGroup_inv hs).2.1) h
  · exact fold_field (proj := Found.second) (R := fun _ v n => intOf v = .ok n) (fun f f' c v hs => by
      simpa using (setGroup_inv hs).2.2.1) h
  · exact fold_field (proj := Found.day) (R := fun _ v n => intOf v = .ok n) (fun f f' c v hs => by
      simpa using (setGroup_inv hs).2.2.2.1) h
  · have := fold_field (proj := Found.fraction) (cs := ['f'])
      (R := fun _ v n => intOf (v ++ List.replicate (6 - v.length) '0') = .ok n) (fun f f' c v hs => by
      simpa using (setGroup_inv hs).2.2.2.2.2.2.1) h
    unfold FractionIs
    simpa using this
  · have := fold_field (proj := Found.month) (cs := ['m', 'B', 'b'])
      (R := fun c v n => if c = 'm' then intOf v = .ok n else if c = 'B' then nameIndex monthNames v = .ok n else
        nameIndex monthAbbrs v = .ok n) (fun f f' c v hs => by
      have := (setGroup_inv hs).2.2.2.2.2.2.2.1
      by_cases h1 : c = 'm'
      · subst h1; simpa using this
      · by_cases h2 : c = 'B'
        · subst h2; simpa using this
        · by_cases h3 : c = 'b'
          · subst h3; simpa using this
          · simpa [h1, h2, h3] using this) h
    rcases this with ⟨c, hc, v, hv, hr⟩ | ⟨hn, he⟩
    · simp only [List.mem_cons, List.not_mem_nil, or_false] at hc
      rcases hc with rfl | rfl | rfl
      · exact Or.inl ⟨v, hv, by simpa using hr⟩
      · exact Or.inr (Or.inl ⟨v, hv, nameIndex_inv (by simpa using hr)⟩)
      · exact Or.inr (Or.inr (Or.inl ⟨v, hv, nameIndex_inv (by simpa using hr)⟩))
    · exact Or.inr (Or.inr (Or.inr ⟨hn, he⟩))
  · exact fold_field (proj := Found.year) (R := fun _ v y => ∃ n, intOf v = .ok n ∧ y = some n) (fun f f' c v hs => by
      simpa using (setGroup_inv hs).2.2.2.2.1) h
  · exact fold_field (proj := Found.julian) (R := fun _ v y => ∃ n, intOf v = .ok n ∧ y = some n) (fun f f' c v hs => by
      simpa using (setGroup_inv hs).2.2.2.2.2.1) h
  · intro hn
    rcases fold_field (proj := Found.weekOfYear) (cs := ['U', 'W']) (R := fun _ _ _ => True) (fun f f' c v hs => by
      simpa using (setGroup_inv hs).2.2.2.2.2.2.2.2.1) h with ⟨c, hc, v, hv, -⟩ | ⟨-, he⟩
    · exact absurd hv (hn c hc v)
    · exact he
  · intro hn
    rcases fold_field (proj := Found.isoYear) (cs := ['G']) (R := fun _ _ _ => True) (fun f f' c v hs => by
      simpa using (setGroup_inv hs).2.2.2.2.2.2.2.2.2.1) h with ⟨c, hc, v, hv, -⟩ | ⟨-, he⟩
    · simp only [List.mem_cons, List.not_mem_nil, or_false] at hc
      subst hc
      exact absurd hv (hn v)
    · exact he

theorem option_err_inv {e : PyErr} {p : Piece} {o : Option (Py (List Piece))}
    (h : o.map (·.map (p :: ·)) = some (.error e)) : o = some (.error e) := by
  cases o with
  | none => simp at h
  | some r =>
    cases r with
    | error e => simp [Except.map] at h; rw [h]
    | ok qs => simp [Except.map] at h

theorem compile_error {b : Bool} {f : Str} {e : PyErr} (h : compileFmt b f = some (.error e)) : e = .value := by
  induction b, f using compileFmt.induct with
  | case1 b => simp [compileFmt] at h
  | case2 b => simp [compileFmt] at h; exact h.symm
  | case3 b r ih =>
    simp only [compileFmt, if_true] at h
    exact ih (option_err_inv h)
  | case4 b c r h1 h2 => simp [compileFmt, h1, h2] at h
  | case5 b c r h1 h2 h3 => simp [compileFmt, h1, h2, h3] at h; exact h.symm
  | case6 b c r h1 h2 h3 ih =>
    simp only [compileFmt, h1, h2, h3, if_false] at h
    exact ih (option_err_inv h)
  | case7 c r hp1 hp2 hc ih =>
    rw [compileFmt] at h
    · simp [hc] at h; exact ih h
    · exact hp1
    · exact hp2
  | case8 b c r hp1 hp2 hc hb ih =>
    rw [compileFmt] at h
    · simp only [hc, hb, if_true] at h; exact ih (option_err_inv h)
    · exact hp1
    · exact hp2
  | case9 b c r hp1 hp2 hc ih =>
    rw [compileFmt] at h
    · simp only [hc] at h; exact ih (option_err_inv h)
    · exact hp1
    · exact hp2

theorem findRegex_follows {s fmt : Str} {ps : List Piece} {g : List (Char × Str)} (hc : compileFmt false fmt = some (.ok ps))
    (h : findRegex s ps = .ok g) : Follows fmt s g := by
  unfold findRegex at h
  split at h
  · cases h
  · rename_i g' r hh
    split_ifs at h with hr
    injection h with h
    subst h hr
    have hm := List.mem_of_mem_head? hh
    obtain ⟨a, f', rfl, -, ha, hf⟩ := compile_follows false fmt ps s g' hc (matchAll_sound hm)
    rw [ha rfl, List.nil_append]
    exact hf

/-- What a successful call has done. -/
theorem strptime_inv {C : Cal} {s fmt : Str} {x : DT} {fresh : ℕ} (h : C.strptime s fmt fresh = some (.ok x)) :
    ∃ g f r q z, Follows fmt s g ∧ parseFound g = .ok f ∧ checkIsoWeek f = .ok () ∧ C.fromWeeks f = .ok r ∧
      C.fromJulian r.1 r.2.1 r.2.2.1 r.2.2.2 = .ok q ∧ C.missingWeekday f q.1 q.2.1 q.2.2 = .ok () ∧
      f.zone fresh = .ok z ∧ C.newDT ⟨.short q.1 q.2.1 q.2.2, f.hour, f.minute, f.second, f.fraction, z, 0⟩ = .ok x := by
  unfold Cal.strptime at h
  cases hc : compileFmt false fmt with
  | none => rw [hc] at h; simp at h
  | some o =>
    cases o with
    | error e => rw [hc] at h; simp at h
    | ok ps =>
      rw [hc] at h
      simp only [Option.some.injEq] at h
      cases hg : findRegex s ps with
      | error e => rw [hg] at h; cases h
      | ok g =>
        rw [hg, pyOk_bind] at h
        unfold Cal.strptimeFound at h
        cases hf : parseFound g with
        | error e => rw [hf] at h; cases h
        | ok f =>
          rw [hf, pyOk_bind] at h
          cases hk : checkIsoWeek f with
          | error e => rw [hk] at h; cases h
          | ok u =>
            rw [hk, pyOk_bind] at h
            cases hr : C.fromWeeks f with
            | error e => rw [hr] at h; cases h
            | ok r =>
              rw [hr, pyOk_bind] at h
              cases hq : C.fromJulian r.1 r.2.1 r.2.2.1 r.2.2.2 with
              | error e => rw [hq] at h; cases h
              | ok q =>
                rw [hq, pyOk_bind] at h
                cases hw : C.missingWeekday f q.1 q.2.1 q.2.2 with
                | error e => rw [hw] at h; cases h
                | ok u' =>
                  rw [hw, pyOk_bind] at h
                  cases hz : f.zone fresh with
                  | error e => rw [hz] at h; cases h
                  | ok z =>
                    rw [hz, pyOk_bind] at h
                    exact ⟨g, f, r, q, z, findRegex_follows hc hg, hf, hk, hr, hq, hw, hz, h⟩

theorem guessYear_is {g : List (Char × Str)} {f : Found} (h : (∃ c ∈ ['Y', 'y'], ∃ v, (c, v) ∈ g ∧ ∃ n, intOf v = .ok n ∧ f.year = some n) ∨
      ((∀ c ∈ ['Y', 'y'], ∀ v, (c, v) ∉ g) ∧ f.year = none)) :
    FieldIs g ['Y', 'y'] (if f.month = 0 ∧ f.day = 5 then 1 else 2) f.guessYear := by
  rcases h with ⟨c, hc, v, hv, n, hn, he⟩ | ⟨hn, he⟩
  · exact Or.inl ⟨c, hc, v, hv, by rw [hn]; unfold Found.guessYear; rw [he]⟩
  · exact Or.inr ⟨hn, by unfold Found.guessYear; rw [he]⟩

/-- C73: when `strptime` accepts a text, the whole text follows the format, and the clock of the result has the numbers that
stand in the text at `%H` or at `%I` and `%p`, at `%M`, `%S` and `%f`, or zero, and the offset at `%z`, or no zone; without a directive for the day of the year, the week of the year or
the ISO year, the date has the numbers at `%Y` or `%y`, at `%m`, `%B` or `%b` and at `%d`, or the default. -/
theorem C73_accepts (A : Astro) (s fmt : Str) (x : DT) (fresh : ℕ) (h : (Cal.init A).strptime s fmt fresh = some (.ok x)) :
    ∃ g, Follows fmt s g ∧ HourIs g x.h ∧ FieldIs g ['M'] 0 x.mi ∧ FieldIs g ['S'] 0 x.s ∧ FractionIs g x.us ∧
      ValidTime x.timetz ∧ ZoneIs g x.tz ∧ x.fold = 0 ∧ x.d.isShort = true ∧
      ((∀ c ∈ ['j', 'U', 'W', 'G'], ∀ v, (c, v) ∉ g) → ∃ y m d, x.d = .short y m d ∧ MonthIs g m ∧ FieldIs g ['d'] 1 d ∧
        FieldIs g ['Y', 'y'] (if m = 0 ∧ d = 5 then 1 else 2) y) := by
  obtain ⟨g, f, r, q, z, hg, hf, hk, hr, hq, hw, hz, hx⟩ := strptime_inv h
  obtain ⟨p2, p3, p4, p5, p6, p7, p8, p9, p10⟩ := parse_fields hf
  obtain ⟨rfl, hv⟩ := newDT_inv hx
  refine ⟨g, hg, hour_is hg hf, p2, p3, p5, hv, zone_is hg hf hz, rfl, rfl, ?_⟩
  intro hn
  have hj : f.julian = none := by
    rcases p8 with ⟨c, hc, v, hv, -⟩ | ⟨-, he⟩
    · simp only [List.mem_cons, List.not_mem_nil, or_false] at hc
      subst hc
      exact absurd hv (hn 'j' (by simp) v)
    · exact he
  have hwk : f.weekOfYear = none := p9 (fun c hc v => hn c (by
    simp only [List.mem_cons, List.not_mem_nil, or_false] at hc ⊢; tauto) v)
  have hiy : f.isoYear = none := p10 (fun v => hn 'G' (by simp) v)
  have hr' : r = (f.guessYear, f.month, f.day, none) := by
    unfold Cal.fromWeeks at hr
    rw [hj, hwk, hiy] at hr
    generalize f.weekday = a at hr
    generalize f.isoWeek = b at hr
    cases a <;> cases b <;> (injection hr with hr; exact hr.symm)
  subst hr'
  have hq' : q = (f.guessYear, f.month, f.day) := by
    unfold Cal.fromJulian at hq
    simp only at hq
    cases h1 : (Cal.init A).newDate (.short f.guessYear f.month f.day) with
    | error e => rw [h1] at hq; cases hq
    | ok o =>
      rw [h1, pyOk_bind] at hq
      cases h2 : (Cal.init A).toOrdinal o with
      | error e => rw [h2] at hq; cases hq
      | ok n =>
        rw [h2, pyOk_bind] at hq
        cases h3 : (Cal.init A).newDate (.short f.guessYear 1 1) with
        | error e => rw [h3] at hq; cases hq
        | ok o' =>
          rw [h3, pyOk_bind] at hq
          cases h4 : (Cal.init A).toOrdinal o' with
          | error e => rw [h4] at hq; cases hq
          | ok n' =>
            rw [h4, pyOk_bind] at hq
            injection hq with hq
            exact hq.symm
  subst hq'
  exact ⟨f.guessYear, f.month, f.day, rfl, p6, p4, guessYear_is p7⟩

theorem accepted : ∃ text x, (Cal.init newYearSun).strptime text (tokText isoLike) = some (.ok x) := by
  obtain ⟨text, -, h⟩ := C39_round_trip_partial newYearSun newYearSun_tehran newYearSun_order (fun _ _ => .error .key)
    182 0 5 23 30 0 250000 739675 ⟨witness_days.1, by constructor <;> decide⟩ (by omega) (by omega) isoLike
    ⟨by
      intro t ht
      simp only [isoLike, List.mem_cons, List.not_mem_nil, or_false] at ht
      rcases ht with rfl | rfl | rfl | rfl | rfl | rfl | rfl | rfl | rfl | rfl | rfl | rfl | rfl <;> simp [Tok.Readable],
      by decide, by decide, by decide, by decide, by
      intro a b ha hb h
      simp [isoLike] at hb
      subst hb
      exact absurd h.2 (by decide)⟩ (by decide) (fun h => absurd h (by decide))
  exact ⟨text, _, h⟩

example : ∃ text x, (Cal.init newYearSun).strptime text "%Y-%m-%d %H:%M:%S.%f".toList = some (.ok x) := by
  have := accepted
  rwa [show tokText isoLike = "%Y-%m-%d %H:%M:%S.%f".toList by decide] at this

/-- C73: with a directive for the day of the year, the date is that day, counted from the first day of the year. -/
theorem C73_day_of_year (A : Astro) (hE : TehranEvening A) (hO : NewYearOrder (Cal.init A)) (s fmt : Str) (x : DT)
    (fresh : ℕ) (h : (Cal.init A).strptime s fmt fresh = some (.ok x)) :
    ∃ g, Follows fmt s g ∧ ((∃ v, ('j', v) ∈ g) → ∃ y m d j, FieldIs g ['j'] 0 j ∧ MonthIs g m ∧ FieldIs g ['d'] 1 d ∧
      FieldIs g ['Y', 'y'] (if m = 0 ∧ d = 5 then 1 else 2) y ∧
      (y ≤ 1161 → 1 ≤ j → j ≤ 366 → ∃ a, (Cal.init A).yearStart y = some a ∧ IsDay (Cal.init A) x.d (a + (j - 1)))) := by
  obtain ⟨g, f, r, q, z, hg, hf, hk, hr, hq, hw, hz, hx⟩ := strptime_inv h
  obtain ⟨p2, p3, p4, p5, p6, p7, p8, p9, p10⟩ := parse_fields hf
  obtain ⟨rfl, hv⟩ := newDT_inv hx
  refine ⟨g, hg, ?_⟩
  rintro ⟨v, hj⟩
  rcases p8 with ⟨c, hc, v', hv', j, hj1, hj2⟩ | ⟨hn, -⟩
  · simp only [List.mem_cons, List.not_mem_nil, or_false] at hc
    subst hc
    refine ⟨f.guessYear, f.month, f.day, j, Or.inl ⟨'j', by simp, v', hv', hj1⟩, p6, p4, guessYear_is p7, ?_⟩
    intro y1 j0 j1
    have hr' : r = (f.guessYear, f.month, f.day, some j) := by
      unfold Cal.fromWeeks at hr
      rw [hj2] at hr
      generalize f.weekday = a at hr
      generalize f.isoWeek = b at hr
      generalize f.weekOfYear = a' at hr
      generalize f.isoYear = b' at hr
      cases a <;> cases b <;> cases a' <;> cases b' <;> (injection hr with hr; exact hr.symm)
    subst hr'
    generalize f.guessYear = y at *
    unfold Cal.fromJulian at hq
    simp only at hq
    by_cases y0 : -1843 ≤ y
    · have hfirst : IsDay (Cal.init A) (.short y 1 1) (ysInt y) :=
        (dayNumber_iff hE).mpr ⟨y0, y1, Or.inl ⟨by omega, by omega, by omega, by omega⟩, by simp [dBefore]⟩
      rw [newDate_ok hE hfirst, pyOk_bind, toOrdinal_ok hE hO hfirst, pyOk_bind] at hq
      cases ho : (Cal.init A).fromOrdinal (j - 1 + ysInt y) true with
      | error e => rw [ho] at hq; cases hq
      | ok o =>
        rw [ho, pyOk_bind] at hq
        injection hq with hq
        have b0 : -287 ≤ ysInt y := by
          have := ysInt_mono (a := -1843) (b := y) (by omega) (by omega) (by omega)
          rw [ysInt_m1843] at this; omega
        have b1 : ysInt y ≤ 1096902 := by
          have := ysInt_mono (a := y) (b := 1161) (by omega) (by omega) (by omega)
          rw [ysInt_1161] at this; omega
        obtain ⟨i1, i2, -⟩ := fromOrdinal_inv hE (by omega) (by omega) ho
        refine ⟨ysInt y, by rw [init_yearStart hE, if_pos (by omega)], ?_⟩
        cases o with
        | long => cases i2
        | short a b c =>
          subst hq
          rw [show ysInt y + (j - 1) = j - 1 + ysInt y by ring]
          exact i1
    · rw [newDate_short_out (by omega)] at hq
      cases hq
  · exact absurd hj (hn 'j' (by simp) v)

/-- Day 347 of year 182. -/
example : ∃ text x, (Cal.init newYearSun).strptime text (tokText [.dir 'Y' none, .lit '-', .dir 'j' none]) = some (.ok x) := by
  obtain ⟨text, -, h⟩ := C39_round_trip_partial newYearSun newYearSun_tehran newYearSun_order (fun _ _ => .error .key)
    182 0 5 23 30 0 250000 739675 ⟨witness_days.1, by constructor <;> decide⟩ (by omega) (by omega)
    [.dir 'Y' none, .lit '-', .dir 'j' none]
    ⟨by
      intro t ht
      simp only [List.mem_cons, List.not_mem_nil, or_false] at ht
      rcases ht with rfl | rfl | rfl <;> simp [Tok.Readable],
      by decide, by decide, by decide, by decide, by
      intro a b ha hb h
      simp at hb
      subst hb
      exact absurd h.2 (by decide)⟩ (by decide) (fun _ => convertible_modern newYearSun_tehran (by omega) (by omega))
  exact ⟨text, _, h⟩

/-- C73: a text that does not follow the format is refused with ValueError. -/
theorem C73_refuses (C : Cal) (s fmt : Str) (fresh : ℕ) (r : Py DT) (h : ∀ g, ¬ Follows fmt s g)
    (hr : C.strptime s fmt fresh = some r) :
    r = .error .value := by
  unfold Cal.strptime at hr
  cases hc : compileFmt false fmt with
  | none => rw [hc] at hr; simp at hr
  | some o =>
    cases o with
    | error e =>
      rw [hc] at hr
      simp only [Option.some.injEq] at hr
      subst hr
      rw [compile_error hc]
    | ok ps =>
      rw [hc] at hr
      simp only [Option.some.injEq] at hr
      subst hr
      cases hg : findRegex s ps with
      | error e =>
        rw [pyErr_bind]
        unfold findRegex at hg
        split at hg
        · injection hg with hg; rw [hg]
        · split_ifs at hg
          injection hg with hg; rw [hg]
      | ok g => exact absurd (findRegex_follows hc hg) (h g)

theorem follows_nil {s : Str} {g : List (Char × Str)} (h : Follows [] s g) : s = [] := by
  generalize hf : ([] : Str) = f at h
  cases h with
  | nil => rfl
  | percent => simp at hf
  | dir => simp at hf
  | char => simp at hf
  | spaces ha =>
    have := List.append_eq_nil_iff.mp hf.symm
    exact absurd this.1 ha

/-- Three digits do not follow the format of a month. -/
example : ∀ g, ¬ Follows "%m".toList "182".toList g := by
  intro g h
  generalize hf : "%m".toList = f at h
  generalize hs : "182".toList = s at h
  cases h with
  | nil => simp at hf
  | percent => simp at hf
  | dir hd hr =>
    simp at hf
    obtain ⟨rfl, rfl⟩ := hf
    rw [follows_nil hr, List.append_nil] at hs
    subst hs
    have := hd.2.1
    revert this
    decide
  | char hc => simp at hf; exact hc hf.1.symm
  | @spaces a b f' s' g' ha hb h1 h2 h3 =>
    cases a with
    | nil => exact ha rfl
    | cons c a =>
      simp at hf
      have := h1 c (by simp)
      rw [← hf.1] at this
      revert this
      decide

end Verif
