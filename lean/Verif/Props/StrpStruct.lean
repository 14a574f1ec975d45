import Verif.Model.StrpStruct
import Verif.Props.StrpSound
import Verif.Props.StructTime

/-!
# Property C110: `_strptime_time`
-/

namespace Verif

theorem strptimeTime_inv {C : Cal} {s fmt : Str} {t : Struct} (h : C.strptimeTime s fmt = some (.ok t)) :
    ∃ ps g f r q, compileFmt false fmt = some (.ok ps) ∧ findRegex s ps = .ok g ∧ Follows fmt s g ∧ parseFound g = .ok f ∧
      checkIsoWeek f = .ok () ∧ C.fromWeeks f = .ok r ∧
      C.fromJulian r.1 r.2.1 r.2.2.1 r.2.2.2 = .ok q ∧ C.missingWeekday f q.1 q.2.1 q.2.2 = .ok () ∧
      C.buildStructTime (.short q.1 q.2.1 q.2.2) f.hour f.minute f.second 0 none = .ok t := by
  unfold Cal.strptimeTime at h
  cases hc : compileFmt false fmt with
  | none => rw [hc] at h; simp at h
  | some o =>
    cases o with
    | error e => rw [hc] at h; simp at h
    | ok ps =>
      rw [hc] at h
      simp only [Option.some.injEq] at h
      cases hg : findRegex s ps with
      | error e => rw [hg] at h; cases h
      | ok g =>
        rw [hg, pyOk_bind] at h
        unfold Cal.strptimeTimeFound at h
        cases hf : parseFound g with
        | error e => rw [hf] at h; cases h
        | ok f =>
          rw [hf, pyOk_bind] at h
          cases hk : checkIsoWeek f with
          | error e => rw [hk] at h; cases h
          | ok u =>
            rw [hk, pyOk_bind] at h
            cases hr : C.fromWeeks f with
            | error e => rw [hr] at h; cases h
            | ok r =>
              rw [hr, pyOk_bind] at h
              cases hq : C.fromJulian r.1 r.2.1 r.2.2.1 r.2.2.2 with
              | error e => rw [hq] at h; cases h
              | ok q =>
                rw [hq, pyOk_bind] at h
                cases hw : C.missingWeekday f q.1 q.2.1 q.2.2 with
                | error e => rw [hw] at h; cases h
                | ok u' =>
                  rw [hw, pyOk_bind] at h
                  exact ⟨ps, g, f, r, q, rfl, hg, findRegex_follows hc hg, hf, hk, hr, hq, hw, h⟩

/-- The struct of a text that `strptime` reads. -/
theorem strptimeTime_of_ok {A : Astro} {s fmt : Str} {x : DT} {fresh : ℕ}
    (h : (Cal.init A).strptime s fmt fresh = some (.ok x)) :
    x.d.isShort = true ∧
    (Cal.init A).strptimeTime s fmt = some ((Cal.init A).buildStructTime x.d x.h x.mi x.s 0 none) := by
  unfold Cal.strptime at h
  unfold Cal.strptimeTime
  cases hc : compileFmt false fmt with
  | none => rw [hc] at h; simp at h
  | some o =>
    cases o with
    | error e => rw [hc] at h; simp at h
    | ok ps =>
      rw [hc] at h
      simp only [Option.some.injEq] at h ⊢
      cases hg : findRegex s ps with
      | error e => rw [hg] at h; cases h
      | ok g =>
        rw [hg, pyOk_bind] at h
        rw [pyOk_bind]
        unfold Cal.strptimeFound at h
        unfold Cal.strptimeTimeFound
        cases hf : parseFound g with
        | error e => rw [hf] at h; cases h
        | ok f =>
          rw [hf, pyOk_bind] at h
          rw [pyOk_bind]
          cases hk : checkIsoWeek f with
          | error e => rw [hk] at h; cases h
          | ok u =>
            rw [hk, pyOk_bind] at h
            rw [pyOk_bind]
            cases hr : (Cal.init A).fromWeeks f with
            | error e => rw [hr] at h; cases h
            | ok r =>
              rw [hr, pyOk_bind] at h
              rw [pyOk_bind]
              cases hq : (Cal.init A).fromJulian r.1 r.2.1 r.2.2.1 r.2.2.2 with
              | error e => rw [hq] at h; cases h
              | ok q =>
                rw [hq, pyOk_bind] at h
                rw [pyOk_bind]
                cases hw : (Cal.init A).missingWeekday f q.1 q.2.1 q.2.2 with
                | error e => rw [hw] at h; cases h
                | ok u' =>
                  rw [hw, pyOk_bind] at h
                  rw [pyOk_bind]
                  cases hz : f.zone fresh with
                  | error e => rw [hz] at h; cases h
                  | ok z =>
                    rw [hz, pyOk_bind] at h
                    obtain ⟨rfl, -⟩ := newDT_inv h
                    exact ⟨rfl, rfl⟩

/-- C110, the moment: for a text that `datetime.strptime` reads, `_strptime_time` gives the tuple of the same date and clock,
with the weekday and the day of the year of the date, whatever weekday the text names. The flag is 0, and zone and offset
are missing. -/
theorem C110_same (A : Astro) (hE : TehranEvening A) (hO : NewYearOrder (Cal.init A)) (s fmt : Str) (x : DT) (fresh : ℕ) (n : ℤ)
    (h : (Cal.init A).strptime s fmt fresh = some (.ok x)) (hn : IsDay (Cal.init A) x.d n) :
    ∃ t, (Cal.init A).strptimeTime s fmt = some (.ok t) ∧ Shows (Cal.init A) t.tup x.d n x.h x.mi x.s ∧ t.isdst = 0 ∧
      t.zone = none ∧ t.gmtoff = none := by
  obtain ⟨hs, e⟩ := strptimeTime_of_ok h
  obtain ⟨_, _, _, _, _, -, -, -, -, -, -, -, hx⟩ := strptime_inv h
  obtain ⟨he, hv⟩ := newDT_inv hx
  rw [← he] at hv
  obtain ⟨t, ht, hsh⟩ := buildStructTime_ok hE hO (x := x) ⟨hn, hv⟩ (Or.inl hs) (flag := 0) (Or.inr (Or.inl rfl)) none
  exact ⟨_, by rw [e, ht], hsh, rfl, rfl, rfl⟩

theorem structTime_inv {C : Cal} {d : DateObj} {h mi s w yd flag : ℤ} {z : Option TzInfo} {t : Struct}
    (hs : C.structTime d h mi s w yd flag z = .ok t) :
    C.newDate d ≠ .error .value ∧ (∃ o, C.newDate d = .ok o) ∧ checkTimeFields h mi s 0 0 = .ok () := by
  unfold Cal.structTime at hs
  split_ifs at hs
  unfold Cal.newDT at hs
  simp only [] at hs
  cases hd : C.newDate d with
  | error e => rw [hd, pyErr_bind, pyErr_bind] at hs; cases hs
  | ok o =>
    rw [hd, pyOk_bind] at hs
    cases hc : checkTimeFields h mi s 0 0 with
    | error e => rw [hc, pyErr_bind, pyErr_bind] at hs; cases hs
    | ok u => exact ⟨by simp, ⟨o, rfl⟩, rfl⟩

theorem buildStructTime_inv {C : Cal} {y m dd h mi s flag : ℤ} {t : Struct}
    (hs : C.buildStructTime (.short y m dd) h mi s flag none = .ok t) :
    (∃ o, C.newDate (.short y m dd) = .ok o) ∧ checkTimeFields h mi s 0 0 = .ok () ∧ t.tup.sec = s := by
  unfold Cal.buildStructTime Cal.structYmd at hs
  simp only [] at hs
  rw [pyOk_bind] at hs
  simp only [] at hs
  cases hw : C.dayOfWeek y m dd with
  | error e => rw [hw, pyErr_bind] at hs; cases hs
  | ok w =>
    rw [hw, pyOk_bind] at hs
    cases hb : C.daysBeforeMonth y m with
    | error e => rw [hb, pyErr_bind] at hs; cases hs
    | ok b =>
      rw [hb, pyOk_bind] at hs
      obtain ⟨-, h1, h2⟩ := structTime_inv hs
      refine ⟨h1, h2, ?_⟩
      obtain ⟨o, ho⟩ := h1
      unfold Cal.structTime Cal.newDT at hs
      split_ifs at hs
      simp only [] at hs
      rw [ho, pyOk_bind, h2, pyOk_bind, pyOk_bind] at hs
      injection hs with hs
      rw [← hs]
      rfl

theorem fraction_range {fmt s : Str} {g : List (Char × Str)} {f : Found} (hg : Follows fmt s g) (h : parseFound g = .ok f) :
    0 ≤ f.fraction ∧ f.fraction < 1000000 := by
  obtain ⟨-, -, -, p, -⟩ := parse_fields h
  rcases p with ⟨v, hv, e⟩ | ⟨-, e⟩
  · obtain ⟨l0, l1, hd, -⟩ := follows_dirs hg _ hv
    obtain ⟨n, -, e', hn⟩ := intOf_digitText (v := v ++ List.replicate (6 - v.length) '0')
      (by intro h0; rw [List.append_eq_nil_iff] at h0; rw [h0.1] at l0; simp at l0)
      (by
        intro c hc
        rw [List.mem_append] at hc
        rcases hc with hc | hc
        · exact hd c hc
        · rw [(List.mem_replicate.mp hc).2]; decide)
    rw [e] at e'
    injection e' with e'
    simp only [] at l0 l1
    rw [List.length_append, List.length_replicate, show v.length + (6 - v.length) = 6 by omega] at hn
    omega
  · omega

/-- The hypotheses of `C110_same`: a text with a weekday that is not the one of the date. -/
example : ∃ x n, (Cal.init newYearSun).strptime "Jalál 0182-00-05 23:59:60".toList "%A %Y-%m-%d %H:%M:%S".toList = some (.ok x) ∧
    IsDay (Cal.init newYearSun) x.d n := by
  refine ⟨⟨.short 182 0 5, 23, 59, 60, 0, none, 0⟩, 739675, by decide +kernel, ?_⟩
  exact witness_days.1

/-- C110, the acceptance: a text that `_strptime_time` reads is read by `datetime.strptime`, or it has an offset of 24 hours
or more, which `datetime.strptime` refuses with `ValueError`. -/
theorem C110_accepts (A : Astro) (s fmt : Str) (t : Struct) (fresh : ℕ)
    (h : (Cal.init A).strptimeTime s fmt = some (.ok t)) :
    (∃ x, (Cal.init A).strptime s fmt fresh = some (.ok x)) ∨
    ((Cal.init A).strptime s fmt fresh = some (.error .value) ∧
      ∃ g v off, Follows fmt s g ∧ ('z', v) ∈ g ∧ OffsetText v off ∧ ¬ ValidOff off) := by
  obtain ⟨ps, g, f, r, q, hc, hg, hfo, hf, hk, hr, hq, hw, hb⟩ := strptimeTime_inv h
  have hst : (Cal.init A).strptime s fmt fresh = some (do
      let z ← f.zone fresh
      (Cal.init A).newDT ⟨.short q.1 q.2.1 q.2.2, f.hour, f.minute, f.second, f.fraction, z, 0⟩) := by
    unfold Cal.strptime
    rw [hc]
    simp only [Option.some.injEq]
    rw [hg, pyOk_bind]
    unfold Cal.strptimeFound
    rw [hf, pyOk_bind, hk, pyOk_bind, hr, pyOk_bind, hq, pyOk_bind, hw, pyOk_bind]
  rw [hst]
  cases hz : f.zone fresh with
  | ok z =>
    left
    rw [pyOk_bind]
    obtain ⟨⟨o, ho⟩, hct, -⟩ := buildStructTime_inv hb
    obtain ⟨c1, c2, c3, -, -⟩ := checkTimeFields_inv hct
    refine ⟨⟨.short q.1 q.2.1 q.2.2, f.hour, f.minute, f.second, f.fraction, z, 0⟩, congrArg some ?_⟩
    unfold Cal.newDT
    simp only []
    rw [ho, pyOk_bind, checkTimeFields_ok c1 c2 c3 (fraction_range hfo hf) (Or.inl rfl), pyOk_bind]
  | error e =>
    right
    unfold Found.zone at hz
    cases ho : f.gmtoff with
    | none => rw [ho] at hz; cases hz
    | some off =>
      rw [ho] at hz
      simp only [] at hz
      have hv : e = .value ∧ ¬ ValidOff off := by
        unfold newZone at hz
        split_ifs at hz with a b
        · cases hz
        · cases hz
        · refine ⟨?_, fun hvo => b ?_⟩
          · injection hz with hz
            exact hz.symm
          · unfold ValidOff at hvo
            omega
      refine ⟨by rw [pyErr_bind, hv.1], ?_⟩
      unfold parseFound at hf
      rcases fold_field (proj := Found.gmtoff) (cs := ['z']) (R := fun _ v y => ∃ n, parseOffset v = .ok n ∧ y = some n)
        (fun f f' c v hs => by simpa using (setGroup_inv hs).2.2.2.2.2.2.2.2.2.2.2.1) hf with ⟨c, hc', v, hv', n, hn, he⟩ | ⟨hn, he⟩
      · simp only [List.mem_cons, List.not_mem_nil, or_false] at hc'
        subst hc'
        rw [ho] at he
        injection he with he
        subst he
        exact ⟨g, v, off, hfo, hv', parseOffset_inv (follows_dirs hfo _ hv') hn, hv.2⟩
      · rw [ho] at he
        cases he

/-- Such a text, for each of the two cases: an offset of one hour, and one of 24 hours. -/
example : ((Cal.init sixPm).strptimeTime "+0100".toList "%z".toList).map (·.isOk) = some true ∧
    ((Cal.init sixPm).strptimeTime "+2400".toList "%z".toList).map (·.isOk) = some true := by
  decide +kernel

theorem buildStructTime_tup {C : Cal} {d : DateObj} {h mi s f f' : ℤ} {z z' : Option TzInfo} {t u : Struct}
    (ht : C.buildStructTime d h mi s f z = .ok t) (hu : C.buildStructTime d h mi s f' z' = .ok u) : t.tup = u.tup := by
  unfold Cal.buildStructTime at ht hu
  cases hy : C.structYmd d h mi s with
  | error e => rw [hy, pyErr_bind] at ht; cases ht
  | ok r =>
    rw [hy, pyOk_bind] at ht hu
    simp only [] at ht hu
    cases hw : C.dayOfWeek r.1 r.2.1 r.2.2 with
    | error e => rw [hw, pyErr_bind] at ht; cases ht
    | ok w =>
      rw [hw, pyOk_bind] at ht hu
      cases hb : C.daysBeforeMonth r.1 r.2.1 with
      | error e => rw [hb, pyErr_bind] at ht; cases ht
      | ok b =>
        rw [hb, pyOk_bind] at ht hu
        have key : ∀ {f : ℤ} {z : Option TzInfo} {t : Struct}, C.structTime d h mi s w (b + r.2.2) f z = .ok t →
            t.tup = tupOf d h mi s w (b + r.2.2) := by
          intro f z t ht
          obtain ⟨-, ⟨o, ho⟩, hc⟩ := structTime_inv ht
          unfold Cal.structTime Cal.newDT at ht
          split_ifs at ht
          simp only [] at ht
          rw [ho, pyOk_bind, hc, pyOk_bind, pyOk_bind] at ht
          injection ht with ht
          rw [← ht]
        rw [key ht, key hu]

/-- C110 is false for the offset: the tuple of a text with an offset other than zero differs from the `timetuple()` of its
datetime in `tm_gmtoff` and `tm_zone`, which are missing. -/
theorem C110_offset_negation (A : Astro) (hE : TehranEvening A) (hO : NewYearOrder (Cal.init A)) (s fmt : Str) (x : DT)
    (fresh : ℕ) (n : ℤ) (h : (Cal.init A).strptime s fmt fresh = some (.ok x)) (hn : IsDay (Cal.init A) x.d n)
    (i : TzInfo) (hi : x.tz = some i.zone.tz) (h0 : i.zone.off ≠ 0) :
    ∃ t u, (Cal.init A).strptimeTime s fmt = some (.ok t) ∧ (Cal.init A).dtTimetuple x (some i) = .ok u ∧
      t.tup = u.tup ∧ t.gmtoff = none ∧ t.zone = none ∧ u.gmtoff = some (fl ((i.zone.off : ℚ) / 1000000)) ∧
      u.zone = some (tzName i.zone) := by
  obtain ⟨hs, e⟩ := strptimeTime_of_ok h
  obtain ⟨_, _, _, _, _, -, -, -, -, -, -, -, hx⟩ := strptime_inv h
  obtain ⟨he, hv⟩ := newDT_inv hx
  rw [← he] at hv
  obtain ⟨t, ht, hsh⟩ := buildStructTime_ok hE hO (x := x) ⟨hn, hv⟩ (Or.inl hs) (flag := 0) (Or.inr (Or.inl rfl)) none
  obtain ⟨u, hu, huh⟩ := C67_timetuple_partial A hE hO x n ⟨hn, hv⟩ (Or.inl hs) (some i) hi
  obtain ⟨q1, q2, -⟩ := huh.2.2 i rfl
  exact ⟨_, u, by rw [e, ht], hu, buildStructTime_tup ht hu, rfl, rfl, q2 h0, q1⟩

/-- The hypotheses of `C110_offset_negation`. -/
example : ∃ x n z, (Cal.init newYearSun).strptime "0182-00-05 +03:30".toList "%Y-%m-%d %z".toList = some (.ok x) ∧
    IsDay (Cal.init newYearSun) x.d n ∧ x.tz = some z ∧ z.off ≠ 0 := by
  refine ⟨⟨.short 182 0 5, 0, 0, 0, 0, some ⟨2, 12600000000⟩, 0⟩, 739675, _, by decide +kernel, ?_, rfl, by decide⟩
  exact witness_days.1

/-- C110 is false for the second leap second: `%S` admits 61, as the description of `tm_sec` says, but no such text is
read. -/
theorem C110_second_negation (A : Astro) (fresh : ℕ) :
    (∃ g, Follows "%S".toList "61".toList g ∧ FieldIs g ['S'] 0 61) ∧
    (∀ t, (Cal.init A).strptimeTime "61".toList "%S".toList ≠ some (.ok t)) ∧
    (∀ x, (Cal.init A).strptime "61".toList "%S".toList fresh ≠ some (.ok x)) := by
  have c1 : compileFmt false "%S".toList = some (.ok [.dir 'S']) := by decide +kernel
  have c2 : findRegex "61".toList [.dir 'S'] = .ok [('S', "61".toList)] := by decide +kernel
  have c3 : (parseFound [('S', "61".toList)]).map (·.second) = .ok 61 := by decide +kernel
  have key : ∀ t, (Cal.init A).strptimeTime "61".toList "%S".toList ≠ some (.ok t) := by
    intro t h
    obtain ⟨ps, g, f, r, q, hc, hg, -, hf, -, -, -, -, hb⟩ := strptimeTime_inv h
    rw [c1] at hc
    injection hc with hc
    injection hc with hc
    subst hc
    rw [c2] at hg
    injection hg with hg
    subst hg
    rw [hf] at c3
    have c4 : f.second = 61 := by simpa [Except.map] using c3
    obtain ⟨-, hct, -⟩ := buildStructTime_inv hb
    obtain ⟨-, -, c5, -⟩ := checkTimeFields_inv hct
    omega
  refine ⟨⟨[('S', "61".toList)], ?_, Or.inl ⟨'S', by simp, "61".toList, by simp, by decide +kernel⟩⟩, key, ?_⟩
  · have hn : NumText 2 0 61 "61".toList :=
      ⟨by decide, by decide, by decide, 61, by decide +kernel, by norm_num, by norm_num⟩
    exact Follows.dir (c := 'S') (v := "61".toList) (f := []) (s := []) (g := []) hn Follows.nil
  · intro x h
    unfold Cal.strptime at h
    rw [c1] at h
    simp only [Option.some.injEq] at h
    rw [c2, pyOk_bind] at h
    unfold Cal.strptimeFound at h
    cases hf : parseFound [('S', "61".toList)] with
    | error e => rw [hf] at h; cases h
    | ok f =>
      rw [hf] at c3
      have c4 : f.second = 61 := by simpa [Except.map] using c3
      rw [hf, pyOk_bind] at h
      cases hk : checkIsoWeek f with
      | error e => rw [hk] at h; cases h
      | ok u =>
        rw [hk, pyOk_bind] at h
        cases hr : (Cal.init A).fromWeeks f with
        | error e => rw [hr] at h; cases h
        | ok r =>
          rw [hr, pyOk_bind] at h
          cases hq : (Cal.init A).fromJulian r.1 r.2.1 r.2.2.1 r.2.2.2 with
          | error e => rw [hq] at h; cases h
          | ok q =>
            rw [hq, pyOk_bind] at h
            cases hw : (Cal.init A).missingWeekday f q.1 q.2.1 q.2.2 with
            | error e => rw [hw] at h; cases h
            | ok u' =>
              rw [hw, pyOk_bind] at h
              cases hz : f.zone fresh with
              | error e => rw [hz] at h; cases h
              | ok z =>
                rw [hz, pyOk_bind] at h
                obtain ⟨-, -, -, -, -, -, c5, -⟩ := newDT_inv h
                simp only [DT.timetz] at c5
                omega

end Verif
