import Verif.Props.IsoDate
import Verif.Props.DateTime

/-!
# C20 and C21: times, datetimes and offsets as ISO text
-/

namespace Verif

/-! ## Reading a datetime text -/

theorem extDate_not_mem (y m d : ℕ) (c : Char) (hc : isDig c = false) (h : c ≠ '-') : c ∉ extDate y m d := by
  intro hm
  simp only [extDate, List.mem_cons, List.mem_append] at hm
  rcases hm with (h1 | h1 | h1) | h1 | h1
  · exact digitsW_not_mem _ _ _ hc h1
  · exact h h1
  · exact digitsW_not_mem _ _ _ hc h1
  · exact h h1
  · exact digitsW_not_mem _ _ _ hc h1

/-- An offset text: nothing, or one sign followed by characters that are not signs or designators. -/
def OffChars (o : Str) : Prop :=
  o = [] ∨ ∃ c r, o = c :: r ∧ (c = '+' ∨ c = '-') ∧ ∀ x ∈ ['T', ' ', 'Z', 'B', '+', '-'], x ∉ r

theorem offText_chars (neg : Bool) (h m : ℕ) : OffChars (offText neg h m) := by
  refine Or.inr ⟨_, _, rfl, by cases neg <;> simp, ?_⟩
  intro x hx hm
  have hd : isDig x = false ∧ x ≠ ':' := by
    simp only [List.mem_cons, List.not_mem_nil, or_false] at hx
    rcases hx with rfl | rfl | rfl | rfl | rfl | rfl <;> decide
  rcases List.mem_append.1 hm with hm | hm
  · exact digitsW_not_mem _ _ _ hd.1 hm
  rcases List.mem_cons.1 hm with hm | hm
  · exact hd.2 hm
  · exact digitsW_not_mem _ _ _ hd.1 hm

theorem offChars_no {o : Str} (h : OffChars o) {x : Char} (hx : x ∈ ['T', ' ', 'Z', 'B']) : x ∉ o := by
  intro hm
  rcases h with rfl | ⟨c, r, rfl, hc, hr⟩
  · simp at hm
  · rcases List.mem_cons.1 hm with rfl | hm
    · simp only [List.mem_cons, List.not_mem_nil, or_false] at hx
      rcases hc with rfl | rfl <;> revert hx <;> decide
    · refine hr x ?_ hm
      simp only [List.mem_cons, List.not_mem_nil, or_false] at hx ⊢
      tauto

/-- The last of the designators is where the time starts. -/
theorem findIndex_sep {D R : Str} {sep : Char} (hsep : sep = 'T' ∨ sep = ' ')
    (h1 : 'T' ∉ D) (h3 : 'T' ∉ R) (h4 : ' ' ∉ R) :
    findIndex (D ++ sep :: R) ['T', ' ', 'Z', 'B', '+', '-'] = D.length := by
  unfold findIndex
  rcases hsep with rfl | rfl
  · rw [List.findSome?_cons, rfind_last h3]; rfl
  · rw [List.findSome?_cons, rfind_none (by
      intro hm
      rcases List.mem_append.1 hm with hm | hm
      · exact h1 hm
      · rcases List.mem_cons.1 hm with hm | hm
        · exact absurd hm (by decide)
        · exact h3 hm)]
    simp only
    rw [List.findSome?_cons, rfind_last h4]; rfl

/-- The sign is where the offset starts. -/
theorem findIndex_off {T o : Str} (hT : ∀ x ∈ ['Z', 'B', '+', '-'], x ∉ T) (ho : OffChars o) :
    findIndex (T ++ o) ['Z', 'B', '+', '-'] = T.length := by
  have no : ∀ x ∈ ['Z', 'B'], x ∉ T ++ o := by
    intro x hx hm
    rcases List.mem_append.1 hm with hm | hm
    · refine hT x ?_ hm
      simp only [List.mem_cons, List.not_mem_nil, or_false] at hx ⊢
      tauto
    · refine offChars_no ho ?_ hm
      simp only [List.mem_cons, List.not_mem_nil, or_false] at hx ⊢
      tauto
  unfold findIndex
  rw [List.findSome?_cons, rfind_none (no _ (by simp))]
  simp only
  rw [List.findSome?_cons, rfind_none (no _ (by simp))]
  simp only
  rcases ho with rfl | ⟨c, r, rfl, hc, hr⟩
  · rw [List.append_nil, List.findSome?_cons, rfind_none (hT _ (by simp))]
    simp only
    rw [List.findSome?_cons, rfind_none (hT _ (by simp))]
    rfl
  · rcases hc with rfl | rfl
    · rw [List.findSome?_cons, rfind_last (hr _ (by simp))]; rfl
    · rw [List.findSome?_cons, rfind_none (by
        intro hm
        rcases List.mem_append.1 hm with hm | hm
        · exact hT _ (by simp) hm
        · rcases List.mem_cons.1 hm with hm | hm
          · exact absurd hm (by decide)
          · exact hr _ (by simp) hm)]
      simp only
      rw [List.findSome?_cons, rfind_last (hr _ (by simp))]; rfl

/-- The zone that an offset text gives; no text, no zone. -/
def readZone (fresh : ℕ) (o : Str) : Py (Option Zone) := if o = [] then .ok none else parseZone fresh o

/-- A datetime text is cut into its three parts. -/
theorem parseAll_text (C : Cal) (fresh : ℕ) {D o : Str} {sep : Char} {h mi s us : ℕ} (hsep : sep = 'T' ∨ sep = ' ')
    (hD : D ≠ []) (h1 : 'T' ∉ D) (ho : OffChars o) (hh : h < 100) (hmi : mi < 100) (hs : s < 100)
    (hu : us < 1000000) :
    C.parseAll fresh (D ++ sep :: clockText h mi s us ++ o) = (do
      let d ← C.parseDate D
      let z ← readZone fresh o
      .ok (d, some ((h : ℤ), (mi : ℤ), fl (((s * 1000000 + us : ℕ) : ℚ) / 10 ^ 6)), z)) := by
  have nc : ∀ x ∈ ['T', ' ', 'Z', 'B', '+', '-'], x ∉ clockText h mi s us := by
    intro x hx
    have hd : isDig x = false ∧ x ≠ ':' ∧ x ≠ '.' := by
      simp only [List.mem_cons, List.not_mem_nil, or_false] at hx
      rcases hx with rfl | rfl | rfl | rfl | rfl | rfl <;> decide
    exact clock_not_mem _ _ _ _ x hd.1 hd.2.1 hd.2.2
  have e : D ++ sep :: clockText h mi s us ++ o = D ++ sep :: (clockText h mi s us ++ o) := by simp
  have f1 := findIndex_sep (D := D) (R := clockText h mi s us ++ o) hsep h1
    (by
      intro hm
      rcases List.mem_append.1 hm with hm | hm
      · exact nc _ (by simp) hm
      · exact offChars_no ho (by simp) hm)
    (by
      intro hm
      rcases List.mem_append.1 hm with hm | hm
      · exact nc _ (by simp) hm
      · exact offChars_no ho (by simp) hm)
  have f2 := findIndex_off (T := sep :: clockText h mi s us) (o := o) (by
    intro x hx hm
    rcases List.mem_cons.1 hm with hm | hm
    · subst hm
      rcases hsep with rfl | rfl <;> revert hx <;> decide
    · refine nc x ?_ hm
      simp only [List.mem_cons, List.not_mem_nil, or_false] at hx ⊢
      tauto) ho
  have key : parseOther fresh (sep :: (clockText h mi s us ++ o)) = (do
      let z ← readZone fresh o
      .ok (some ((h : ℤ), (mi : ℤ), fl (((s * 1000000 + us : ℕ) : ℚ) / 10 ^ 6)), z)) := by
    unfold parseOther
    simp only
    rw [if_neg (by rcases hsep with rfl | rfl <;> decide)]
    rw [List.cons_append] at f2
    rw [f2]
    have t1 : (sep :: (clockText h mi s us ++ o)).take (sep :: clockText h mi s us).length =
        sep :: clockText h mi s us := by
      rw [← List.cons_append]; exact List.take_left
    have t2 : (sep :: (clockText h mi s us ++ o)).drop (sep :: clockText h mi s us).length = o := by
      rw [← List.cons_append]; exact List.drop_left
    rw [t1, t2]
    rw [if_neg (by simp), parseTime_clock hsep hh hmi hs hu, pyOk_bind]
    unfold readZone
    split_ifs <;> rfl
  unfold Cal.parseAll
  rw [e, f1]
  simp only [List.take_left, List.drop_left, if_neg hD, key]
  cases C.parseDate D with
  | error e => rfl
  | ok d =>
    rw [pyOk_bind, pyOk_bind]
    cases readZone fresh o with
    | error e => rfl
    | ok z => rfl

/-- The microseconds that come back for `us`. -/
def readMicro (us : ℕ) : ℤ := if us = 0 then 0 else pyInt (fl (fl ((us : ℚ) / 1000000) * 1000000))

theorem pyMod1_nat (n : ℕ) : pyMod1 (n : ℚ) = 0 := by
  have := pyMod1_int (n : ℤ)
  simpa using this

theorem fl_sec {s : ℕ} (hs : s ≤ 60) : fl (((s * 1000000 + 0 : ℕ) : ℚ) / 10 ^ 6) = (s : ℚ) := by
  have : ((s * 1000000 + 0 : ℕ) : ℚ) / 10 ^ 6 = ((s : ℤ) : ℚ) := by push_cast; field_simp; norm_num
  rw [this, fl_int (s : ℤ) (by rw [abs_le]; constructor <;> norm_num <;> omega)]
  norm_num

/-- The constructor on the numbers read from a text. -/
theorem newDTFrac_read (C : Cal) {y m d : ℤ} {h mi s us : ℕ} (tz : Option Tz) (hh : h ≤ 24) (hmi : mi ≤ 59)
    (hs : s ≤ 60) (hu : us < 1000000) :
    C.newDTFrac y m d h mi (fl (((s * 1000000 + us : ℕ) : ℚ) / 10 ^ 6)) tz =
      (C.newDate (.short y m d)).map (fun _ => ⟨.short y m d, h, mi, s, readMicro us, tz, 0⟩) := by
  have hc : ∀ x : ℚ, 0 ≤ x → x < 61 → checkTimeArgs (h : ℤ) (mi : ℤ) x 0 = .ok () := by
    intro x h0 h1
    have a1 : (h : ℚ) < 25 := by exact_mod_cast (show h < 25 by omega)
    have a2 : (mi : ℚ) < 60 := by exact_mod_cast (show mi < 60 by omega)
    unfold checkTimeArgs
    push_cast
    rw [pyAssert_true ⟨by positivity, a1⟩, pyOk_bind, pyAssert_true ⟨by positivity, a2⟩, pyOk_bind,
      pyAssert_true ⟨h0, h1⟩, pyOk_bind]
    rfl
  have m1 : pyMod1 (((h : ℤ) : ℚ)) = 0 := by exact_mod_cast pyMod1_nat h
  have m2 : pyMod1 (((mi : ℤ) : ℚ)) = 0 := by exact_mod_cast pyMod1_nat mi
  unfold Cal.newDTFrac readMicro
  by_cases h0 : us = 0
  · subst h0
    have ex : fl (((s * 1000000 + 0 : ℕ) : ℚ) / 10 ^ 6) = (s : ℚ) := fl_sec (by omega)
    rw [ex]
    have m3 := pyMod1_nat s
    unfold createTime
    rw [m1, m2, m3]
    simp only [ne_eq, not_true, false_and, if_false, pyOk_bind]
    rw [hc _ (by positivity) (by exact_mod_cast (show s < 61 by omega))]
    cases C.newDate (.short y m d) with
    | error e => rfl
    | ok o => simp [pyOk_bind, Except.map]
  · obtain ⟨p1, p2, p3, p4, p5, -⟩ := partialMicro_read hs (Nat.pos_of_ne_zero h0) hu
    generalize fl (((s * 1000000 + us : ℕ) : ℚ) / 10 ^ 6) = x at *
    unfold createTime
    rw [m1, m2]
    simp only [ne_eq, not_true, false_and, if_false, p2, not_false_eq_true, true_and, if_true, pyOk_bind]
    rw [hc _ p3 p4, p5, p1]
    cases C.newDate (.short y m d) with
    | error e => rfl
    | ok o => simp [pyOk_bind, Except.map, h0]

theorem readMicro_near {us : ℕ} (hu : us < 1000000) : readMicro us = us ∨ readMicro us = us - 1 := by
  unfold readMicro
  split_ifs with h
  · subst h; simp
  · obtain ⟨-, -, -, -, p5, p6⟩ := partialMicro_read (s := 0) (by norm_num) (Nat.pos_of_ne_zero h) hu
    rw [← p5]; exact p6

theorem readMicro_milli {us : ℕ} (hu : us < 1000000) (h : us % 1000 = 0) : readMicro us = us := by
  unfold readMicro
  split_ifs with h0
  · subst h0; simp
  · obtain ⟨k, rfl⟩ : ∃ k, us = k * 1000 := ⟨us / 1000, by omega⟩
    exact milli_exact k (by omega)

/-! ## C21 -/

/-- The offset that comes back for `off`: the minutes always count forward. -/
def readOff (off : ℤ) : ℤ := if off < 0 then off + 2 * (off.natAbs % 3600000000 : ℕ) else off

theorem parseZone_format (fresh : ℕ) {off : ℤ} (h : off % 60000000 = 0) (h0 : -86400000000 < off)
    (h1 : off < 86400000000) :
    ∃ z, parseZone fresh (formatOffset (some off)) = .ok (some z) ∧ z.off = readOff off := by
  have hr : -86400000000 < readOff off ∧ readOff off < 86400000000 := by
    unfold readOff; split_ifs <;> omega
  have e : ((if decide (off < 0) = true then -((off.natAbs / 3600000000 : ℕ) : ℤ) else
      ((off.natAbs / 3600000000 : ℕ) : ℤ)) * 60 + ((off.natAbs % 3600000000 / 60000000 : ℕ) : ℤ)) * 60000000 =
      readOff off := by
    unfold readOff
    by_cases hn : off < 0
    · simp only [hn, decide_true, if_true]; omega
    · simp only [hn, decide_false, Bool.false_eq_true, if_false]; omega
  rw [formatOffset_min h h0 h1, parseZone_off fresh _ (by omega) (by omega), e]
  unfold newZone
  simp only [true_and]
  by_cases hz : readOff off = 0
  · exact ⟨utcZone, by rw [if_pos hz]; rfl, by rw [hz]; rfl⟩
  · exact ⟨⟨fresh, readOff off, none⟩, by rw [if_neg hz, if_pos (by omega)]; rfl, rfl⟩

/-- C21 for whole-minute offsets that are not negative and for whole-hour offsets: the text of the offset is read
back as the same offset. Missing from the full property: negative offsets with minutes, where it is false (below). -/
theorem C21_offsets_partial (fresh : ℕ) (off : ℤ) (h : off % 60000000 = 0) (h0 : -86400000000 < off)
    (h1 : off < 86400000000) (hs : 0 ≤ off ∨ off % 3600000000 = 0) :
    ∃ z, parseZone fresh (formatOffset (some off)) = .ok (some z) ∧ z.off = off := by
  obtain ⟨z, e, ho⟩ := parseZone_format fresh h h0 h1
  refine ⟨z, e, ?_⟩
  rw [ho]; unfold readOff; split_ifs <;> omega

example : (12600000000 : ℤ) % 60000000 = 0 ∧ formatOffset (some 12600000000) = "+03:30".toList := by
  constructor <;> decide

/-- C21 is false for every negative offset that is not a whole number of hours: the minutes come back with the
opposite sign, so the offset read is too large by twice the minutes. -/
theorem C21_negative_negation (fresh : ℕ) (off : ℤ) (h : off % 60000000 = 0) (h0 : -86400000000 < off)
    (h1 : off < 0) (hs : off % 3600000000 ≠ 0) :
    ∃ z, parseZone fresh (formatOffset (some off)) = .ok (some z) ∧ z.off = off + 2 * (-off % 3600000000) ∧
      z.off ≠ off := by
  obtain ⟨z, e, ho⟩ := parseZone_format fresh h h0 (by omega)
  refine ⟨z, e, ?_, ?_⟩ <;> rw [ho] <;> unfold readOff <;> rw [if_pos h1] <;> omega

example : (-12600000000 : ℤ) % 60000000 = 0 ∧ (-12600000000 : ℤ) % 3600000000 ≠ 0 := by decide

/-! ## C20 -/

/-- The offset of a zone can be written and read back. -/
def PlainZone : Option Tz → Prop
  | none => True
  | some z => ValidOff z.off ∧ z.off % 60000000 = 0 ∧ (0 ≤ z.off ∨ z.off % 3600000000 = 0)

theorem readZone_plain (fresh : ℕ) {tz : Option Tz} (h : PlainZone tz) :
    ∃ o z, utcOffset tz = .ok o ∧ readZone fresh (formatOffset o) = .ok z ∧ OffChars (formatOffset o) ∧
      SameOffset tz (z.map Zone.tz) := by
  cases tz with
  | none => exact ⟨none, none, rfl, rfl, Or.inl rfl, trivial⟩
  | some w =>
    obtain ⟨hv, hm, hs⟩ := h
    obtain ⟨z, e, ho⟩ := C21_offsets_partial fresh w.off hm hv.1 hv.2 hs
    refine ⟨some w.off, some z, utcOffset_some hv, ?_, ?_, ho.symm, hv⟩
    · unfold readZone
      rw [if_neg (by unfold formatOffset; simp), e]
    · rw [formatOffset_min hm hv.1 hv.2]; exact offText_chars _ _ _

/-- The date part of a text is read back, for the years 0 to 1161 and -1842 to -1000. -/
theorem date_text (C : Cal) {y m d : ℤ} (h0 : -1842 ≤ y) (h1 : y ≤ 1161) (hy : 0 ≤ y ∨ y ≤ -1000)
    (m0 : 0 ≤ m) (m1 : m < 100) (d0 : 0 ≤ d) (d1 : d < 100) :
    C.parseDate (formatDate y m d) = .ok (some (y, m, d)) ∧ formatDate y m d ≠ [] ∧ 'T' ∉ formatDate y m d := by
  lift m to ℕ using m0
  lift d to ℕ using d0
  rcases hy with hy | hy
  · lift y to ℕ using hy
    rw [formatDate_pos (by omega) (by omega) (by omega)]
    exact ⟨parseDate_pos C (by omega) (by omega) (by omega), by simp [extDate],
      extDate_not_mem _ _ _ _ rfl (by decide)⟩
  · obtain ⟨k, rfl⟩ : ∃ k : ℕ, y = -(k : ℤ) := ⟨y.natAbs, by omega⟩
    rw [formatDate_neg (by omega) (by omega) (by omega) (by omega)]
    refine ⟨parseDate_neg C (by omega) (by omega) (by omega), by simp, ?_⟩
    intro hm
    rcases List.mem_cons.1 hm with hm | hm
    · exact absurd hm (by decide)
    · exact extDate_not_mem _ _ _ _ rfl (by decide) hm

/-- What comes back for the text of a datetime. -/
theorem dt_text (C : Cal) (fresh : ℕ) {x : DT} {sep : Char} (hsep : sep = 'T' ∨ sep = ' ')
    {y m d : ℤ} (hx : x.d.ymd = (y, m, d)) (h0 : -1842 ≤ y) (h1 : y ≤ 1161) (hy : 0 ≤ y ∨ y ≤ -1000)
    (m0 : 0 ≤ m) (m1 : m < 100) (d0 : 0 ≤ d) (d1 : d < 100) (ht : ValidTime x.timetz) (hz : PlainZone x.tz) :
    ∃ z, SameOffset x.tz z ∧ (dtIso x sep >>= fun s => C.dtFromIso fresh s) =
      (C.newDate (.short y m d)).map (fun _ => ⟨.short y m d, x.h, x.mi, x.s, readMicro x.us.toNat, z, 0⟩) := by
  obtain ⟨o, z, e1, e2, e3, e4⟩ := readZone_plain fresh hz
  obtain ⟨xd, xh, xmi, xs, xus, xtz, xf⟩ := x
  obtain ⟨a0, a1, b0, b1, c0, c1, u0, u1, -⟩ := ht
  simp only [DT.timetz] at *
  lift xh to ℕ using a0
  lift xmi to ℕ using b0
  lift xs to ℕ using c0
  lift xus to ℕ using u0
  refine ⟨z.map Zone.tz, e4, ?_⟩
  obtain ⟨p1, p2, p3⟩ := date_text C h0 h1 hy m0 m1 d0 d1
  unfold dtIso
  simp only [hx]
  rw [e1, pyOk_bind, pyOk_bind, formatTime_eq (by omega) (by omega) (by omega) (by omega)]
  unfold Cal.dtFromIso
  rw [parseAll_text C fresh hsep p2 p3 e3 (by omega) (by omega) (by omega) (by omega), p1, pyOk_bind, e2, pyOk_bind,
    pyOk_bind]
  simp only [Option.getD_some]
  rw [newDTFrac_read C _ (by omega) (by omega) (by omega) (by omega)]
  rfl

/-- C20 for datetimes of the short form whose microseconds are whole milliseconds: the text of the datetime is
read back as an equal datetime with the same fields. Missing from the full property: other microseconds (see
`C20_micro_partial`), negative offsets with minutes, the years -999 to -1, the long form and times, where it is
false (below); offsets with seconds, which are refused. -/
theorem C20_datetime_partial (A : Astro) (hE : TehranEvening A) (fresh : ℕ) (x : DT) (n y m d : ℤ) (sep : Char)
    (hx : IsDT (Cal.init A) x n) (hd : x.d = .short y m d) (h0 : -1842 ≤ y) (hy : 0 ≤ y ∨ y ≤ -1000)
    (hu : x.us % 1000 = 0) (hz : PlainZone x.tz) (hsep : sep = 'T' ∨ sep = ' ') :
    ∃ x', (dtIso x sep >>= fun s => (Cal.init A).dtFromIso fresh s) = .ok x' ∧ SameFields x x' ∧
      SameOffset x.tz x'.tz ∧ (Cal.init A).dtEq x x' = .ok true := by
  obtain ⟨hday, ht⟩ := hx
  rw [hd] at hday
  obtain ⟨m0, m1, d0, d1⟩ := md_range hE hday
  have hr := (dayNumber_iff hE).1 hday
  obtain ⟨z, hz', e⟩ := dt_text (Cal.init A) fresh hsep (x := x) (by rw [hd]; rfl) h0 (by omega) hy m0 (by omega)
    (by omega) (by omega) ht hz
  have hus : ((x.us.toNat : ℕ) : ℤ) = x.us := Int.toNat_of_nonneg ht.us0
  have hu1 := ht.us1
  simp only [DT.timetz] at hu1
  have hm := readMicro_milli (us := x.us.toNat) (by omega) (by omega)
  rw [newDate_ok hE (o := .short y m d) hday, hm, hus] at e
  have sf : SameFields x ⟨.short y m d, x.h, x.mi, x.s, x.us, z, 0⟩ := ⟨hd, rfl, rfl, rfl, rfl⟩
  refine ⟨_, e, sf, hz', ?_⟩
  obtain ⟨b, e', hb⟩ := C25_short_partial (Cal.init A) x ⟨.short y m d, x.h, x.mi, x.s, x.us, z, 0⟩ hz'
    (by rw [hd]; rfl) rfl
  rw [e', hb.2 sf]

example : IsDT (Cal.init newYearSun) (witnessDT (some ⟨7, 12600000000⟩) 0) 739675 ∧
    PlainZone (witnessDT (some ⟨7, 12600000000⟩) 0).tz ∧ (witnessDT (some ⟨7, 12600000000⟩) 0).us % 1000 = 0 :=
  ⟨witnessDT_is _ (Or.inl rfl), ⟨⟨by norm_num, by norm_num⟩, by norm_num, Or.inl (by norm_num)⟩, by decide⟩

/-- C20 for datetimes of the short form with any microseconds: everything comes back, except that the
microseconds may come back one less. -/
theorem C20_micro_partial (A : Astro) (hE : TehranEvening A) (fresh : ℕ) (x : DT) (n y m d : ℤ) (sep : Char)
    (hx : IsDT (Cal.init A) x n) (hd : x.d = .short y m d) (h0 : -1842 ≤ y) (hy : 0 ≤ y ∨ y ≤ -1000)
    (hz : PlainZone x.tz) (hsep : sep = 'T' ∨ sep = ' ') :
    ∃ x', (dtIso x sep >>= fun s => (Cal.init A).dtFromIso fresh s) = .ok x' ∧
      (SameFields x x' ∨ SameFields { x with us := x.us - 1 } x') ∧ SameOffset x.tz x'.tz := by
  obtain ⟨hday, ht⟩ := hx
  rw [hd] at hday
  obtain ⟨m0, m1, d0, d1⟩ := md_range hE hday
  have hr := (dayNumber_iff hE).1 hday
  obtain ⟨z, hz', e⟩ := dt_text (Cal.init A) fresh hsep (x := x) (by rw [hd]; rfl) h0 (by omega) hy m0 (by omega)
    (by omega) (by omega) ht hz
  have hus : ((x.us.toNat : ℕ) : ℤ) = x.us := Int.toNat_of_nonneg ht.us0
  have hu1 := ht.us1
  simp only [DT.timetz] at hu1
  rw [newDate_ok hE (o := .short y m d) hday] at e
  refine ⟨_, e, ?_, hz'⟩
  rcases readMicro_near (us := x.us.toNat) (by omega) with hm | hm
  · left; exact ⟨hd, rfl, rfl, rfl, by simp only [hm, hus]⟩
  · right; exact ⟨hd, rfl, rfl, rfl, by simp only [hm, hus]⟩

example : IsDT (Cal.init newYearSun) (witnessDT none 1) 739675 ∧ PlainZone (witnessDT none 1).tz :=
  ⟨witnessDT_is _ (Or.inr rfl), trivial⟩

/-- C20 is false for microseconds: 249 microseconds come back as 248, on every day and at every time of day, and
the datetime read is not equal to the one written. -/
theorem C20_micro_negation (A : Astro) (hE : TehranEvening A) (fresh : ℕ) (x : DT) (n y m d : ℤ) (sep : Char)
    (hx : IsDT (Cal.init A) x n) (hd : x.d = .short y m d) (h0 : -1842 ≤ y) (hy : 0 ≤ y ∨ y ≤ -1000)
    (hu : x.us = 249) (hz : PlainZone x.tz) (hsep : sep = 'T' ∨ sep = ' ') :
    ∃ x', (dtIso x sep >>= fun s => (Cal.init A).dtFromIso fresh s) = .ok x' ∧ x'.us = 248 ∧
      (Cal.init A).dtEq x x' = .ok false := by
  obtain ⟨hday, ht⟩ := hx
  rw [hd] at hday
  obtain ⟨m0, m1, d0, d1⟩ := md_range hE hday
  have hr := (dayNumber_iff hE).1 hday
  obtain ⟨z, hz', e⟩ := dt_text (Cal.init A) fresh hsep (x := x) (by rw [hd]; rfl) h0 (by omega) hy m0 (by omega)
    (by omega) (by omega) ht hz
  have hm : readMicro x.us.toNat = 248 := by rw [hu]; decide +kernel
  rw [newDate_ok hE (o := .short y m d) hday, hm] at e
  refine ⟨_, e, rfl, ?_⟩
  obtain ⟨b, e', hb⟩ := C25_short_partial (Cal.init A) x ⟨.short y m d, x.h, x.mi, x.s, 248, z, 0⟩ hz'
    (by rw [hd]; rfl) rfl
  rw [e']
  cases b with
  | false => rfl
  | true =>
    have := (hb.1 rfl).2.2.2.2
    simp only [hu] at this
    omega

example : IsDT (Cal.init newYearSun) { witnessDT none 0 with us := 249 } 739675 := by
  obtain ⟨h1, h2⟩ := witnessDT_is none (Or.inl rfl)
  exact ⟨h1, ⟨h2.h0, h2.h1, h2.mi0, h2.mi1, h2.s0, h2.s1, by norm_num [DT.timetz], by norm_num [DT.timetz], h2.fold⟩⟩

/-- C20 is false for the years -999 to -1: ValueError. -/
theorem C20_negative_year_negation (A : Astro) (hE : TehranEvening A) (fresh : ℕ) (x : DT) (n y m d : ℤ) (sep : Char)
    (hx : IsDT (Cal.init A) x n) (hd : x.d = .short y m d) (h0 : -999 ≤ y) (hy : y ≤ -1)
    (hz : PlainZone x.tz) (hsep : sep = 'T' ∨ sep = ' ') :
    (dtIso x sep >>= fun s => (Cal.init A).dtFromIso fresh s) = .error .value := by
  obtain ⟨hday, ht⟩ := hx
  rw [hd] at hday
  obtain ⟨m0, m1, d0, d1⟩ := md_range hE hday
  obtain ⟨o, z, e1, e2, e3, e4⟩ := readZone_plain fresh hz
  obtain ⟨xd, xh, xmi, xs, xus, xtz, xf⟩ := x
  obtain ⟨a0, a1, b0, b1, c0, c1, u0, u1, -⟩ := ht
  simp only [DT.timetz] at *
  subst hd
  lift xh to ℕ using a0
  lift xmi to ℕ using b0
  lift xs to ℕ using c0
  lift xus to ℕ using u0
  lift m to ℕ using m0
  lift d to ℕ using (by omega)
  obtain ⟨k, rfl⟩ : ∃ k : ℕ, y = -(k : ℤ) := ⟨y.natAbs, by omega⟩
  unfold dtIso
  simp only [DateObj.ymd]
  rw [e1, pyOk_bind, pyOk_bind, formatTime_eq (by omega) (by omega) (by omega) (by omega),
    formatDate_small (by omega) (by omega) (by omega) (by omega)]
  unfold Cal.dtFromIso
  rw [parseAll_text _ fresh hsep (by simp) (by
    intro hm
    simp only [List.mem_cons, List.mem_append] at hm
    have h1 : ∀ w n, 'T' ∉ digitsW w n := fun w n => digitsW_not_mem w n 'T' rfl
    rcases hm with ((hm | hm) | hm | hm) | hm | hm
    · exact absurd hm (by decide)
    · exact h1 _ _ hm
    · exact absurd hm (by decide)
    · exact h1 _ _ hm
    · exact absurd hm (by decide)
    · exact h1 _ _ hm) e3 (by omega) (by omega) (by omega) (by omega), parseDate_small]
  rfl

example : ∃ n, DayNumber (Cal.init newYearSun) (-5) 1 1 n :=
  ⟨_, (dayNumber_iff newYearSun_tehran).mpr ⟨by norm_num, by norm_num, Or.inl (by norm_num), rfl⟩⟩

/-- C20 is false for the long form: if the text of a long-form datetime can be read at all, what comes back is in
the short form and its year is the year inside the Váḥid, which is another day except in the first Váḥid. -/
theorem C20_long_negation (A : Astro) (hE : TehranEvening A) (fresh : ℕ) (x x' : DT) (n k v y m d : ℤ) (sep : Char)
    (hx : IsDT (Cal.init A) x n) (hd : x.d = .long k v y m d) (hz : PlainZone x.tz)
    (hsep : sep = 'T' ∨ sep = ' ')
    (h : (dtIso x sep >>= fun s => (Cal.init A).dtFromIso fresh s) = .ok x') :
    x'.d = .short y m d ∧ (¬ (k = 1 ∧ v = 1) → ¬ IsDay (Cal.init A) x'.d n) := by
  obtain ⟨hday, ht⟩ := hx
  rw [hd] at hday
  obtain ⟨Y, ⟨v0, v1, y0, y1, eY⟩, hD⟩ := hday
  obtain ⟨m0, m1, d0, d1⟩ := md_range hE hD
  obtain ⟨z, hz', e⟩ := dt_text (Cal.init A) fresh hsep (x := x) (by rw [hd]; rfl) (by omega) (by omega)
    (Or.inl (by omega)) m0 (by omega) (by omega) (by omega) ht hz
  have hd' : x'.d = .short y m d := by
    rw [e] at h
    cases hn : (Cal.init A).newDate (.short y m d) with
    | error _ => rw [hn] at h; exact absurd h (by simp [Except.map])
    | ok _ =>
      rw [hn] at h
      simp only [Except.map, Except.ok.injEq] at h
      rw [← h]
  refine ⟨hd', fun hk hI => hk ?_⟩
  rw [hd'] at hI
  have := (dayNumber_unique hE hI hD).1
  omega

example : (dtIso (witnessLong none) 'T' >>= fun s => (Cal.init newYearSun).dtFromIso 9 s) =
    .ok { witnessLong none with d := .short 11 19 1 } := by
  obtain ⟨z, hz', e⟩ := dt_text (Cal.init newYearSun) 9 (Or.inl rfl) (x := witnessLong none) rfl (by norm_num)
    (by norm_num) (Or.inl (by norm_num)) (by norm_num) (by norm_num) (by norm_num) (by norm_num)
    (witnessLong_is none).time trivial
  have hz : z = none := by cases z with
    | none => rfl
    | some z => exact absurd hz' id
  rw [e, newDate_ok newYearSun_tehran (o := .short 11 19 1) ((dayNumber_iff newYearSun_tehran).mpr
    ⟨by norm_num, by norm_num, Or.inl (by norm_num), rfl⟩), hz]
  have hm : readMicro (witnessLong none).us.toNat = 250000 := readMicro_milli (us := 250000) (by norm_num) (by norm_num)
  rw [hm]
  rfl

theorem padNat_not_mem (w n : ℕ) (c : Char) (hc : isDig c = false) : c ∉ padNat w n :=
  digitsW_not_mem _ _ _ hc

theorem formatOffset_not_mem (o : Option ℤ) (c : Char) (hc : isDig c = false) (h1 : c ≠ ':') (h2 : c ≠ '.')
    (h3 : c ≠ '+') (h4 : c ≠ '-') : c ∉ formatOffset o := by
  intro hm
  cases o with
  | none => simp [formatOffset] at hm
  | some off =>
    have hp : ∀ w n, c ∉ padNat w n := fun w n => padNat_not_mem w n c hc
    simp only [formatOffset] at hm
    rcases List.mem_append.1 hm with hm | hm
    · rcases List.mem_append.1 hm with hm | hm
      · rcases List.mem_cons.1 hm with hm | hm
        · split_ifs at hm
          · exact h4 hm
          · exact h3 hm
        · exact hp _ _ hm
      · rcases List.mem_cons.1 hm with hm | hm
        · exact h1 hm
        · exact hp _ _ hm
    · split_ifs at hm
      · rcases List.mem_append.1 hm with hm | hm
        · rcases List.mem_cons.1 hm with hm | hm
          · exact h1 hm
          · exact hp _ _ hm
        · rcases List.mem_cons.1 hm with hm | hm
          · exact h2 hm
          · exact hp _ _ hm
      · simp only [List.append_nil] at hm
        rcases List.mem_cons.1 hm with hm | hm
        · exact h1 hm
        · exact hp _ _ hm
      · simp at hm

/-- C20 is false for times: the text of a time has no designator, and `time.fromisoformat` raises ValueError for
every one of them. -/
theorem C20_time_negation (t : TimeObj) (ht : ValidTime t) (hz : ∀ z, t.tz = some z → ValidOff z.off) :
    (timeIso t >>= timeFromIso) = .error .value := by
  obtain ⟨h, mi, s, us, tz, f⟩ := t
  obtain ⟨a0, a1, b0, b1, c0, c1, u0, u1, -⟩ := ht
  simp only at *
  lift h to ℕ using a0
  lift mi to ℕ using b0
  lift s to ℕ using c0
  lift us to ℕ using u0
  obtain ⟨o, ho⟩ : ∃ o, utcOffset tz = .ok o := by
    cases tz with
    | none => exact ⟨_, rfl⟩
    | some z => exact ⟨_, utcOffset_some (hz z rfl)⟩
  unfold timeIso
  rw [ho, pyOk_bind, pyOk_bind, formatTime_eq (by omega) (by omega) (by omega) (by omega)]
  have e : clockText h mi s us ++ formatOffset o = dg (h / 10 ^ 1) :: ((clockText h mi s us).drop 1 ++ formatOffset o) :=
    rfl
  have hs : ' ' ∉ clockText h mi s us ++ formatOffset o := by
    intro hm
    rcases List.mem_append.1 hm with hm | hm
    · exact clock_not_mem _ _ _ _ _ rfl (by decide) (by decide) hm
    · exact formatOffset_not_mem o ' ' rfl (by decide) (by decide) (by decide) (by decide) hm
  rw [e] at hs ⊢
  exact timeFromIso_bare (isDig_dg _) hs

example : ValidTime ⟨23, 30, 0, 250000, none, 0⟩ :=
  ⟨by norm_num, by norm_num, by norm_num, by norm_num, by norm_num, by norm_num, by norm_num, by norm_num, Or.inl rfl⟩

/-- C20 for times: with the designator `T` put in front of the text, a naive time without microseconds is read back;
with microseconds, the second of the object that comes back is a fraction and its microsecond is 0. -/
theorem C20_time_partial (t : TimeObj) (ht : ValidTime t) :
    (t.us = 0 → timeFromIso ('T' :: formatTime t.h t.mi t.s t.us) = .ok (t.h, t.mi, (t.s : ℚ))) ∧
    (t.us ≠ 0 → ∃ q : ℚ, timeFromIso ('T' :: formatTime t.h t.mi t.s t.us) = .ok (t.h, t.mi, q) ∧
      (t.s : ℚ) < q ∧ q < t.s + 1) := by
  obtain ⟨h, mi, s, us, tz, f⟩ := t
  obtain ⟨a0, a1, b0, b1, c0, c1, u0, u1, -⟩ := ht
  simp only at *
  lift h to ℕ using a0
  lift mi to ℕ using b0
  lift s to ℕ using c0
  lift us to ℕ using u0
  have hc : ∀ x : ℚ, 0 ≤ x → x < 61 → checkTimeArgs (h : ℤ) (mi : ℤ) x 0 = .ok () := by
    intro x h0 h1
    have a1 : (h : ℚ) < 25 := by exact_mod_cast (show h < 25 by omega)
    have a2 : (mi : ℚ) < 60 := by exact_mod_cast (show mi < 60 by omega)
    unfold checkTimeArgs
    push_cast
    rw [pyAssert_true ⟨by positivity, a1⟩, pyOk_bind, pyAssert_true ⟨by positivity, a2⟩, pyOk_bind,
      pyAssert_true ⟨h0, h1⟩, pyOk_bind]
    rfl
  rw [formatTime_eq (by omega) (by omega) (by omega) (by omega)]
  unfold timeFromIso
  rw [parseTime_clock (Or.inl rfl) (by omega) (by omega) (by omega) (by omega)]
  simp only [Option.getD_some]
  constructor
  · intro h0
    have h0 : us = 0 := by omega
    subst h0
    have ex : fl (((s * 1000000 + 0 : ℕ) : ℚ) / 10 ^ 6) = (s : ℚ) := fl_sec (by omega)
    rw [ex, hc _ (by positivity) (by exact_mod_cast (show s < 61 by omega))]
    norm_num
  · intro h0
    obtain ⟨p1, p2, p3, p4, -, -⟩ := partialMicro_read (s := s) (u := us) (by omega) (by omega) (by omega)
    generalize fl (((s * 1000000 + us : ℕ) : ℚ) / 10 ^ 6) = x at *
    refine ⟨x, ?_, ?_, ?_⟩
    · rw [hc _ p3 p4]
    · rcases lt_or_eq_of_le (Int.floor_le x) with hl | hl
      · rw [p1] at hl; exact hl
      · exfalso; apply p2
        unfold pyMod1
        rw [if_pos p3, hl]; simp
    · have := Int.lt_floor_add_one x
      rw [p1] at this; exact this

end Verif
