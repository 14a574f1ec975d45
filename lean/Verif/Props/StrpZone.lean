import Verif.Lemmas.StrpZone
import Verif.Props.Composite
import Verif.Props.StrpSound

/-!
# C85: an offset is written by `strftime` and read by `strptime` with `%z`
-/

namespace Verif

/-- The tuple of a datetime with the day number `n`. -/
abbrev tupleOf (y m d h mi s n : ℤ) : Tup := ⟨true, 0, 0, y, m, d, h, mi, s, (n + 1) % 7, n - ysInt y + 1⟩

theorem tupleOf_ok {A : Astro} (hE : TehranEvening A) (hO : NewYearOrder (Cal.init A)) {y m d h mi s us n : ℤ} {z : Option Tz}
    (hx : IsDT (Cal.init A) ⟨.short y m d, h, mi, s, us, z, 0⟩ n) (hy : -1842 ≤ y) (hh : h ≤ 23) :
    TupOk (tupleOf y m d h mi s n) us ∧ (Cal.init A).checktm (tupleOf y m d h mi s n) = .ok () := by
  obtain ⟨h0, h1, mi0, mi1, s0, s1, us0, us1, -⟩ := hx.time
  unfold DT.timetz at h0 h1 mi0 mi1 s0 s1 us0 us1
  simp only at h0 h1 mi0 mi1 s0 s1 us0 us1
  obtain ⟨t, -, htok, hck, rfl⟩ := buildStruct_ok hE hO (us := us) hx.day hy ⟨h0, hh⟩ ⟨mi0, mi1⟩ ⟨s0, s1⟩ ⟨us0, by omega⟩
  exact ⟨htok, hck⟩

theorem wrap_app {ts : List Tok} (h : ∀ t ∈ ts, t.Readable) (us r : Str) :
    wrapFormat us (tokText ts ++ r) = tokText (ts.flatMap (subF us)) ++ wrapFormat us r := by
  rw [← wrap_toks h]
  induction ts with
  | nil => rfl
  | cons t ts ih =>
    have ht := h _ List.mem_cons_self
    have ih := ih (fun x hx => h x (List.mem_cons_of_mem _ hx))
    cases t with
    | lit c =>
      have hc : c ≠ '%' := ht
      have e : ∀ q, wrapFormat us (c :: q) = c :: wrapFormat us q := by
        intro q
        rw [wrapFormat.eq_def]
        split
        · contradiction
        · rename_i heq; simp at heq; exact absurd heq.1 hc
        · rename_i heq; simp at heq; exact absurd heq.1 hc
        · rename_i heq; simp at heq; rw [heq.1, heq.2]
      change wrapFormat us (c :: (tokText ts ++ r)) = wrapFormat us (c :: tokText ts) ++ _
      rw [e, e, ih]
      rfl
    | dir c m =>
      obtain ⟨rfl, hm⟩ := ht
      change wrapFormat us ('%' :: c :: (tokText ts ++ r)) = wrapFormat us ('%' :: c :: tokText ts) ++ _
      by_cases hf : c = 'f'
      · subst hf
        rw [wrapFormat, wrapFormat, ih, List.append_assoc]
      · have e : ∀ q, wrapFormat us ('%' :: c :: q) = '%' :: c :: wrapFormat us q := by
          intro q
          rw [wrapFormat]
          exact fun h => hf h
        rw [e, e, ih]
        rfl

theorem tokValues_append {dir : Directives} {l k : List Tok} {a b : Str} (hl : tokValues dir l = .ok a) (hk : tokValues dir k = .ok b) :
    tokValues dir (l ++ k) = .ok (a ++ b) := by
  induction l generalizing a with
  | nil =>
    injection hl with hl
    subst hl
    exact hk
  | cons t l ih =>
    rw [tokValues] at hl
    rw [List.cons_append, tokValues]
    cases ht : t.value dir with
    | error e => rw [ht] at hl; cases hl
    | ok s =>
      rw [ht, pyOk_bind] at hl
      cases hr : tokValues dir l with
      | error e => rw [hr] at hl; cases hl
      | ok r =>
        rw [hr, pyOk_bind] at hl
        injection hl with hl
        subst hl
        rw [pyOk_bind, ih hr, pyOk_bind, List.append_assoc]

/-- The text of a datetime with a format of pieces and more after them. -/
theorem strftime_more {A : Astro} (hE : TehranEvening A) (hO : NewYearOrder (Cal.init A)) (L : Locale) {y m d h mi s us n : ℤ}
    {tz : Option Tz} {z : Option TzInfo} (hx : IsDT (Cal.init A) ⟨.short y m d, h, mi, s, us, tz, 0⟩ n) (hy : -1842 ≤ y) (hh : h ≤ 23)
    {ts : List Tok} (hF : RoundTripFormat ts) {ks : List Tok} {k : Char} (hk : ks.head? = some (.dir k none))
    (hw : ∀ us, wrapFormat us (tokText ks) = tokText ks) (hkd : ∀ t ∈ ks, t.Documented)
    (hkc : ks.IsChain (fun a b => ¬ (a.isDash = true ∧ b.isLit = true))) (hke : ∀ b, ks.getLast? = some b → b.isDash = false) {o : Str}
    (ho : tokValues ((Cal.init A).allDirectives L
      (structOf ⟨.short y m d, h, mi, s, us, tz, 0⟩ z ((n + 1) % 7) (n - ysInt y + 1))) ks = .ok o) :
    (Cal.init A).datetimeStrftime L ⟨.short y m d, h, mi, s, us, tz, 0⟩ z (tokText ts ++ tokText ks) =
      .ok (outOf (fieldText (tupleOf y m d h mi s n) us) ts ++ o) := by
  obtain ⟨htok, -⟩ := tupleOf_ok hE hO hx hy hh
  obtain ⟨w, yd, ⟨y', m', d', hn, hys⟩, rfl, e1⟩ := datetimeStrftime_eq hE hO hx (Or.inl rfl) hy L z (tokText ts ++ tokText ks)
  obtain ⟨rfl, rfl, rfl⟩ := dayNumber_unique hE hx.day hn
  obtain ⟨y0, y1, -⟩ := (dayNumber_iff hE).mp hn
  rw [init_yearStart hE, if_pos (by omega)] at hys
  obtain rfl : yd = n - ysInt y + 1 := by injection hys; omega
  rw [e1, wrap_app hF.pieces, hw]
  simp only
  generalize hst : structOf (⟨.short y m d, h, mi, s, us, tz, 0⟩ : DT) z ((n + 1) % 7) (n - ysInt y + 1) = st at ho
  have ht : st.tup = tupleOf y m d h mi s n := by rw [← hst]; rfl
  clear hst e1
  have hus : padInt 6 us = digitsW 6 us.toNat := by
    have := padInt_nat (w := 6) (n := us.toNat) (by norm_num) (by have := htok.us; norm_num; omega)
    rwa [Int.toNat_of_nonneg htok.us.1] at this
  have hne : padInt 6 us ≠ [] := by rw [hus]; simp [digitsW]
  have hdig : ∀ c ∈ padInt 6 us, isDig c = true := by rw [hus]; exact digitsW_isDig _ _
  rw [show tokText (ts.flatMap (subF (padInt 6 us))) ++ tokText ks = tokText (ts.flatMap (subF (padInt 6 us)) ++ ks) by
    unfold tokText; rw [List.flatMap_append]]
  have hkn : ks ≠ [] := by rintro rfl; simp at hk
  have hdoc : ∀ x ∈ ts.flatMap (subF (padInt 6 us)), x.Documented := by
    intro x hx
    rw [List.mem_flatMap] at hx
    obtain ⟨z, hz, hx⟩ := hx
    have hr := hF.pieces z hz
    rcases subF_cases (padInt 6 us) z with ⟨rfl, e⟩ | ⟨-, e⟩
    · rw [e, List.mem_map] at hx
      obtain ⟨c, hc, rfl⟩ := hx
      have := hdig c hc
      change c ≠ '%'
      rintro rfl
      revert this; decide
    · rw [e, List.mem_singleton] at hx
      subst hx
      cases x with
      | lit c => exact hr
      | dir c m =>
        obtain ⟨rfl, hc⟩ := hr
        have all : ∀ x ∈ "YmdHMSfjBbAa".toList, x ∈ "aAbBcCdDefGhHIjkKlmMnprSTuUVWxXyYzZ".toList := by decide
        exact all c hc
  rw [C40_copies_partial _ _ (by simp [hkn]) (by
      intro x hx
      rcases List.mem_append.mp hx with hx | hx
      · exact hdoc x hx
      · exact hkd x hx) (by
      rw [List.isChain_append]
      refine ⟨subF_chain hdig hF.dash, hkc, fun a _ b hb hab => ?_⟩
      rw [hk] at hb
      obtain rfl : Tok.dir k none = b := by simpa using hb
      exact absurd hab.2 (by simp [Tok.isLit])) (by
      intro a b _ hb hab
      rw [List.getLast?_append_of_ne_nil _ hkn] at hb
      rw [hke b hb] at hab
      exact absurd hab.2 (by simp))]
  apply tokValues_append
  · apply values_subF (val := fieldText (tupleOf y m d h mi s n) us) (us := padInt 6 us) rfl
    intro c m' hcm
    obtain ⟨rfl, hc⟩ : m' = none ∧ c ∈ "YmdHMSfjBbAa".toList := hF.pieces _ hcm
    refine ⟨rfl, fun hf => ?_⟩
    have hfy : st.tup.fullYear = y := by rw [ht]; rfl
    have all : ∀ x ∈ "YmdHMSfjBbAa".toList, x ≠ 'z' ∧ x ≠ 'Z' := by decide
    unfold Cal.allDirectives
    rw [if_neg (all c hc).1, if_neg (all c hc).2]
    have hc' : c = 'Y' ∨ c = 'm' ∨ c = 'd' ∨ c = 'H' ∨ c = 'M' ∨ c = 'S' ∨ c = 'f' ∨ c = 'j' ∨ c = 'B' ∨ c = 'b' ∨ c = 'A' ∨
      c = 'a' := by simpa using hc
    rcases hc' with rfl | rfl | rfl | rfl | rfl | rfl | rfl | rfl | rfl | rfl | rfl | rfl
    · change Except.ok (signedYear st.tup.fullYear) = _; rw [hfy]; rfl
    all_goals first | (rw [ht]; rfl) | exact absurd rfl hf
  · exact ho

/-- The text of an aware datetime with a format that ends with `%z`. -/
theorem strftime_zone {A : Astro} (hE : TehranEvening A) (hO : NewYearOrder (Cal.init A)) (L : Locale) {y m d h mi s us n : ℤ}
    {i : TzInfo} (hx : IsDT (Cal.init A) ⟨.short y m d, h, mi, s, us, some i.zone.tz, 0⟩ n) (hy : -1842 ≤ y) (hh : h ≤ 23)
    {ts : List Tok} (hF : RoundTripFormat ts) :
    (Cal.init A).datetimeStrftime L ⟨.short y m d, h, mi, s, us, some i.zone.tz, 0⟩ (some i) (tokText ts ++ ['%', 'z']) =
      .ok (outOf (fieldText (tupleOf y m d h mi s n) us) ts ++ dirZ (offsetSeconds (some i)) none) := by
  refine strftime_more hE hO L hx hy hh hF (ks := [.dir 'z' none]) rfl (fun us => wrap_one us (by decide)) ?_ (by simp) ?_ ?_
  · intro t ht
    rw [List.mem_singleton] at ht
    subst ht
    simp [Tok.Documented]
  · intro b hb
    simp at hb
    subst hb
    rfl
  · change Except.ok (dirZ (offsetSeconds (some i)) none ++ []) = _
    rw [List.append_nil]

/-- The reading of a text of a datetime followed by an offset. -/
theorem strptime_zone {A : Astro} (hE : TehranEvening A) (hO : NewYearOrder (Cal.init A)) {y m d h mi s us n : ℤ} {z : Option Tz}
    (hx : IsDT (Cal.init A) ⟨.short y m d, h, mi, s, us, z, 0⟩ n) (hy : -1842 ≤ y) (hh : h ≤ 23)
    {ts : List Tok} (hF : RoundTripFormat ts) (hb : Tok.dir 'b' none ∈ ts → m ≠ 15)
    (hj : Tok.dir 'j' none ∈ ts → Convertible (Cal.init A) n) (fresh : ℕ) {v : Str} {off : ℤ} (hv : OffsetText v off) :
    (Cal.init A).strptime (outOf (fieldText (tupleOf y m d h mi s n) us) ts ++ v) (tokText ts ++ ['%', 'z']) fresh =
      some ((newZone fresh off none).map (fun w => ⟨.short y m d, keptField ts 'H' h, keptField ts 'M' mi, keptField ts 'S' s,
        keptField ts 'f' us, some w.tz, 0⟩)) := by
  obtain ⟨htok, -⟩ := tupleOf_ok hE hO hx hy hh
  unfold Cal.strptime
  rw [compile_toks_z hF.pieces]
  simp only
  have hsp : v.dropWhile isSpaceC = v := by
    rcases hv with ⟨rfl, -⟩ | ⟨a, -, neg, hh, m, us, tail, -, -, rfl, -⟩
    · decide
    · cases neg <;> rfl
  have hmatch := (match_toks_app (ts := ts) (val := fieldText (tupleOf y m d h mi s n) us)
    (fun c hc => by
      obtain ⟨a, b, -⟩ := field_facts htok (hF.pieces _ hc).2 (fun e => hb (by subst e; exact hc))
      exact ⟨a, b⟩) (fun c m' hc => (hF.pieces _ hc).1)
    (match_end (c := 'z') rfl (firstLen_offset hv)) hsp).1
  unfold findRegex
  rw [hmatch]
  simp only [if_true]
  rw [pyOk_bind, strptimeFound_toks hE hO hx.day htok hF hb hj (off := some off)
    (Or.inr ⟨v, off, rfl, parseOffset_ok hv, rfl⟩)]
  congr 1
  unfold Found.zone
  simp only
  cases newZone fresh off none with
  | error e => rfl
  | ok w => exact newDT_ok hE (n := n) ⟨hx.day, kept_valid (z := some w.tz)
      ⟨hx.time.h0, hx.time.h1, hx.time.mi0, hx.time.mi1, hx.time.s0, hx.time.s1, hx.time.us0, hx.time.us1, hx.time.fold⟩⟩

/-- C85: a text of a datetime followed by `Z` or an offset of less than a day is read by a format with `%z` at the end as
the datetime with that offset; an offset of a day or more is refused with ValueError. `Z` and zero give the zone UTC. -/
theorem C85_reads (A : Astro) (hE : TehranEvening A) (hO : NewYearOrder (Cal.init A)) (other : Directives)
    (y m d h mi s us n : ℤ) (hx : IsDT (Cal.init A) ⟨.short y m d, h, mi, s, us, none, 0⟩ n) (hy : -1842 ≤ y) (hh : h ≤ 23)
    (ts : List Tok) (hF : RoundTripFormat ts) (hb : Tok.dir 'b' none ∈ ts → m ≠ 15)
    (hj : Tok.dir 'j' none ∈ ts → Convertible (Cal.init A) n) (fresh : ℕ) (v : Str) (off : ℤ) (hv : OffsetText v off) :
    ∃ text, (Cal.init A).dtStrftime other y m d h mi s us (tokText ts) = .ok text ∧
      (ValidOff off → ∃ t : Tz, t.off = off ∧ (off = 0 → t = utcZone.tz) ∧
        (Cal.init A).strptime (text ++ v) (tokText ts ++ "%z".toList) fresh = some (.ok ⟨.short y m d, keptField ts 'H' h,
          keptField ts 'M' mi, keptField ts 'S' s, keptField ts 'f' us, some t, 0⟩)) ∧
      (¬ ValidOff off → (Cal.init A).strptime (text ++ v) (tokText ts ++ "%z".toList) fresh = some (.error .value)) := by
  obtain ⟨h0, h1, mi0, mi1, s0, s1, us0, us1, -⟩ := hx.time
  unfold DT.timetz at h0 h1 mi0 mi1 s0 s1 us0 us1
  simp only at h0 h1 mi0 mi1 s0 s1 us0 us1
  obtain ⟨t, hbuild, htok, hck, rfl⟩ := buildStruct_ok hE hO (us := us) hx.day hy ⟨h0, hh⟩ ⟨mi0, mi1⟩ ⟨s0, s1⟩ ⟨us0, by omega⟩
  refine ⟨outOf (fieldText (tupleOf y m d h mi s n) us) ts, ?_, ?_, ?_⟩
  · unfold Cal.dtStrftime
    rw [hbuild, pyOk_bind]
    exact strftime_toks htok hck hF
  · rintro ⟨v0, v1⟩
    rw [show "%z".toList = ['%', 'z'] by decide, strptime_zone hE hO hx hy hh hF hb hj fresh hv]
    unfold newZone
    by_cases hz : off = 0
    · rw [if_pos ⟨rfl, hz⟩]
      exact ⟨utcZone.tz, by rw [hz]; rfl, fun _ => rfl, rfl⟩
    · rw [if_neg (by simp [hz]), if_pos (by omega)]
      exact ⟨⟨fresh, off⟩, rfl, fun h => absurd h hz, rfl⟩
  · intro hn
    unfold ValidOff at hn
    rw [show "%z".toList = ['%', 'z'] by decide, strptime_zone hE hO hx hy hh hF hb hj fresh hv]
    unfold newZone
    rw [if_neg (by rintro ⟨-, rfl⟩; omega), if_neg (by omega)]
    rfl

theorem zone_format : RoundTripFormat isoLike := by
  refine ⟨?_, by decide, by decide, by decide, by decide, ?_⟩
  · intro t ht
    simp only [isoLike, List.mem_cons, List.not_mem_nil, or_false] at ht
    rcases ht with rfl | rfl | rfl | rfl | rfl | rfl | rfl | rfl | rfl | rfl | rfl | rfl | rfl <;> simp [Tok.Readable]
  · intro a b ha _ hab
    simp [isoLike] at ha
    subst ha
    exact absurd hab.1 (by decide)

/-- Two offsets with a colon and without, one of them with a fraction of a second, `Z`, and an offset of a day; the format and
the datetime. -/
example : OffsetText "+03:30".toList 12600000000 ∧ OffsetText "-112233.5".toList (-40953500000) ∧ OffsetText "Z".toList 0 ∧
    OffsetText "+2400".toList 86400000000 ∧ ValidOff 12600000000 ∧ ValidOff (-40953500000) ∧ ¬ ValidOff 86400000000 ∧
    RoundTripFormat isoLike ∧ IsDT (Cal.init newYearSun) ⟨.short 182 0 5, 23, 30, 0, 250000, none, 0⟩ 739675 := by
  refine ⟨Or.inr ⟨[':'], Or.inr rfl, false, 3, 30, 0, [], by omega, by omega, by decide, Or.inl ⟨rfl, rfl⟩, by norm_num⟩,
    Or.inr ⟨[], Or.inl rfl, true, 11, 22, 33500000, "33.5".toList, by omega, by omega, by decide,
      Or.inr ⟨33, 500000, ".5".toList, by omega, by decide, by omega, Or.inr ⟨1, 5, by omega, by omega, by omega, by decide, by norm_num⟩⟩,
      by norm_num⟩, Or.inl ⟨by decide, rfl⟩,
    Or.inr ⟨[], Or.inl rfl, false, 24, 0, 0, [], by omega, by omega, by decide, Or.inl ⟨rfl, rfl⟩, by norm_num⟩,
    by unfold ValidOff; omega, by unfold ValidOff; omega, by unfold ValidOff; omega, zone_format, ⟨witness_days.1, ?_⟩⟩
  constructor <;> decide

theorem hundredths_text {q : ℤ} (h1 : |q| ≤ 95) (h3 : |q| % 4 ≠ 3) :
    OffsetText (hundredths q false) ((if q < 0 then -1 else 1) * ((|q| / 4 * 3600 + 25 * (|q| % 4) * 60) * 1000000)) := by
  have h0 : 0 ≤ |q| := abs_nonneg q
  refine Or.inr ⟨[], Or.inl rfl, decide (q < 0), (|q| / 4).toNat, (25 * (|q| % 4)).toNat, 0, [], by omega, by omega, ?_,
    Or.inl ⟨rfl, rfl⟩, ?_⟩
  · have e : ∀ k : ℤ, 0 ≤ k → k < 100 → padInt 2 k = digitsW 2 k.toNat := by
      intro k k0 k1
      have := padInt_nat (w := 2) (n := k.toNat) (by norm_num) (by norm_num; omega)
      rwa [Int.toNat_of_nonneg k0] at this
    unfold hundredths
    rw [e _ (by omega) (by omega), e _ (by omega) (by omega)]
    simp
  · have e1 : (((|q| / 4).toNat : ℕ) : ℤ) = |q| / 4 := Int.toNat_of_nonneg (by omega)
    have e2 : (((25 * (|q| % 4)).toNat : ℕ) : ℤ) = 25 * (|q| % 4) := Int.toNat_of_nonneg (by omega)
    push_cast [e1, e2]
    simp

/-- C85: the text that `strftime` makes of an aware datetime with a zone a whole number of hours from UTC, with a format that
ends with `%z`, is read back by `strptime` to the same datetime with the same offset (and the clock as far as the format
mentions it). Missing from the full property: the other offsets; for zero and for the quarters of an hour it is false
(below). -/
theorem C85_round_trip_partial (A : Astro) (hE : TehranEvening A) (hO : NewYearOrder (Cal.init A)) (L : Locale)
    (y m d h mi s us n : ℤ) (i : TzInfo) (k : ℤ) (hz : i.zone.off = 3600000000 * k) (k0 : k ≠ 0) (k1 : |k| ≤ 23)
    (hx : IsDT (Cal.init A) ⟨.short y m d, h, mi, s, us, some i.zone.tz, 0⟩ n) (hy : -1842 ≤ y) (hh : h ≤ 23)
    (ts : List Tok) (hF : RoundTripFormat ts) (hb : Tok.dir 'b' none ∈ ts → m ≠ 15)
    (hj : Tok.dir 'j' none ∈ ts → Convertible (Cal.init A) n) (fresh : ℕ) :
    ∃ text, (Cal.init A).datetimeStrftime L ⟨.short y m d, h, mi, s, us, some i.zone.tz, 0⟩ (some i) (tokText ts ++ "%z".toList) =
        .ok text ∧
      (Cal.init A).strptime text (tokText ts ++ "%z".toList) fresh = some (.ok ⟨.short y m d, keptField ts 'H' h,
        keptField ts 'M' mi, keptField ts 'S' s, keptField ts 'f' us, some ⟨fresh, i.zone.off⟩, 0⟩) := by
  have q1 : |4 * k| = 4 * |k| := by rw [abs_mul]; norm_num
  have hd := dirZ_quarters (q := 4 * k) (by omega) (by omega) false
  simp only [Bool.false_eq_true, if_false] at hd
  have ht := hundredths_text (q := 4 * k) (by omega) (by omega)
  rw [show "%z".toList = ['%', 'z'] by decide]
  refine ⟨_, strftime_zone hE hO L hx hy hh hF, ?_⟩
  rw [offsetSeconds_quarters (q := 4 * k) (by omega) (by omega) (by omega), hd, strptime_zone hE hO hx hy hh hF hb hj fresh ht]
  have e : (if 4 * k < 0 then (-1 : ℤ) else 1) * ((|4 * k| / 4 * 3600 + 25 * (|4 * k| % 4) * 60) * 1000000) = i.zone.off := by
    rw [hz, q1, show 4 * |k| / 4 = |k| by omega, show 4 * |k| % 4 = 0 by omega]
    rcases abs_cases k with ⟨e, h⟩ | ⟨e, h⟩ <;> rw [e] <;> split_ifs <;> omega
  rw [e]
  unfold newZone
  rw [if_neg (by rintro ⟨-, h⟩; omega), if_pos (by rcases abs_cases k with h | h <;> omega)]
  rfl

theorem zone_tail {a b v : Str} {off : ℤ} (ha : Colon a) (hb : Colon b) (h : ZoneText a b v off) :
    5 ≤ v.length ∧ ∀ c ∈ v.tail, c ≠ '+' ∧ c ≠ '-' := by
  obtain ⟨neg, hh, m, us, tail, h0, h1, rfl, ht, -⟩ := h
  have dig : ∀ c, isDig c = true → c ≠ '+' ∧ c ≠ '-' := by
    intro c hc
    constructor <;> rintro rfl <;> revert hc <;> decide
  have two : ∀ n, ∀ c ∈ digitsW 2 n, c ≠ '+' ∧ c ≠ '-' := fun n c hc => dig c (digitsW_isDig _ _ c hc)
  have col : ∀ a, Colon a → ∀ c ∈ a, c ≠ '+' ∧ c ≠ '-' := by
    rintro a (rfl | rfl) c hc
    · simp at hc
    · simp at hc; subst hc; decide
  refine ⟨by simp [digitsW]; omega, fun c hc => ?_⟩
  rw [List.tail_cons] at hc
  simp only [List.mem_append] at hc
  rcases hc with hc | hc | hc | hc
  · exact two _ c hc
  · exact col _ ha c hc
  · exact two _ c hc
  · rcases ht with ⟨rfl, -⟩ | ⟨s, f, fr, -, rfl, -, hf⟩
    · simp at hc
    · simp only [List.mem_append] at hc
      rcases hc with hc | hc | hc
      · exact col _ hb c hc
      · exact two _ c hc
      · rcases hf with ⟨rfl, -⟩ | ⟨k, n, -, -, -, rfl, -⟩
        · simp at hc
        · rcases List.mem_cons.mp hc with rfl | hc
          · decide
          · exact dig c (digitsW_isDig _ _ c hc)

/-- C85: an offset with a quarter or a half hour comes back as another offset, and one with three quarters of an hour makes a
text that is refused. -/
theorem C85_quarters_negation (A : Astro) (hE : TehranEvening A) (hO : NewYearOrder (Cal.init A)) (L : Locale)
    (y m d h mi s us n : ℤ) (i : TzInfo) (q : ℤ) (hz : i.zone.off = 900000000 * q) (q0 : q % 4 ≠ 0) (q1 : |q| ≤ 95)
    (hx : IsDT (Cal.init A) ⟨.short y m d, h, mi, s, us, some i.zone.tz, 0⟩ n) (hy : -1842 ≤ y) (hh : h ≤ 23)
    (ts : List Tok) (hF : RoundTripFormat ts) (hb : Tok.dir 'b' none ∈ ts → m ≠ 15)
    (hj : Tok.dir 'j' none ∈ ts → Convertible (Cal.init A) n) (fresh : ℕ) :
    ∃ text, (Cal.init A).datetimeStrftime L ⟨.short y m d, h, mi, s, us, some i.zone.tz, 0⟩ (some i) (tokText ts ++ "%z".toList) =
        .ok text ∧
      (|q| % 4 = 3 → (Cal.init A).strptime text (tokText ts ++ "%z".toList) fresh = some (.error .value)) ∧
      (|q| % 4 ≠ 3 → ∃ x t, (Cal.init A).strptime text (tokText ts ++ "%z".toList) fresh = some (.ok x) ∧ x.tz = some t ∧
        t.off ≠ i.zone.off) := by
  have qa : 0 ≤ |q| := abs_nonneg q
  have q4 : |q| % 4 ≠ 0 := by rcases abs_cases q with h | h <;> omega
  have hd := dirZ_quarters (q := q) (by omega) q1 false
  simp only [Bool.false_eq_true, if_false] at hd
  rw [show "%z".toList = ['%', 'z'] by decide]
  refine ⟨_, strftime_zone hE hO L hx hy hh hF, ?_, ?_⟩
  · intro h3
    rw [offsetSeconds_quarters hz (by omega) q1, hd]
    unfold Cal.strptime
    rw [compile_toks_z hF.pieces]
    simp only
    generalize outOf (fieldText (tupleOf y m d h mi s n) us) ts = s0
    have key : findRegex (s0 ++ hundredths q false) (piecesOf false ts ++ [.dir 'z']) = .error .value := by
      unfold findRegex
      split
      · rfl
      · rename_i g r hh
        rw [if_neg]
        rintro rfl
        obtain ⟨s1, v, g1, e, -, hv⟩ := pieces_end (matchAll_sound (List.mem_of_mem_head? hh))
        have eh : hundredths q false = (if q < 0 then '-' else '+') :: (digitsW 2 (|q| / 4).toNat ++ ['7', '5']) := by
          unfold hundredths
          rw [h3, show padInt 2 (25 * 3) = ['7', '5'] by decide, show padInt 2 (|q| / 4) = digitsW 2 (|q| / 4).toNat by
            have := padInt_nat (w := 2) (n := (|q| / 4).toNat) (by norm_num) (by norm_num; omega)
            rwa [Int.toNat_of_nonneg (by omega)] at this]
          simp
        rw [eh] at e
        have sg : (if q < 0 then '-' else '+') = '+' ∨ (if q < 0 then '-' else '+') = '-' := by split_ifs <;> simp
        generalize (if q < 0 then '-' else '+') = c at sg e
        rcases hv with rfl | ⟨a, b, off, ha, hb', hv⟩
        · have := congrArg List.getLast? e
          rw [List.getLast?_append_of_ne_nil _ (by simp), List.getLast?_append_of_ne_nil _ (by simp)] at this
          simp [digitsW] at this
        · obtain ⟨hl, ht⟩ := zone_tail ha hb' hv
          rcases List.append_eq_append_iff.mp e with ⟨w, rfl, ew⟩ | ⟨w, rfl, ew⟩
          · have := congrArg List.length ew
            simp [digitsW] at this
            have hw : w = [] := List.length_eq_zero_iff.mp (by omega)
            subst hw
            rw [List.nil_append] at ew
            obtain ⟨neg, h', m', us', tail, -, hm', rfl, -, -⟩ := hv
            simp only [digitsW, List.cons_append, List.nil_append, List.cons.injEq] at ew
            obtain ⟨-, -, -, ew⟩ := ew
            rcases ha with rfl | rfl
            · simp only [List.nil_append, List.cons.injEq] at ew
              have all : ∀ m < 60, '7' ≠ dg (m / 10 ^ 1) := by decide
              exact all m' hm' ew.1
            · simp at ew
          · cases w with
            | nil =>
              rw [List.nil_append] at ew
              obtain ⟨neg, h', m', us', tail, -, hm', rfl, -, -⟩ := hv
              simp only [digitsW, List.cons_append, List.nil_append, List.cons.injEq] at ew
              obtain ⟨-, -, -, ew⟩ := ew
              rcases ha with rfl | rfl
              · simp only [List.nil_append, List.cons.injEq] at ew
                have all : ∀ m < 60, dg (m / 10 ^ 1) ≠ '7' := by decide
                exact all m' hm' ew.1
              · simp at ew
            | cons x w =>
              have := ht c (by rw [ew]; simp)
              rcases sg with rfl | rfl
              · exact this.1 rfl
              · exact this.2 rfl
    rw [key]
    rfl
  · intro h3
    rw [offsetSeconds_quarters hz (by omega) q1, hd, strptime_zone hE hO hx hy hh hF hb hj fresh (hundredths_text q1 h3)]
    have hne : (if q < 0 then (-1 : ℤ) else 1) * ((|q| / 4 * 3600 + 25 * (|q| % 4) * 60) * 1000000) ≠ i.zone.off := by
      rw [hz]
      rcases abs_cases q with ⟨e, h⟩ | ⟨e, h⟩ <;> rw [e] at q4 h3 qa ⊢ <;> split_ifs <;> omega
    generalize hw : (if q < 0 then (-1 : ℤ) else 1) * ((|q| / 4 * 3600 + 25 * (|q| % 4) * 60) * 1000000) = off at hne
    unfold newZone
    rw [if_neg (by
      rintro ⟨-, h⟩
      rw [h] at hw
      split_ifs at hw <;> omega), if_pos (by split_ifs at hw <;> omega)]
    exact ⟨_, _, rfl, rfl, hne⟩

/-! ## Zero -/

/-- A sign or the letter Z, in the sense of the match without case. -/
def isMark (c : Char) : Bool := lowerC c == '+' || lowerC c == '-' || lowerC c == 'z'

theorem space_mark {c : Char} (h : isSpaceC c = true) : isMark c = false := by
  unfold isSpaceC at h
  simp only [Bool.or_eq_true, Bool.and_eq_true, beq_iff_eq, decide_eq_true_eq] at h
  have hn : c.toNat ≤ 32 := by
    rcases h with (rfl | h) | h
    · decide
    · omega
    · omega
  have e : lowerC c = c := by
    unfold lowerC
    simp only
    rw [if_neg (by omega), if_neg (by omega)]
  unfold isMark
  rw [e]
  have h1 : c ≠ '+' := by rintro rfl; revert hn; decide
  have h2 : c ≠ '-' := by rintro rfl; revert hn; decide
  have h3 : c ≠ 'z' := by rintro rfl; revert hn; decide
  simp [h1, h2, h3]

theorem digit_mark {c : Char} (h : isDig c = true) : isMark c = false := by
  unfold isDig at h
  simp only [Bool.and_eq_true, decide_eq_true_eq] at h
  have hn : 48 ≤ c.toNat ∧ c.toNat ≤ 57 := h
  have e : lowerC c = c := by
    unfold lowerC
    simp only
    rw [if_neg (by omega), if_neg (by omega)]
  unfold isMark
  rw [e]
  have h1 : c ≠ '+' := by rintro rfl; revert hn; decide
  have h2 : c ≠ '-' := by rintro rfl; revert hn; decide
  have h3 : c ≠ 'z' := by rintro rfl; revert hn; decide
  simp [h1, h2, h3]

/-- The number of pieces that are marks. -/
def litMarks (ps : List Piece) : ℕ := ps.countP (fun p => match p with | .lit c => isMark c | _ => false)

theorem match_marks {ps : List Piece} {s : Str} {g : List (Char × Str)} (h : PiecesMatch (ps ++ [.dir 'z']) s g) :
    litMarks ps + 1 ≤ s.countP isMark := by
  induction ps generalizing s g with
  | nil =>
    cases h with
    | dir hd hn =>
      cases hn
      rw [List.append_nil]
      rcases hd with rfl | ⟨a, b, off, -, -, neg, h, m, us, tail, -, -, rfl, -⟩
      · decide
      · rw [List.countP_cons_of_pos (by cases neg <;> decide)]
        change 0 + 1 ≤ _
        omega
  | cons p ps ih =>
    cases h with
    | lit hx hn =>
      have := ih hn
      unfold litMarks at this ⊢
      rw [List.countP_cons, List.countP_cons]
      simp only
      unfold isMark at this ⊢
      rw [hx]
      omega
    | space ha hb hn =>
      have := ih hn
      unfold litMarks at this ⊢
      rw [List.countP_cons_of_neg (by simp), List.countP_append]
      omega
    | dir hd' hn =>
      have := ih hn
      unfold litMarks at this ⊢
      rw [List.countP_cons_of_neg (by simp), List.countP_append]
      omega

theorem out_marks {val : Char → Str} {ts : List Tok} (h : ∀ c m, Tok.dir c m ∈ ts → ∀ x ∈ val c, isDig x = true) :
    ∀ b, (outOf val ts).countP isMark = litMarks (piecesOf b ts) := by
  induction ts with
  | nil => intro b; rfl
  | cons t ts ih =>
    intro b
    have ih := ih (fun c m hc => h c m (List.mem_cons_of_mem _ hc))
    cases t with
    | lit c =>
      simp only [outOf, piecesOf]
      by_cases hc : isSpaceC c = true
      · rw [if_pos hc, List.countP_cons_of_neg (by rw [space_mark hc]; simp), ih true]
        split_ifs
        · rfl
        · unfold litMarks
          rw [List.countP_cons]
          rfl
      · rw [if_neg hc, List.countP_cons, ih false]
        unfold litMarks
        rw [List.countP_cons]
    | dir c m =>
      simp only [outOf, piecesOf]
      rw [List.countP_append, ih false, List.countP_eq_zero.mpr (by
        intro x hx
        rw [digit_mark (h c m List.mem_cons_self x hx)]
        simp)]
      unfold litMarks
      rw [List.countP_cons]
      simp

/-- C85: an aware datetime of UTC makes a text without offset, which the same format refuses with ValueError. Here the
directives are those with digits, and the year is not negative. -/
theorem C85_zero_negation (A : Astro) (hE : TehranEvening A) (hO : NewYearOrder (Cal.init A)) (L : Locale)
    (y m d h mi s us n : ℤ) (i : TzInfo) (hz : i.zone.off = 0)
    (hx : IsDT (Cal.init A) ⟨.short y m d, h, mi, s, us, some i.zone.tz, 0⟩ n) (hy : 0 ≤ y) (hh : h ≤ 23)
    (ts : List Tok) (hF : RoundTripFormat ts) (hN : ∀ c m, Tok.dir c m ∈ ts → c ∈ "YmdHMSfj".toList) (fresh : ℕ) :
    ∃ text, (Cal.init A).datetimeStrftime L ⟨.short y m d, h, mi, s, us, some i.zone.tz, 0⟩ (some i) (tokText ts ++ "%z".toList) =
        .ok text ∧
      (Cal.init A).strptime text (tokText ts ++ "%z".toList) fresh = some (.error .value) := by
  rw [show "%z".toList = ['%', 'z'] by decide]
  refine ⟨_, strftime_zone hE hO L hx (by omega) hh hF, ?_⟩
  rw [show offsetSeconds (some i) = none by unfold offsetSeconds; simp [hz], show dirZ none none = [] from rfl, List.append_nil]
  obtain ⟨⟨-, hy', hm, hd, hH, hmi, hs, hw, hyd, hus⟩, -⟩ := tupleOf_ok hE hO hx (by omega) hh
  unfold Cal.strptime
  rw [compile_toks_z hF.pieces]
  simp only
  have key : findRegex (outOf (fieldText (tupleOf y m d h mi s n) us) ts) (piecesOf false ts ++ [.dir 'z']) = .error .value := by
    unfold findRegex
    split
    · rfl
    · rename_i g r hh
      rw [if_neg]
      rintro rfl
      have hmm := match_marks (matchAll_sound (List.mem_of_mem_head? hh))
      rw [out_marks (b := false)] at hmm
      · omega
      · intro c m' hc
        have num : ∀ (w : ℕ) (k : ℤ), 0 < w → 0 ≤ k → k.toNat < 10 ^ w → ∀ x ∈ padInt w k, isDig x = true := by
          intro w k hw h0 h1
          have := padInt_nat (w := w) (n := k.toNat) hw h1
          rw [Int.toNat_of_nonneg h0] at this
          rw [this]
          exact digitsW_isDig _ _
        have hc' : c = 'Y' ∨ c = 'm' ∨ c = 'd' ∨ c = 'H' ∨ c = 'M' ∨ c = 'S' ∨ c = 'f' ∨ c = 'j' := by
          simpa using hN c m' hc
        rcases hc' with rfl | rfl | rfl | rfl | rfl | rfl | rfl | rfl
        · change ∀ x ∈ signedYear y, isDig x = true
          rw [signedYear_eq (by omega) hy'.2, if_neg (by simpa using hy), List.nil_append]
          exact digitsW_isDig _ _
        · exact num 2 m (by norm_num) hm.1 (by have := hm.2; norm_num; simp only at this; omega)
        · exact num 2 d (by norm_num) (by have := hd.1; simp only at this; omega) (by have := hd.2; norm_num; simp only at this; omega)
        · exact num 2 h (by norm_num) hH.1 (by have := hH.2; norm_num; simp only at this; omega)
        · exact num 2 mi (by norm_num) hmi.1 (by have := hmi.2; norm_num; simp only at this; omega)
        · exact num 2 s (by norm_num) hs.1 (by have := hs.2; norm_num; simp only at this; omega)
        · exact num 6 us (by norm_num) hus.1 (by have := hus.2; norm_num; omega)
        · exact num 3 (n - ysInt y + 1) (by norm_num) (by have := hyd.1; simp only at this; omega)
            (by have := hyd.2; norm_num; simp only at this; omega)
  rw [key]
  rfl

/-- Five hours, five and a half hours, five and three quarters of an hour, and nothing east of UTC, with the format of digits
only. -/
example : RoundTripFormat isoLike ∧ (∀ c m, Tok.dir c m ∈ isoLike → c ∈ "YmdHMSfj".toList) ∧
    (∀ t, IsDT (Cal.init newYearSun) ⟨.short 182 0 5, 23, 30, 0, 250000, t, 0⟩ 739675) ∧
    (⟨1, 18000000000, none⟩ : Zone).off = 3600000000 * 5 ∧ (⟨1, 19800000000, none⟩ : Zone).off = 900000000 * 22 ∧
    (⟨1, 20700000000, none⟩ : Zone).off = 900000000 * 23 ∧ (|23| : ℤ) % 4 = 3 ∧ utcZone.off = 0 := by
  refine ⟨zone_format, ?_, fun t => ⟨witness_days.1, ?_⟩, by norm_num, by norm_num, by norm_num, by decide, rfl⟩
  · intro c m h
    simp only [isoLike, List.mem_cons, Tok.dir.injEq, reduceCtorEq, List.not_mem_nil, or_false, false_or] at h
    rcases h with ⟨rfl, -⟩ | ⟨rfl, -⟩ | ⟨rfl, -⟩ | ⟨rfl, -⟩ | ⟨rfl, -⟩ | ⟨rfl, -⟩ | ⟨rfl, -⟩ <;> decide
  · constructor <;> simp [DT.timetz]

/-! ## The colons -/

/-- The only exception is ValueError. -/
def OnlyValue {α : Type} (r : Py α) : Prop := ∀ e, r = .error e → e = .value

theorem onlyValue_map {α β : Type} {r : Py α} {f : α → β} (h : OnlyValue r) : OnlyValue (r.map f) := by
  intro e he
  cases r with
  | ok a => cases he
  | error e' => injection he with he; exact h e (by rw [he])

theorem onlyValue_bind {α β : Type} {r : Py α} {f : α → Py β} (h : OnlyValue r) (hf : ∀ a, OnlyValue (f a)) : OnlyValue (r >>= f) := by
  intro e he
  cases r with
  | ok a => exact hf a e he
  | error e' => injection he with he; exact h e (by rw [he])

theorem onlyValue_ok {α : Type} (a : α) : OnlyValue (.ok a : Py α) := by
  intro e he
  cases he

theorem onlyValue_intDigits (s : Str) : OnlyValue (intOfDigits s) := by
  intro e he
  unfold intOfDigits at he
  split at he
  · cases he
  · injection he with he
    exact he.symm

theorem onlyValue_int (s : Str) : OnlyValue (intOf s) := by
  unfold intOf
  split
  · exact onlyValue_bind (onlyValue_intDigits _) (fun n => onlyValue_ok _)
  · exact onlyValue_intDigits _
  · exact onlyValue_intDigits _

theorem onlyValue_name (names : List String) (s : Str) : OnlyValue (nameIndex names s) := by
  intro e he
  unfold nameIndex at he
  split at he
  · cases he
  · injection he with he; exact he.symm

theorem onlyValue_digits (z : Str) : OnlyValue (zoneDigits z) := by
  intro e he
  unfold zoneDigits at he
  simp only at he
  split_ifs at he
  injection he with he
  exact he.symm

theorem onlyValue_offset (z : Str) : OnlyValue (parseOffset z) := by
  unfold parseOffset
  split_ifs
  · exact onlyValue_ok _
  · refine onlyValue_bind (onlyValue_digits _) (fun z => ?_)
    refine onlyValue_bind (onlyValue_int _) (fun h => ?_)
    refine onlyValue_bind (onlyValue_int _) (fun m => ?_)
    refine onlyValue_bind ?_ (fun s => ?_)
    · split_ifs
      · exact onlyValue_ok _
      · exact onlyValue_int _
    · exact onlyValue_bind (onlyValue_int _) (fun f => onlyValue_ok _)

theorem onlyValue_group (f : Found) (g : Char × Str) : OnlyValue (setGroup f g) := by
  unfold setGroup
  split <;> first | exact onlyValue_map (onlyValue_int _) | exact onlyValue_map (onlyValue_name _ _) |
    exact onlyValue_map (onlyValue_offset _) | exact onlyValue_ok _

theorem onlyValue_fold (gs : List (Char × Str)) : ∀ f, OnlyValue (gs.foldlM setGroup f) := by
  induction gs with
  | nil => intro f; exact onlyValue_ok _
  | cons g gs ih =>
    intro f
    rw [List.foldlM_cons]
    exact onlyValue_bind (onlyValue_group _ _) ih

theorem colons_apart {a b v : Str} {off n : ℤ} (ha : Colon a) (hb : Colon b) (hab : a ≠ b) (hl : 7 ≤ v.length)
    (h : ZoneText a b v off) : ¬ OffsetText v n := by
  obtain ⟨neg, h', m, us, tail, -, -, rfl, ht, -⟩ := h
  rcases ht with ⟨rfl, -⟩ | ⟨s, f, fr, -, rfl, -, -⟩
  · rcases ha with rfl | rfl <;> simp [digitsW] at hl
  · rintro (⟨e, -⟩ | ⟨c, hc, neg', h2, m2, us2, tail2, -, -, e, ht2, -⟩)
    · have := congrArg List.length e
      simp [digitsW] at this
    · simp only [digitsW, List.cons_append, List.nil_append, List.cons.injEq] at e
      obtain ⟨-, -, -, e⟩ := e
      rcases ht2 with ⟨rfl, -⟩ | ⟨s2, f2, fr2, -, rfl, -, -⟩
      · have := congrArg List.length e
        rcases ha with rfl | rfl <;> rcases hc with rfl | rfl <;> (simp at this; try omega)
      · rcases ha with rfl | rfl <;> rcases hc with rfl | rfl <;> rcases hb with rfl | rfl <;>
          simp only [digitsW, List.cons_append, List.nil_append, List.cons.injEq] at e
        · exact hab rfl
        · exact dg_colon _ e.2.2.1.symm
        · exact hab rfl
        · exact dg_colon _ e.1
        · exact dg_colon _ e.1.symm
        · exact hab rfl
        · exact dg_colon _ e.2.2.2.1
        · exact hab rfl

/-- C85: an offset with seconds that has a colon in one place and none in the other is refused with ValueError by every format
that ends with `%z`. -/
theorem C85_colons (C : Cal) (ts : List Tok) (h : ∀ t ∈ ts, t.Readable) (fresh : ℕ) (text v a b : Str) (off : ℤ)
    (ha : Colon a) (hb : Colon b) (hab : a ≠ b) (hl : 7 ≤ v.length) (hv : ZoneText a b v off) :
    C.strptime (text ++ v) (tokText ts ++ "%z".toList) fresh = some (.error .value) := by
  rw [show "%z".toList = ['%', 'z'] by decide]
  unfold Cal.strptime
  rw [compile_toks_z h]
  simp only
  have key : OnlyValue (findRegex (text ++ v) (piecesOf false ts ++ [.dir 'z'])) := by
    intro e he
    unfold findRegex at he
    split at he
    · injection he with he; exact he.symm
    · split_ifs at he
      injection he with he; exact he.symm
  cases hg : findRegex (text ++ v) (piecesOf false ts ++ [.dir 'z']) with
  | error e => rw [key e hg]; rfl
  | ok g =>
    rw [pyOk_bind]
    obtain ⟨s1, v', g1, e, rfl, hd⟩ : ∃ s1 v' g1, text ++ v = s1 ++ v' ∧ g = g1 ++ [('z', v')] ∧ DirText 'z' v' := by
      unfold findRegex at hg
      split at hg
      · cases hg
      · rename_i g' r hh
        split_ifs at hg with hr
        injection hg with hg
        subst hg hr
        exact pieces_end (matchAll_sound (List.mem_of_mem_head? hh))
    have sg : ∃ c t, v = c :: t ∧ (c = '+' ∨ c = '-') := by
      obtain ⟨neg, h', m, us, tail, -, -, rfl, -, -⟩ := hv
      exact ⟨_, _, rfl, by cases neg <;> simp⟩
    obtain ⟨c, t, ec, sg⟩ := sg
    have hv' := hv
    have hvt := (zone_tail ha hb hv).2
    have : v' = v := by
      rcases hd with rfl | ⟨a', b', off', ha', hb', hz⟩
      · exfalso
        have hZ : 'Z' ∈ v := by
          have := congrArg List.getLast? e
          rw [List.getLast?_append_of_ne_nil _ (by rw [ec]; simp), List.getLast?_append_of_ne_nil _ (by simp)] at this
          exact List.mem_of_getLast? this
        have nz : 'Z' ∉ v := by
          have dig : ∀ w n, 'Z' ∉ digitsW w n := fun w n hc => absurd (digitsW_isDig _ _ _ hc) (by decide)
          have col : ∀ a, Colon a → 'Z' ∉ a := by
            rintro a (rfl | rfl) <;> decide
          obtain ⟨neg, h', m, us, tail, -, -, rfl, ht, -⟩ := hv
          have nt : 'Z' ∉ tail := by
            rcases ht with ⟨rfl, -⟩ | ⟨s, f, fr, -, rfl, -, hf⟩
            · simp
            · have nf : 'Z' ∉ fr := by
                rcases hf with ⟨rfl, -⟩ | ⟨k, n, -, -, -, rfl, -⟩
                · simp
                · simp [dig]
              simp [dig, col b hb, nf]
          cases neg <;> simp [dig, col a ha, nt]
        exact nz hZ
      · obtain ⟨hl', ht'⟩ := zone_tail ha' hb' hz
        have sg' : ∃ c t, v' = c :: t ∧ (c = '+' ∨ c = '-') := by
          obtain ⟨neg, h', m, us, tail, -, -, rfl, -, -⟩ := hz
          exact ⟨_, _, rfl, by cases neg <;> simp⟩
        obtain ⟨c', t', ec', sg'⟩ := sg'
        rcases List.append_eq_append_iff.mp e with ⟨w, rfl, ew⟩ | ⟨w, rfl, ew⟩
        · cases w with
          | nil => exact ew.symm
          | cons x w =>
            have := hvt c' (by rw [ew, ec']; simp)
            rcases sg' with rfl | rfl
            · exact absurd rfl this.1
            · exact absurd rfl this.2
        · cases w with
          | nil => exact ew
          | cons x w =>
            have := ht' c (by rw [ew, ec]; simp)
            rcases sg with rfl | rfl
            · exact absurd rfl this.1
            · exact absurd rfl this.2
    subst this
    unfold Cal.strptimeFound
    have hp : parseFound (g1 ++ [('z', v')]) = .error .value := by
      cases hpf : parseFound (g1 ++ [('z', v')]) with
      | error e' => rw [onlyValue_fold _ _ e' hpf]
      | ok f =>
        exfalso
        unfold parseFound at hpf
        rw [List.foldlM_append] at hpf
        cases h1 : g1.foldlM setGroup { ampm := ampmOf (g1 ++ [('z', v')]) } with
        | error e' => rw [h1] at hpf; cases hpf
        | ok f1 =>
          rw [h1, pyOk_bind, List.foldlM_cons] at hpf
          cases hz : parseOffset v' with
          | error e' =>
            rw [show setGroup f1 ('z', v') = (parseOffset v').map (fun n => { f1 with gmtoff := some n }) from rfl, hz] at hpf
            cases hpf
          | ok n => exact colons_apart ha hb hab hl hv' (parseOffset_inv (Or.inr ⟨a, b, off, ha, hb, hv'⟩) hz)
    rw [hp]
    rfl

/-- A colon in the first place only, and in the second place only. -/
example : ZoneText [':'] [] "+03:3015".toList 12615000000 ∧ ZoneText [] [':'] "+0330:15".toList 12615000000 :=
  ⟨⟨false, 3, 30, 15000000, "15".toList, by omega, by omega, by decide, Or.inr ⟨15, 0, [], by omega, by decide, by omega, Or.inl ⟨rfl, rfl⟩⟩,
    by norm_num⟩,
  ⟨false, 3, 30, 15000000, ":15".toList, by omega, by omega, by decide, Or.inr ⟨15, 0, [], by omega, by decide, by omega, Or.inl ⟨rfl, rfl⟩⟩,
    by norm_num⟩⟩

end Verif
