import Verif.Model.TimeSpec
import Verif.Props.IsoTime

/-!
# C82: `isoformat` with a `timespec`
-/

namespace Verif

/-! ## Specification -/

/-- The resolutions that can be asked for. -/
inductive Resolution
  | hours | minutes | seconds | milliseconds | microseconds

/-- The name of a resolution. -/
def Resolution.name : Resolution → Str
  | hours => "hours".toList
  | minutes => "minutes".toList
  | seconds => "seconds".toList
  | milliseconds => "milliseconds".toList
  | microseconds => "microseconds".toList

/-- How many microseconds make one unit of the resolution. -/
def Resolution.unit : Resolution → ℤ
  | hours => 3600000000
  | minutes => 60000000
  | seconds => 1000000
  | milliseconds => 1000
  | microseconds => 1

/-- How many characters a time of day has. -/
def Resolution.width : Resolution → ℕ
  | hours => 2
  | minutes => 5
  | seconds => 8
  | milliseconds => 12
  | microseconds => 15

/-- `x'` is on the day of `x`, at the last time of day not after that of `x` that is a whole number of units; the fields that the
resolution shows are those of `x`, also in a leap second. -/
structure CutTo (r : Resolution) (x x' : DT) : Prop where
  day : x'.d = x.d
  whole : x'.tod % r.unit = 0
  le : x'.tod ≤ x.tod
  near : x.s < 60 → x.tod < x'.tod + r.unit
  hour : x'.h = x.h
  minute : r.unit ≤ 60000000 → x'.mi = x.mi
  second : r.unit ≤ 1000000 → x'.s = x.s
  fraction : x'.us = x.us - x.us % r.unit

/-! ## Reading the texts -/

/-- The texts with a fraction. -/
def fracText (h mi s w v : ℕ) : Str := digitsW 2 h ++ ':' :: digitsW 2 mi ++ ':' :: digitsW 2 s ++ '.' :: digitsW w v

theorem floatOf_frac {s w v : ℕ} (hs : s < 100) (hv : v < 10 ^ w) :
    floatOf (digitsW 2 s ++ '.' :: digitsW w v) = .ok (fl (((s * 10 ^ w + v : ℕ) : ℚ) / 10 ^ w)) := by
  have hd := digitsW_isDig 2 s
  unfold floatOf
  rw [strip_nospace (by
    intro hc
    rcases List.mem_append.1 hc with hc | hc
    · exact digitsW_not_mem 2 s ' ' rfl hc
    · rcases List.mem_cons.1 hc with hc | hc
      · exact absurd hc (by decide)
      · exact digitsW_not_mem w v ' ' rfl hc)]
  simp only [List.takeWhile_append_of_pos hd, List.dropWhile_append_of_pos hd]
  have hb : isDig '.' = false := rfl
  simp only [List.takeWhile_cons, List.dropWhile_cons, hb,
    Bool.false_eq_true, if_false, List.take_succ_cons, List.take_zero, List.drop_succ_cons, List.drop_zero,
    List.append_nil]
  have hn : natVal (digitsW 2 s ++ digitsW w v) = some (s * 10 ^ w + v) := by
    unfold natVal
    have hne : digitsW 2 s ++ digitsW w v ≠ [] := by simp [digitsW]
    have h6 := natValFrom_digits w v s []
    rw [List.append_nil] at h6
    rw [if_neg hne, natValFrom_digits, Nat.zero_mul, Nat.zero_add,
      Nat.mod_eq_of_lt (show s < 10 ^ 2 by norm_num; exact hs), h6, natValFrom, Nat.mod_eq_of_lt hv]
  rw [if_pos (by simp), hn]
  simp only [digitsW_length]

theorem parseTail_frac {h mi s w v : ℕ} (hh : h < 100) (hmi : mi < 100) (hs : s < 100) (hv : v < 10 ^ w) :
    parseTimeTail ('T' :: fracText h mi s w v) = .ok (some ((h : ℤ), (mi : ℤ), fl (((s * 10 ^ w + v : ℕ) : ℚ) / 10 ^ w))) := by
  have c1 : ('T' :: fracText h mi s w v).count ':' = 2 := by
    unfold fracText
    simp [List.count_append, count_digits _ _ ':' rfl]
  have c2 : ('T' :: fracText h mi s w v).count '.' ≤ 1 := by
    unfold fracText
    simp [List.count_append, count_digits _ _ '.' rfl]
  have c3 : 9 ≤ ('T' :: fracText h mi s w v).length := by
    unfold fracText
    simp [digitsW_length]
    omega
  have s1 : slice ('T' :: fracText h mi s w v) 1 3 = digitsW 2 h := rfl
  have s2 : slice ('T' :: fracText h mi s w v) 3 4 = [':'] := rfl
  have s3 : slice ('T' :: fracText h mi s w v) 6 7 = [':'] := rfl
  have s4 : slice ('T' :: fracText h mi s w v) 8 9 = [dg s] := by
    have : slice ('T' :: fracText h mi s w v) 8 9 = [dg (s / 10 ^ 0)] := rfl
    rw [this]; simp
  have s5 : slice ('T' :: fracText h mi s w v) 4 6 = digitsW 2 mi := rfl
  have s6 : ('T' :: fracText h mi s w v).drop 7 = digitsW 2 s ++ '.' :: digitsW w v := rfl
  unfold parseTimeTail
  generalize 'T' :: fracText h mi s w v = t at *
  simp only [c1]
  rw [pyAssert_true (by norm_num), pyOk_bind, pyAssert_true c2, pyOk_bind, if_pos (by omega), s1,
    intOf_digits (by norm_num) (by norm_num; exact hh), pyOk_bind, if_pos (by omega), s2, if_neg (by decide)]
  simp only [ne_eq, OfNat.ofNat_ne_zero, not_false_eq_true, if_true, Nat.reduceAdd]
  rw [s3, if_neg (by decide), s4, if_neg (by
    intro e; exact dg_ne s '.' rfl (List.cons.inj e).1), if_neg (by omega), if_pos c3, s5,
    intOf_digits (by norm_num) (by norm_num; exact hmi), pyOk_bind, s6, floatOf_frac hs hv, pyOk_bind]

theorem parseTail_hour {h : ℕ} (hh : h < 100) : parseTimeTail ('T' :: digitsW 2 h) = .ok (some ((h : ℤ), 0, 0)) := by
  have c1 : ('T' :: digitsW 2 h).count ':' = 0 := by simp [count_digits _ _ ':' rfl]
  have c2 : ('T' :: digitsW 2 h).count '.' = 0 := by simp [count_digits _ _ '.' rfl]
  have c3 : ('T' :: digitsW 2 h).length = 3 := by simp [digitsW_length]
  have s1 : slice ('T' :: digitsW 2 h) 1 3 = digitsW 2 h := rfl
  unfold parseTimeTail
  generalize 'T' :: digitsW 2 h = t at *
  simp only [c1, c2, c3]
  rw [pyAssert_true (by norm_num), pyOk_bind, pyAssert_true (by norm_num), pyOk_bind, if_pos (by norm_num), s1,
    intOf_digits (by norm_num) (by norm_num; exact hh), pyOk_bind, if_neg (by norm_num)]

theorem parseTail_minute {h mi : ℕ} (hh : h < 100) (hm : mi < 100) :
    parseTimeTail ('T' :: (digitsW 2 h ++ ':' :: digitsW 2 mi)) = .ok (some ((h : ℤ), (mi : ℤ), 0)) := by
  have c1 : ('T' :: (digitsW 2 h ++ ':' :: digitsW 2 mi)).count ':' = 1 := by
    simp [List.count_append, count_digits _ _ ':' rfl]
  have c2 : ('T' :: (digitsW 2 h ++ ':' :: digitsW 2 mi)).count '.' = 0 := by
    simp [List.count_append, count_digits _ _ '.' rfl]
  have c3 : ('T' :: (digitsW 2 h ++ ':' :: digitsW 2 mi)).length = 6 := by simp [digitsW_length]
  have s1 : slice ('T' :: (digitsW 2 h ++ ':' :: digitsW 2 mi)) 1 3 = digitsW 2 h := rfl
  have s2 : slice ('T' :: (digitsW 2 h ++ ':' :: digitsW 2 mi)) 3 4 = [':'] := rfl
  have s3 : slice ('T' :: (digitsW 2 h ++ ':' :: digitsW 2 mi)) 6 7 = [] := rfl
  have s4 : slice ('T' :: (digitsW 2 h ++ ':' :: digitsW 2 mi)) 8 9 = [] := rfl
  have s5 : slice ('T' :: (digitsW 2 h ++ ':' :: digitsW 2 mi)) 4 6 = digitsW 2 mi := rfl
  unfold parseTimeTail
  generalize 'T' :: (digitsW 2 h ++ ':' :: digitsW 2 mi) = t at *
  simp only [c1, c2, c3]
  rw [pyAssert_true (by norm_num), pyOk_bind, pyAssert_true (by norm_num), pyOk_bind, if_pos (by norm_num), s1,
    intOf_digits (by norm_num) (by norm_num; exact hh), pyOk_bind, if_pos (by norm_num), s2, if_neg (by decide)]
  simp only [ne_eq, one_ne_zero, not_false_eq_true, if_true, Nat.reduceAdd]
  rw [s3, if_neg (by decide), s4, if_neg (by decide), s5, intOf_digits (by norm_num) (by norm_num; exact hm)]
  rfl

/-- Only digits, colons and points. -/
def ClockChars (T : Str) : Prop := ∀ c ∈ T, isDig c = true ∨ c = ':' ∨ c = '.'

theorem ClockChars.digits (w n : ℕ) : ClockChars (digitsW w n) := fun c hc => Or.inl (digitsW_isDig w n c hc)

theorem ClockChars.append {S T : Str} (h : ClockChars S) (h' : ClockChars T) : ClockChars (S ++ T) := by
  intro c hc
  rcases List.mem_append.1 hc with hc | hc
  · exact h c hc
  · exact h' c hc

theorem ClockChars.cons {c : Char} {T : Str} (hc : isDig c = true ∨ c = ':' ∨ c = '.') (h : ClockChars T) : ClockChars (c :: T) := by
  intro x hx
  rcases List.mem_cons.1 hx with rfl | hx
  · exact hc
  · exact h x hx

theorem ClockChars.not_mem {T : Str} (h : ClockChars T) {c : Char} (h0 : isDig c = false) (h1 : c ≠ ':') (h2 : c ≠ '.') : c ∉ T := by
  intro hc
  rcases h c hc with h | h | h
  · rw [h0] at h; exact Bool.noConfusion h
  · exact h1 h
  · exact h2 h

theorem parseTime_chars {T : Str} {sep : Char} (hsep : sep = 'T' ∨ sep = ' ') (hT : ClockChars T) {r : ℤ × ℤ × ℚ}
    (key : parseTimeTail ('T' :: T) = .ok (some r)) : parseTime (sep :: T) = .ok (some r) := by
  have a : T.any (fun c => !isDig c && c ≠ 'T' && c ≠ ' ' && c ≠ ':' && c ≠ '.') = false := by
    rw [List.any_eq_false]
    intro c hc
    rcases hT c hc with h | rfl | rfl
    · simp [h]
    · decide
    · decide
  have n1 : T.count 'T' = 0 := List.count_eq_zero.2 (hT.not_mem rfl (by decide) (by decide))
  have n2 : T.count ' ' = 0 := List.count_eq_zero.2 (hT.not_mem rfl (by decide) (by decide))
  unfold parseTime
  rw [List.any_cons, a]
  rcases hsep with rfl | rfl
  · rw [if_neg (by decide)]
    simp only [List.count_cons, n1, n2]
    rw [pyAssert_true (by decide), pyOk_bind]
    simp [key]
  · rw [if_neg (by decide)]
    simp only [List.count_cons, n1, n2]
    rw [pyAssert_true (by decide), pyOk_bind]
    simp [key]

theorem parseAll_chars (C : Cal) (fresh : ℕ) {D o T : Str} {sep : Char} (hsep : sep = 'T' ∨ sep = ' ')
    (hD : D ≠ []) (h1 : 'T' ∉ D) (ho : OffChars o) (hT : ClockChars T) {r : ℤ × ℤ × ℚ}
    (hr : parseTimeTail ('T' :: T) = .ok (some r)) :
    C.parseAll fresh (D ++ sep :: T ++ o) = (do
      let d ← C.parseDate D
      let z ← readZone fresh o
      .ok (d, some r, z)) := by
  have nc : ∀ x ∈ ['T', ' ', 'Z', 'B', '+', '-'], x ∉ T := by
    intro x hx
    have hd : isDig x = false ∧ x ≠ ':' ∧ x ≠ '.' := by
      simp only [List.mem_cons, List.not_mem_nil, or_false] at hx
      rcases hx with rfl | rfl | rfl | rfl | rfl | rfl <;> decide
    exact hT.not_mem hd.1 hd.2.1 hd.2.2
  have e : D ++ sep :: T ++ o = D ++ sep :: (T ++ o) := by simp
  have f1 := findIndex_sep (D := D) (R := T ++ o) hsep h1
    (by
      intro hm
      rcases List.mem_append.1 hm with hm | hm
      · exact nc _ (by simp) hm
      · exact offChars_no ho (by simp) hm)
    (by
      intro hm
      rcases List.mem_append.1 hm with hm | hm
      · exact nc _ (by simp) hm
      · exact offChars_no ho (by simp) hm)
  have f2 := findIndex_off (T := sep :: T) (o := o) (by
    intro x hx hm
    rcases List.mem_cons.1 hm with hm | hm
    · subst hm
      rcases hsep with rfl | rfl <;> revert hx <;> decide
    · refine nc x ?_ hm
      simp only [List.mem_cons, List.not_mem_nil, or_false] at hx ⊢
      tauto) ho
  have key : parseOther fresh (sep :: (T ++ o)) = (do
      let z ← readZone fresh o
      .ok (some r, z)) := by
    unfold parseOther
    simp only
    rw [if_neg (by rcases hsep with rfl | rfl <;> decide)]
    rw [List.cons_append] at f2
    rw [f2]
    have t1 : (sep :: (T ++ o)).take (sep :: T).length = sep :: T := by
      rw [← List.cons_append]; exact List.take_left
    have t2 : (sep :: (T ++ o)).drop (sep :: T).length = o := by
      rw [← List.cons_append]; exact List.drop_left
    rw [t1, t2]
    rw [if_neg (by simp), parseTime_chars hsep hT hr, pyOk_bind]
    unfold readZone
    split_ifs <;> rfl
  unfold Cal.parseAll
  rw [e, f1]
  simp only [List.take_left, List.drop_left, if_neg hD, key]
  cases C.parseDate D with
  | error e => rfl
  | ok d =>
    rw [pyOk_bind, pyOk_bind]
    cases readZone fresh o with
    | error e => rfl
    | ok z => rfl

/-- The text of a time at a resolution, and what is read from it. -/
theorem spec_text (r : Resolution) {h mi s us : ℕ} (hh : h ≤ 24) (hmi : mi ≤ 59) (hs : s ≤ 60) (hu : us < 1000000) :
    ∃ (T : Str) (mi' s' us' : ℕ), formatTimeSpec h mi s us r.name = .ok T ∧ T.length = r.width ∧ ClockChars T ∧
      parseTimeTail ('T' :: T) = .ok (some ((h : ℤ), (mi' : ℤ), fl (((s' * 1000000 + us' : ℕ) : ℚ) / 10 ^ 6))) ∧ mi' ≤ 59 ∧ s' ≤ 60 ∧
      us' < 1000000 ∧ (mi', s', us') = (match r with
        | .hours => (0, 0, 0)
        | .minutes => (mi, 0, 0)
        | .seconds => (mi, s, 0)
        | .milliseconds => (mi, s, us / 1000 * 1000)
        | .microseconds => (mi, s, us)) := by
  have p1 : padInt 2 (h : ℤ) = digitsW 2 h := padInt_nat (by norm_num) (by norm_num; omega)
  have p2 : padInt 2 (mi : ℤ) = digitsW 2 mi := padInt_nat (by norm_num) (by norm_num; omega)
  have p3 : padInt 2 (s : ℤ) = digitsW 2 s := padInt_nat (by norm_num) (by norm_num; omega)
  have p4 : padInt 3 ((us : ℤ) / 1000) = digitsW 3 (us / 1000) := by
    rw [show (us : ℤ) / 1000 = ((us / 1000 : ℕ) : ℤ) by push_cast; rfl]
    exact padInt_nat (by norm_num) (by norm_num; omega)
  have p5 : padInt 6 (us : ℤ) = digitsW 6 us := padInt_nat (by norm_num) (by norm_num; exact hu)
  have f0 : (0 : ℚ) = fl (((0 * 1000000 + 0 : ℕ) : ℚ) / 10 ^ 6) := by rw [fl_sec (by norm_num)]; norm_num
  have c := ClockChars.digits
  have col : ∀ {T : Str}, ClockChars T → ClockChars (':' :: T) := fun h => ClockChars.cons (Or.inr (Or.inl rfl)) h
  have pt : ∀ {T : Str}, ClockChars T → ClockChars ('.' :: T) := fun h => ClockChars.cons (Or.inr (Or.inr rfl)) h
  cases r with
  | hours =>
    refine ⟨digitsW 2 h, 0, 0, 0, ?_, digitsW_length _ _, c _ _, ?_, by norm_num, by norm_num, by norm_num, rfl⟩
    · rw [← p1]; rfl
    · rw [parseTail_hour (by omega), ← f0]; rfl
  | minutes =>
    refine ⟨digitsW 2 h ++ ':' :: digitsW 2 mi, mi, 0, 0, ?_, by simp [digitsW_length, Resolution.width], ?_, ?_, hmi, by norm_num,
      by norm_num, rfl⟩
    · rw [← p1, ← p2]; rfl
    · exact (c _ _).append (col (c _ _))
    · rw [parseTail_minute (by omega) (by omega), ← f0]
  | seconds =>
    refine ⟨clockText h mi s 0, mi, s, 0, ?_, by simp [clockText, digitsW_length, Resolution.width], ?_, ?_, hmi, hs,
      by norm_num, rfl⟩
    · have q : clockText h mi s 0 = padInt 2 (h : ℤ) ++ ':' :: padInt 2 (mi : ℤ) ++ ':' :: padInt 2 (s : ℤ) := by
        rw [p1, p2, p3]; simp [clockText]
      rw [q]; rfl
    · simp only [clockText, ne_eq, not_true, if_false, List.append_nil]
      exact ((c _ _).append (col (c _ _))).append (col (c _ _))
    · exact parseTail_clock (by omega) (by omega) (by omega) (by norm_num)
  | milliseconds =>
    refine ⟨fracText h mi s 3 (us / 1000), mi, s, us / 1000 * 1000, ?_, by simp [fracText, digitsW_length, Resolution.width], ?_,
      ?_, hmi, hs, by omega, rfl⟩
    · unfold fracText
      rw [← p1, ← p2, ← p3, ← p4]; rfl
    · exact (((c _ _).append (col (c _ _))).append (col (c _ _))).append (pt (c _ _))
    · rw [parseTail_frac (by omega) (by omega) (by omega) (by norm_num; omega)]
      have q : ((s * 10 ^ 3 + us / 1000 : ℕ) : ℚ) / 10 ^ 3 = ((s * 1000000 + us / 1000 * 1000 : ℕ) : ℚ) / 10 ^ 6 := by
        generalize us / 1000 = k
        push_cast
        ring
      rw [q]
  | microseconds =>
    refine ⟨fracText h mi s 6 us, mi, s, us, ?_, by simp [fracText, digitsW_length, Resolution.width], ?_, ?_, hmi, hs, hu, rfl⟩
    · unfold fracText
      rw [← p1, ← p2, ← p3, ← p5]; rfl
    · exact (((c _ _).append (col (c _ _))).append (col (c _ _))).append (pt (c _ _))
    · rw [parseTail_frac (by omega) (by omega) (by omega) (by norm_num; omega)]
      have q : s * 10 ^ 6 + us = s * 1000000 + us := by norm_num
      rw [q]

/-- What comes back for the text of a datetime at a resolution. -/
theorem dt_spec_text (C : Cal) (fresh : ℕ) {x : DT} (r : Resolution) {sep : Char} (hsep : sep = 'T' ∨ sep = ' ')
    {y m d : ℤ} (hx : x.d.ymd = (y, m, d)) (h0 : -1842 ≤ y) (h1 : y ≤ 1161) (hy : 0 ≤ y ∨ y ≤ -1000)
    (m0 : 0 ≤ m) (m1 : m < 100) (d0 : 0 ≤ d) (d1 : d < 100) (ht : ValidTime x.timetz) (hz : PlainZone x.tz) :
    ∃ (z : Option Tz) (mi' s' us' : ℕ), SameOffset x.tz z ∧ (dtIsoSpec x sep r.name >>= fun s => C.dtFromIso fresh s) =
      (C.newDate (.short y m d)).map (fun _ => ⟨.short y m d, x.h, mi', s', readMicro us', z, 0⟩) ∧ us' < 1000000 ∧
      (mi', s', us') = (match r with
        | .hours => (0, 0, 0)
        | .minutes => (x.mi.toNat, 0, 0)
        | .seconds => (x.mi.toNat, x.s.toNat, 0)
        | .milliseconds => (x.mi.toNat, x.s.toNat, x.us.toNat / 1000 * 1000)
        | .microseconds => (x.mi.toNat, x.s.toNat, x.us.toNat)) := by
  obtain ⟨o, z, e1, e2, e3, e4⟩ := readZone_plain fresh hz
  obtain ⟨xd, xh, xmi, xs, xus, xtz, xf⟩ := x
  obtain ⟨a0, a1, b0, b1, c0, c1, u0, u1, -⟩ := ht
  simp only [DT.timetz] at *
  lift xh to ℕ using a0
  lift xmi to ℕ using b0
  lift xs to ℕ using c0
  lift xus to ℕ using u0
  obtain ⟨T, mi', s', us', t1, -, t3, t4, t5, t6, t7, t8⟩ :=
    spec_text r (h := xh) (mi := xmi) (s := xs) (us := xus) (by omega) (by omega) (by omega) (by omega)
  refine ⟨z.map Zone.tz, mi', s', us', e4, ?_, t7, ?_⟩
  · obtain ⟨p1, p2, p3⟩ := date_text C h0 h1 hy m0 m1 d0 d1
    unfold dtIsoSpec
    simp only [hx]
    rw [t1, pyOk_bind, e1, pyOk_bind, pyOk_bind]
    unfold Cal.dtFromIso
    rw [parseAll_chars C fresh hsep p2 p3 e3 t3 t4, p1, pyOk_bind, e2, pyOk_bind, pyOk_bind]
    simp only [Option.getD_some]
    rw [newDTFrac_read C _ (by omega) t5 t6 t7]
  · simpa using t8

/-- C82 for datetimes of the short form: the text written with a `timespec` is read back as the datetime cut to that resolution, in
the same zone. Missing from the full property: microseconds that are not whole milliseconds at the finest resolution, where it is
false (`C82_micro_negation`), and what C20 excludes: negative offsets with minutes, the years -999 to -1 and the long form. -/
theorem C82_round_trip_partial (A : Astro) (hE : TehranEvening A) (fresh : ℕ) (x : DT) (n y m d : ℤ) (sep : Char) (r : Resolution)
    (hx : IsDT (Cal.init A) x n) (hd : x.d = .short y m d) (h0 : -1842 ≤ y) (hy : 0 ≤ y ∨ y ≤ -1000)
    (hu : r.unit = 1 → x.us % 1000 = 0) (hz : PlainZone x.tz) (hsep : sep = 'T' ∨ sep = ' ') :
    ∃ x', (dtIsoSpec x sep r.name >>= fun s => (Cal.init A).dtFromIso fresh s) = .ok x' ∧ CutTo r x x' ∧
      SameOffset x.tz x'.tz := by
  obtain ⟨hday, ht⟩ := hx
  rw [hd] at hday
  obtain ⟨m0, m1, d0, d1⟩ := md_range hE hday
  have hr := (dayNumber_iff hE).1 hday
  obtain ⟨z, mi', s', us', hz', e, u1, t⟩ := dt_spec_text (Cal.init A) fresh r hsep (x := x) (by rw [hd]; rfl) h0 (by omega) hy m0
    (by omega) (by omega) (by omega) ht hz
  rw [newDate_ok hE (o := .short y m d) hday] at e
  refine ⟨_, e, ?_, hz'⟩
  obtain ⟨a0, a1, b0, b1, c0, c1, v0, v1, -⟩ := ht
  simp only [DT.timetz] at *
  have rm : readMicro us' = us' := by
    apply readMicro_milli u1
    cases r <;> simp only [Prod.mk.injEq] at t <;> obtain ⟨-, -, rfl⟩ := t <;>
      first | omega | (have := hu rfl; omega)
  rw [rm]
  cases r <;> simp only [Prod.mk.injEq] at t <;> obtain ⟨rfl, rfl, rfl⟩ := t <;> constructor <;>
    simp only [hd, DT.tod, Resolution.unit] <;> omega

example : IsDT (Cal.init newYearSun) (witnessDT (some ⟨7, 12600000000⟩) 0) 739675 ∧
    PlainZone (witnessDT (some ⟨7, 12600000000⟩) 0).tz ∧ (witnessDT (some ⟨7, 12600000000⟩) 0).us % 1000 = 0 :=
  ⟨witnessDT_is _ (Or.inl rfl), ⟨⟨by norm_num, by norm_num⟩, by norm_num, Or.inl (by norm_num)⟩, by decide⟩

example : dtIsoSpec (witnessDT (some ⟨7, 12600000000⟩) 0) 'T' "minutes".toList = .ok "0182-00-05T23:30+03:30".toList := by
  decide +kernel

/-- C82 is false at the finest resolution: 249 microseconds come back as 248. -/
theorem C82_micro_negation (A : Astro) (hE : TehranEvening A) (fresh : ℕ) (x : DT) (n y m d : ℤ) (sep : Char)
    (hx : IsDT (Cal.init A) x n) (hd : x.d = .short y m d) (h0 : -1842 ≤ y) (hy : 0 ≤ y ∨ y ≤ -1000)
    (hu : x.us = 249) (hz : PlainZone x.tz) (hsep : sep = 'T' ∨ sep = ' ') :
    ∃ x', (dtIsoSpec x sep "microseconds".toList >>= fun s => (Cal.init A).dtFromIso fresh s) = .ok x' ∧ x'.us = 248 ∧
      ¬ CutTo .microseconds x x' := by
  obtain ⟨hday, ht⟩ := hx
  rw [hd] at hday
  obtain ⟨m0, m1, d0, d1⟩ := md_range hE hday
  have hr := (dayNumber_iff hE).1 hday
  obtain ⟨z, mi', s', us', hz', e, u1, t⟩ := dt_spec_text (Cal.init A) fresh .microseconds hsep (x := x) (by rw [hd]; rfl) h0
    (by omega) hy m0 (by omega) (by omega) (by omega) ht hz
  rw [newDate_ok hE (o := .short y m d) hday] at e
  obtain ⟨a0, a1, b0, b1, c0, c1, v0, v1, -⟩ := ht
  simp only [DT.timetz] at *
  simp only [Prod.mk.injEq] at t
  obtain ⟨rfl, rfl, rfl⟩ := t
  have hm : readMicro x.us.toNat = 248 := by rw [hu]; decide +kernel
  rw [hm] at e
  refine ⟨_, e, rfl, ?_⟩
  intro c
  have := c.fraction
  simp only [Resolution.unit] at this
  omega

/-- C82 for times: the text of a naive time at a resolution has the width of that resolution. -/
theorem C82_width (t : TimeObj) (ht : ValidTime t) (r : Resolution) (hz : t.tz = none) :
    ∃ T, timeIsoSpec t r.name = .ok T ∧ T.length = r.width := by
  obtain ⟨h, mi, s, us, tz, f⟩ := t
  obtain ⟨a0, a1, b0, b1, c0, c1, u0, u1, -⟩ := ht
  simp only at *
  lift h to ℕ using a0
  lift mi to ℕ using b0
  lift s to ℕ using c0
  lift us to ℕ using u0
  obtain ⟨T, mi', s', us', t1, t2, -⟩ :=
    spec_text r (h := h) (mi := mi) (s := s) (us := us) (by omega) (by omega) (by omega) (by omega)
  refine ⟨T, ?_, t2⟩
  unfold timeIsoSpec
  rw [t1, hz]
  simp [utcOffset, formatOffset, pyOk_bind]

example : ValidTime ⟨23, 30, 0, 250000, none, 0⟩ :=
  ⟨by norm_num, by norm_num, by norm_num, by norm_num, by norm_num, by norm_num, by norm_num, by norm_num, Or.inl rfl⟩

/-- C82: `auto` is the resolution of seconds when there are no microseconds and the finest one when there are. -/
theorem C82_auto (x : DT) (t : TimeObj) (sep : Char) :
    dtIsoSpec x sep "auto".toList = dtIsoSpec x sep (if x.us = 0 then Resolution.seconds else .microseconds).name ∧
    timeIsoSpec t "auto".toList = timeIsoSpec t (if t.us = 0 then Resolution.seconds else .microseconds).name := by
  have key : ∀ h mi s us : ℤ, formatTimeSpec h mi s us "auto".toList =
      formatTimeSpec h mi s us (if us = 0 then Resolution.seconds else .microseconds).name := by
    intro h mi s us
    by_cases h0 : us = 0
    · subst h0; rfl
    · rw [if_neg h0]
      unfold formatTimeSpec
      simp only [if_true, ne_eq, h0, not_false_eq_true]
      rfl
  constructor
  · unfold dtIsoSpec; rw [key]
  · unfold timeIsoSpec; rw [key]

/-- C82: `auto` is what `isoformat` writes without a `timespec`, the text of C20. -/
theorem C82_default (x : DT) (t : TimeObj) (sep : Char) :
    dtIsoSpec x sep "auto".toList = dtIso x sep ∧ timeIsoSpec t "auto".toList = timeIso t := by
  have key : ∀ h mi s us : ℤ, formatTimeSpec h mi s us "auto".toList = .ok (formatTime h mi s us) := by
    intro h mi s us
    by_cases h0 : us = 0
    · subst h0
      unfold formatTime
      rw [if_neg (by simp), List.append_nil]
      rfl
    · unfold formatTimeSpec formatTime
      simp only [if_true, ne_eq, h0, not_false_eq_true]
      rfl
  constructor
  · unfold dtIsoSpec dtIso; rw [key]; rfl
  · unfold timeIsoSpec timeIso; rw [key]; rfl

/-- C82: any other name raises ValueError. -/
theorem C82_unknown (x : DT) (t : TimeObj) (sep : Char) (name : Str) (h0 : name ≠ "auto".toList)
    (h : ∀ r : Resolution, name ≠ r.name) : dtIsoSpec x sep name = .error .value ∧ timeIsoSpec t name = .error .value := by
  have key : ∀ h mi s us : ℤ, formatTimeSpec h mi s us name = .error .value := by
    intro _ _ _ _
    unfold formatTimeSpec
    simp only
    rw [if_neg h0, if_neg (show name ≠ "hours".toList from h .hours), if_neg (show name ≠ "minutes".toList from h .minutes),
      if_neg (show name ≠ "seconds".toList from h .seconds), if_neg (show name ≠ "milliseconds".toList from h .milliseconds),
      if_neg (show name ≠ "microseconds".toList from h .microseconds)]
  constructor
  · unfold dtIsoSpec; rw [key]; rfl
  · unfold timeIsoSpec; rw [key]; rfl

example : "nanoseconds".toList ≠ "auto".toList ∧ ∀ r : Resolution, "nanoseconds".toList ≠ r.name :=
  ⟨by decide, by intro r; cases r <;> decide⟩

/-- C82 for every microsecond: the text with microseconds reads back as the datetime or as one a microsecond earlier. -/
theorem C82_micro_partial (A : Astro) (hE : TehranEvening A) (fresh : ℕ) (x : DT) (n y m d : ℤ) (sep : Char)
    (hx : IsDT (Cal.init A) x n) (hd : x.d = .short y m d) (h0 : -1842 ≤ y) (hy : 0 ≤ y ∨ y ≤ -1000)
    (hz : PlainZone x.tz) (hsep : sep = 'T' ∨ sep = ' ') :
    ∃ x', (dtIsoSpec x sep "microseconds".toList >>= fun s => (Cal.init A).dtFromIso fresh s) = .ok x' ∧
      (SameFields x x' ∨ SameFields { x with us := x.us - 1 } x') ∧ SameOffset x.tz x'.tz := by
  by_cases hu : x.us = 0
  · obtain ⟨x', e, hc, ho⟩ := C82_round_trip_partial A hE fresh x n y m d sep .microseconds hx hd h0 hy (fun _ => by omega) hz hsep
    have hf := hc.fraction
    simp only [Resolution.unit, Int.emod_one, sub_zero] at hf
    exact ⟨x', e, Or.inl ⟨hc.day.symm, hc.hour.symm, (hc.minute (by simp [Resolution.unit])).symm,
      (hc.second (by simp [Resolution.unit])).symm, hf.symm⟩, ho⟩
  · have e := (C82_auto x x.timetz sep).1
    rw [if_neg hu, (C82_default x x.timetz sep).1] at e
    rw [show "microseconds".toList = Resolution.microseconds.name from rfl, ← e]
    exact C20_micro_partial A hE fresh x n y m d sep hx hd h0 hy hz hsep

example : IsDT (Cal.init newYearSun) { witnessDT (some ⟨7, 12600000000⟩) 0 with us := 123456 } 739675 ∧
    PlainZone (witnessDT (some ⟨7, 12600000000⟩) 0).tz := by
  obtain ⟨h1, h2⟩ := witnessDT_is (some ⟨7, 12600000000⟩) (Or.inl rfl)
  exact ⟨⟨h1, ⟨h2.h0, h2.h1, h2.mi0, h2.mi1, h2.s0, h2.s1, by norm_num [DT.timetz], by norm_num [DT.timetz], h2.fold⟩⟩,
    ⟨⟨by norm_num, by norm_num⟩, by norm_num, Or.inl (by norm_num)⟩⟩

end Verif
