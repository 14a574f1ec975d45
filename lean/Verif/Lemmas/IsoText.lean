import Verif.Model.IsoText
import Verif.Lemmas.Text
import Verif.Lemmas.DateObj
import Verif.Lemmas.Hms
import Mathlib.Tactic.NormNum

/-!
# ISO texts: lemmas
-/

namespace Verif

theorem count_digits (w n : ℕ) (c : Char) (h : isDig c = false) : (digitsW w n).count c = 0 :=
  List.count_eq_zero.2 (digitsW_not_mem w n c h)

theorem any_digits (w n : ℕ) (p : Char → Bool) (h : ∀ c, isDig c = true → p c = false) :
    (digitsW w n).any p = false := by
  rw [List.any_eq_false]
  intro c hc
  rw [h c (digitsW_isDig w n c hc)]
  exact Bool.false_ne_true

/-- The text of a date in the extended form. -/
def extDate (y m d : ℕ) : Str := digitsW 4 y ++ '-' :: digitsW 2 m ++ '-' :: digitsW 2 d

theorem parseTail_ext (C : Cal) (year : ℤ) {y m d : ℕ} (hm : m < 100) (hd : d < 100) :
    C.parseDateTail year (extDate y m d) = .ok (some (year, (m : ℤ), (d : ℤ))) := by
  have e1 : (extDate y m d).count '-' = 2 := by
    simp [extDate, List.count_append, count_digits _ _ '-' rfl]
  have e2 : (extDate y m d).count 'W' = 0 := by
    simp [extDate, List.count_append, count_digits _ _ 'W' rfl]
  have e3 : (extDate y m d).length = 10 := by simp [extDate, digitsW_length]
  have e4 : slice (extDate y m d) 5 7 = digitsW 2 m := rfl
  have e5 : slice (extDate y m d) 8 10 = digitsW 2 d := rfl
  unfold Cal.parseDateTail
  simp only [e1, e2, e3, e4, e5, intOf_digits (w := 2) (by norm_num) (show m < 10 ^ 2 by norm_num; exact hm),
    intOf_digits (w := 2) (by norm_num) (show d < 10 ^ 2 by norm_num; exact hd)]
  rw [pyAssert_true (by norm_num), pyOk_bind]
  norm_num
  rfl

theorem any_ext (y m d : ℕ) :
    (extDate y m d).any (fun c => !isDig c && c ≠ '-' && c ≠ 'W') = false := by
  have h : ∀ c, isDig c = true → (!isDig c && c ≠ '-' && c ≠ 'W') = false := by
    intro c hc; simp [hc]
  simp only [extDate, List.any_append, List.any_cons, any_digits _ _ _ h]
  decide

/-- The extended form of a date with a year of four digits. -/
theorem parseDate_pos (C : Cal) {y m d : ℕ} (hy : y ≤ 1161) (hm : m < 100) (hd : d < 100) :
    C.parseDate (extDate y m d) = .ok (some ((y : ℤ), (m : ℤ), (d : ℤ))) := by
  unfold Cal.parseDate
  rw [any_ext, if_neg Bool.false_ne_true]
  have e : extDate y m d = dg (y / 10 ^ 3) :: (extDate y m d).drop 1 := rfl
  rw [e]
  simp only
  have n : dg (y / 10 ^ 3) ≠ '-' := dg_ne _ _ rfl
  simp only [n, if_false]
  rw [← e]
  have e4 : (extDate y m d).take 4 = digitsW 4 y := rfl
  have e0 : minYear = -1842 := rfl
  have e5 : maxYear = 1161 := rfl
  rw [e4, intOf_digits (by norm_num) (by norm_num; omega), pyOk_bind, pyAssert_true (by omega), pyOk_bind,
    parseTail_ext C _ hm hd]

/-- The extended form of a date with a negative year of four digits. -/
theorem parseDate_neg (C : Cal) {y m d : ℕ} (hy : y ≤ 1842) (hm : m < 100) (hd : d < 100) :
    C.parseDate ('-' :: extDate y m d) = .ok (some (-(y : ℤ), (m : ℤ), (d : ℤ))) := by
  unfold Cal.parseDate
  rw [List.any_cons, any_ext, if_neg (by decide)]
  simp only
  have e4 : ('-' :: extDate y m d).take 5 = '-' :: digitsW 4 y := rfl
  have e0 : minYear = -1842 := rfl
  have e5 : maxYear = 1161 := rfl
  simp only [if_true]
  rw [e4, intOf_neg_digits (by norm_num) (by norm_num; omega), pyOk_bind, pyAssert_true (by omega), pyOk_bind,
    parseTail_ext C _ hm hd]

theorem padNat_log {u w n : ℕ} (hu : u ≤ w + 1) (h0 : 10 ^ w ≤ n) (h1 : n < 10 ^ (w + 1)) :
    padNat u n = digitsW (w + 1) n := by
  have : Nat.log 10 n = w := (Nat.log_eq_iff (Or.inr ⟨by norm_num, by
    have := Nat.pos_of_ne_zero (show 10 ^ w ≠ 0 by positivity); omega⟩)).2 ⟨h0, h1⟩
  unfold padNat
  rw [this, max_eq_right hu]

theorem padInt_nat {w n : ℕ} (hw : 0 < w) (h : n < 10 ^ w) : padInt w (n : ℤ) = digitsW w n := by
  unfold padInt
  rw [if_neg (by omega), Int.toNat_natCast, padNat_eq hw h]

theorem formatDate_pos {y m d : ℕ} (hy : y < 10000) (hm : m < 100) (hd : d < 100) :
    formatDate y m d = extDate y m d := by
  unfold formatDate extDate
  rw [padInt_nat (by norm_num) (by norm_num; exact hy), padInt_nat (by norm_num) (by norm_num; exact hm),
    padInt_nat (by norm_num) (by norm_num; exact hd)]

theorem formatDate_neg {y m d : ℕ} (hy0 : 1000 ≤ y) (hy : y < 10000) (hm : m < 100) (hd : d < 100) :
    formatDate (-(y : ℤ)) m d = '-' :: extDate y m d := by
  unfold formatDate extDate
  rw [padInt_nat (by norm_num) (by norm_num; exact hm), padInt_nat (by norm_num) (by norm_num; exact hd)]
  unfold padInt
  rw [if_pos (by omega), Int.natAbs_neg, Int.natAbs_natCast,
    padNat_log (w := 3) (by norm_num) (by norm_num; exact hy0) (by norm_num; exact hy)]
  rfl

theorem formatDate_small {y m d : ℕ} (hy0 : 1 ≤ y) (hy : y < 1000) (hm : m < 100) (hd : d < 100) :
    formatDate (-(y : ℤ)) m d = '-' :: digitsW 3 y ++ '-' :: digitsW 2 m ++ '-' :: digitsW 2 d := by
  unfold formatDate
  rw [padInt_nat (by norm_num) (by norm_num; exact hm), padInt_nat (by norm_num) (by norm_num; exact hd)]
  unfold padInt
  rw [if_pos (by omega), Int.natAbs_neg, Int.natAbs_natCast, padNat_eq (by norm_num) (by norm_num; exact hy)]

theorem natValFrom_bad {s : Str} (h : ∃ c ∈ s, isDig c = false) (a : ℕ) : natValFrom s a = none := by
  induction s generalizing a with
  | nil => obtain ⟨c, hc, _⟩ := h; simp at hc
  | cons x xs ih =>
    unfold natValFrom
    by_cases hx : isDig x = true
    · rw [if_pos hx]
      refine ih ?_ _
      obtain ⟨c, hc, hf⟩ := h
      rcases List.mem_cons.1 hc with rfl | hc
      · rw [hx] at hf; exact absurd hf (by decide)
      · exact ⟨c, hc, hf⟩
    · rw [if_neg hx]

theorem natVal_bad {s : Str} (h : ∃ c ∈ s, isDig c = false) : natVal s = none := by
  unfold natVal
  split_ifs
  · rfl
  · exact natValFrom_bad h 0

/-- The text of a date with a negative year of less than four digits cannot be read: the year is taken from the
first five characters, and the fifth is the hyphen. -/
theorem parseDate_small (C : Cal) (y m d : ℕ) :
    C.parseDate ('-' :: digitsW 3 y ++ '-' :: digitsW 2 m ++ '-' :: digitsW 2 d) = .error .value := by
  have ha : ('-' :: digitsW 3 y ++ '-' :: digitsW 2 m ++ '-' :: digitsW 2 d).any
      (fun c => !isDig c && c ≠ '-' && c ≠ 'W') = false := by
    have h : ∀ c, isDig c = true → (!isDig c && c ≠ '-' && c ≠ 'W') = false := by
      intro c hc; simp [hc]
    simp only [List.any_append, List.any_cons, any_digits _ _ _ h]
    decide
  unfold Cal.parseDate
  rw [ha, if_neg Bool.false_ne_true]
  simp only [List.cons_append, if_true]
  have e : ('-' :: (digitsW 3 y ++ '-' :: (digitsW 2 m) ++ '-' :: digitsW 2 d)).take 5 =
      '-' :: (digitsW 3 y ++ ['-']) := rfl
  rw [e]
  unfold intOf
  rw [strip_id (by
    intro c hc
    simp only [List.mem_cons, List.mem_append, List.not_mem_nil, or_false] at hc
    rcases hc with rfl | hc | rfl
    · exact Or.inr rfl
    · exact Or.inl (digitsW_isDig 3 y c hc)
    · exact Or.inr rfl)]
  have hb : natVal (digitsW 3 y ++ ['-']) = none := natVal_bad ⟨'-', by simp, rfl⟩
  simp only [intOfDigits, hb]
  rfl

/-- Reading a fraction of a second back: at most one microsecond is lost. -/
theorem partialMicro_read {s u : ℕ} (hs : s ≤ 60) (hu0 : 0 < u) (hu : u < 1000000) :
    let x := fl (((s * 1000000 + u : ℕ) : ℚ) / 10 ^ 6)
    ⌊x⌋ = s ∧ pyMod1 x ≠ 0 ∧ 0 ≤ x ∧ x < 61 ∧
      partialMicro x = pyInt (fl (fl ((u : ℚ) / 1000000) * 1000000)) ∧
      (partialMicro x = u ∨ partialMicro x = u - 1) := by
  intro x
  obtain ⟨f1, f2, f3, f4⟩ := fl_micro (k := ((s * 1000000 + u : ℕ) : ℤ)) (by positivity) (by omega)
  have ex : fl ((((s * 1000000 + u : ℕ) : ℤ) : ℚ) / 1000000) = x := by
    simp only [x]; norm_num
  rw [ex] at f1 f2 f3 f4
  have hfl : ⌊x⌋ = (s : ℤ) := by rw [f1]; omega
  have ey : (((s * 1000000 + u : ℕ) : ℤ) : ℚ) / 1000000 = (s : ℚ) + (u : ℚ) / 1000000 := by
    push_cast; field_simp
  rw [ey] at f3
  have hm : pyMod1 x = x - s := by
    unfold pyMod1; rw [if_pos f2, hfl]; norm_num
  have hu1 : (1 : ℚ) ≤ u := by exact_mod_cast hu0
  have hu2 : (u : ℚ) ≤ 999999 := by exact_mod_cast (show u ≤ 999999 by omega)
  have hs1 : (s : ℚ) ≤ 60 := by exact_mod_cast hs
  have hclose : |(x - s) * 10 ^ 6 - (u : ℤ)| < 1 / 2 := by
    have : (x - s) * 10 ^ 6 - ((u : ℤ) : ℚ) = (x - (s + (u : ℚ) / 1000000)) * 1000000 := by
      push_cast; ring
    rw [this, abs_mul]
    norm_num
    rw [abs_le] at f3
    rw [← lt_div_iff₀ (by norm_num), abs_lt]
    constructor <;> linarith [f3.1, f3.2]
  have hr : pyRound (x - s) 6 = fl ((u : ℚ) / 1000000) := by
    unfold pyRound
    rw [roundHalfEven_of_close hclose]; norm_num
  have hp : partialMicro x = pyInt (fl (fl ((u : ℚ) / 1000000) * 1000000)) := by
    unfold partialMicro; rw [hm, hr]
  rw [abs_le] at f3
  refine ⟨hfl, ?_, f2, by linarith [f3.2], hp, ?_⟩
  · rw [hm]; intro h; linarith [f3.1]
  · obtain ⟨_, g2, g3, _⟩ := fl_micro (k := (u : ℤ)) (by omega) (by omega)
    rw [show ((u : ℤ) : ℚ) = (u : ℚ) by norm_num] at g2 g3
    rw [abs_le] at g3
    have hub : |fl ((u : ℚ) / 1000000) * 1000000| ≤ 1000000 := by
      rw [abs_le]; constructor <;> linarith [g3.1, g3.2]
    have he := fl_err_le hub
    rw [abs_le] at he
    have h0 := fl_nonneg (x := fl ((u : ℚ) / 1000000) * 1000000) (by positivity)
    rw [hp]
    unfold pyInt
    rw [if_pos h0]
    have a1 : (u : ℤ) - 1 ≤ ⌊fl (fl ((u : ℚ) / 1000000) * 1000000)⌋ := by
      rw [Int.le_floor]; push_cast; norm_num at he; linarith [g3.1, he.1]
    have a2 : ⌊fl (fl ((u : ℚ) / 1000000) * 1000000)⌋ < (u : ℤ) + 1 := by
      rw [Int.floor_lt]; push_cast; norm_num at he; linarith [g3.2, he.2]
    omega

/-- Whole milliseconds are read back exactly. -/
theorem milli_exact : ∀ k < 1000, pyInt (fl (fl (((k * 1000 : ℕ) : ℚ) / 1000000) * 1000000)) = ((k * 1000 : ℕ) : ℤ) := by
  decide +kernel

/-! ## Times -/

/-- The text of a time of day after the designator. -/
def clockText (h mi s us : ℕ) : Str :=
  digitsW 2 h ++ ':' :: digitsW 2 mi ++ ':' :: digitsW 2 s ++ (if us ≠ 0 then '.' :: digitsW 6 us else [])

theorem formatTime_eq {h mi s us : ℕ} (h1 : h < 100) (h2 : mi < 100) (h3 : s < 100) (h4 : us < 1000000) :
    formatTime h mi s us = clockText h mi s us := by
  unfold formatTime clockText
  rw [padInt_nat (by norm_num) (by norm_num; exact h1), padInt_nat (by norm_num) (by norm_num; exact h2),
    padInt_nat (by norm_num) (by norm_num; exact h3), padInt_nat (by norm_num) (by norm_num; exact h4)]
  norm_cast

theorem strip_nospace {s : Str} (h : ' ' ∉ s) : strip s = s := by
  have e : ∀ t : Str, ' ' ∉ t → t.dropWhile (· == ' ') = t := by
    intro t ht
    cases t with
    | nil => rfl
    | cons c t =>
      have : c ≠ ' ' := by rintro rfl; exact ht (by simp)
      simp [this]
  unfold strip
  rw [e s h, e s.reverse (fun hc => h (List.mem_reverse.1 hc)), List.reverse_reverse]

theorem floatOf_second {s us : ℕ} (hs : s < 100) (hu : us < 1000000) :
    floatOf (digitsW 2 s ++ (if us ≠ 0 then '.' :: digitsW 6 us else [])) =
      .ok (fl (((s * 1000000 + us : ℕ) : ℚ) / 10 ^ 6)) := by
  have hd := digitsW_isDig 2 s
  unfold floatOf
  rw [strip_nospace (by
    intro hc
    rcases List.mem_append.1 hc with hc | hc
    · exact digitsW_not_mem 2 s ' ' rfl hc
    · split_ifs at hc
      · rcases List.mem_cons.1 hc with hc | hc
        · exact absurd hc (by decide)
        · exact digitsW_not_mem 6 us ' ' rfl hc
      · simp at hc)]
  simp only [List.takeWhile_append_of_pos hd, List.dropWhile_append_of_pos hd]
  by_cases h0 : us = 0
  · have hv : natVal (digitsW 2 s) = some s := natVal_digits (by norm_num) (by norm_num; exact hs)
    simp [h0, hv]
    congr 1
    field_simp
    norm_num
  · have hb : isDig '.' = false := rfl
    simp only [h0, ne_eq, not_false_eq_true, if_true, List.takeWhile_cons, List.dropWhile_cons, hb,
      Bool.false_eq_true, if_false, List.take_succ_cons, List.take_zero, List.drop_succ_cons, List.drop_zero,
      List.append_nil]
    have hv : natVal (digitsW 2 s ++ digitsW 6 us) = some (s * 1000000 + us) := by
      unfold natVal
      have hne : digitsW 2 s ++ digitsW 6 us ≠ [] := by simp [digitsW]
      have h6 := natValFrom_digits 6 us s []
      rw [List.append_nil] at h6
      rw [if_neg hne, natValFrom_digits, Nat.zero_mul, Nat.zero_add,
        Nat.mod_eq_of_lt (show s < 10 ^ 2 by norm_num; exact hs), h6, natValFrom,
        Nat.mod_eq_of_lt (show us < 10 ^ 6 by norm_num; exact hu)]
      norm_num
    rw [if_pos (by simp), hv]
    simp only [digitsW_length]

theorem any_clock (h mi s us : ℕ) (p : Char → Bool) (hp : ∀ c, isDig c = true → p c = false)
    (h1 : p ':' = false) (h2 : p '.' = false) : (clockText h mi s us).any p = false := by
  unfold clockText
  simp only [List.any_append, List.any_cons, any_digits _ _ _ hp, h1]
  split_ifs
  · simp only [List.any_cons, any_digits _ _ _ hp, h2]; rfl
  · rfl

theorem clock_not_mem (h mi s us : ℕ) (c : Char) (hc : isDig c = false) (h1 : c ≠ ':') (h2 : c ≠ '.') :
    c ∉ clockText h mi s us := by
  intro hm
  have := any_clock h mi s us (fun x => decide (x = c)) (fun x hx => by
    rw [decide_eq_false_iff_not]; rintro rfl; rw [hx] at hc; exact Bool.noConfusion hc)
    (by simp [Ne.symm h1]) (by simp [Ne.symm h2])
  rw [List.any_eq_false] at this
  exact this c hm (by simp)

theorem parseTail_clock {h mi s us : ℕ} (hh : h < 100) (hmi : mi < 100) (hs : s < 100) (hu : us < 1000000) :
    parseTimeTail ('T' :: clockText h mi s us) =
      .ok (some ((h : ℤ), (mi : ℤ), fl (((s * 1000000 + us : ℕ) : ℚ) / 10 ^ 6))) := by
  have c1 : ('T' :: clockText h mi s us).count ':' = 2 := by
    unfold clockText
    split_ifs <;> simp [List.count_append, count_digits _ _ ':' rfl]
  have c2 : ('T' :: clockText h mi s us).count '.' ≤ 1 := by
    unfold clockText
    split_ifs <;> simp [List.count_append, count_digits _ _ '.' rfl]
  have c3 : 9 ≤ ('T' :: clockText h mi s us).length := by
    unfold clockText
    split_ifs <;> simp [digitsW_length]
  have s1 : slice ('T' :: clockText h mi s us) 1 3 = digitsW 2 h := rfl
  have s2 : slice ('T' :: clockText h mi s us) 3 4 = [':'] := rfl
  have s3 : slice ('T' :: clockText h mi s us) 6 7 = [':'] := rfl
  have s4 : slice ('T' :: clockText h mi s us) 8 9 = [dg s] := by
    have : slice ('T' :: clockText h mi s us) 8 9 = [dg (s / 10 ^ 0)] := rfl
    rw [this]; simp
  have s5 : slice ('T' :: clockText h mi s us) 4 6 = digitsW 2 mi := rfl
  have s6 : ('T' :: clockText h mi s us).drop 7 = digitsW 2 s ++ (if us ≠ 0 then '.' :: digitsW 6 us else []) := rfl
  unfold parseTimeTail
  generalize 'T' :: clockText h mi s us = t at *
  simp only [c1]
  rw [pyAssert_true (by norm_num), pyOk_bind, pyAssert_true c2, pyOk_bind, if_pos (by omega), s1,
    intOf_digits (by norm_num) (by norm_num; exact hh), pyOk_bind, if_pos (by omega), s2, if_neg (by decide)]
  simp only [ne_eq, OfNat.ofNat_ne_zero, not_false_eq_true, if_true, Nat.reduceAdd]
  rw [s3, if_neg (by decide), s4, if_neg (by
    intro e; exact dg_ne s '.' rfl (List.cons.inj e).1), if_neg (by omega), if_pos c3, s5,
    intOf_digits (by norm_num) (by norm_num; exact hmi), pyOk_bind, s6, floatOf_second hs hu, pyOk_bind]

/-- The text of a time of day after one of the designators `T` and space. -/
theorem parseTime_clock {h mi s us : ℕ} {sep : Char} (hsep : sep = 'T' ∨ sep = ' ')
    (hh : h < 100) (hmi : mi < 100) (hs : s < 100) (hu : us < 1000000) :
    parseTime (sep :: clockText h mi s us) =
      .ok (some ((h : ℤ), (mi : ℤ), fl (((s * 1000000 + us : ℕ) : ℚ) / 10 ^ 6))) := by
  have a : (clockText h mi s us).any (fun c => !isDig c && c ≠ 'T' && c ≠ ' ' && c ≠ ':' && c ≠ '.') = false :=
    any_clock _ _ _ _ _ (fun c hc => by simp [hc]) (by decide) (by decide)
  have n1 : (clockText h mi s us).count 'T' = 0 :=
    List.count_eq_zero.2 (clock_not_mem _ _ _ _ _ rfl (by decide) (by decide))
  have n2 : (clockText h mi s us).count ' ' = 0 :=
    List.count_eq_zero.2 (clock_not_mem _ _ _ _ _ rfl (by decide) (by decide))
  have key := parseTail_clock hh hmi hs hu
  unfold parseTime
  generalize clockText h mi s us = t at *
  rw [List.any_cons, a]
  rcases hsep with rfl | rfl
  · rw [if_neg (by decide)]
    simp only [List.count_cons, n1, n2]
    rw [pyAssert_true (by decide), pyOk_bind]
    simp [key]
  · rw [if_neg (by decide)]
    simp only [List.count_cons, n1, n2]
    rw [pyAssert_true (by decide), pyOk_bind]
    simp [key]

/-- A time text without a designator is refused. -/
theorem timeFromIso_bare {c : Char} {t : Str} (hc : isDig c = true) (hs : ' ' ∉ c :: t) :
    timeFromIso (c :: t) = .error .value := by
  have key : ∃ e, parseTime (c :: t) = .error e := by
    unfold parseTime
    by_cases ha : (c :: t).any (fun c => !isDig c && c ≠ 'T' && c ≠ ' ' && c ≠ ':' && c ≠ '.') = true
    · exact ⟨_, if_pos ha⟩
    · rw [if_neg ha]
      have n : (c :: t).count ' ' = 0 := List.count_eq_zero.2 hs
      have hT : c ≠ 'T' := by rintro rfl; exact absurd hc (by decide)
      simp only [n]
      generalize pyAssert _ = r
      cases r with
      | error e => exact ⟨e, rfl⟩
      | ok _ =>
        refine ⟨.value, ?_⟩
        rw [pyOk_bind]
        simp [hT]
  obtain ⟨e, he⟩ := key
  unfold timeFromIso
  rw [he]

/-! ## Offsets -/

/-- The text of an offset of whole minutes. -/
def offText (neg : Bool) (h m : ℕ) : Str := (if neg then '-' else '+') :: digitsW 2 h ++ ':' :: digitsW 2 m

theorem formatOffset_min {off : ℤ} (h : off % 60000000 = 0) (h0 : -86400000000 < off) (h1 : off < 86400000000) :
    formatOffset (some off) =
      offText (decide (off < 0)) (off.natAbs / 3600000000) (off.natAbs % 3600000000 / 60000000) := by
  unfold formatOffset offText
  have e : off.natAbs % 3600000000 % 60000000 = 0 := by omega
  simp only [e]
  rw [padNat_eq (by norm_num) (by norm_num; omega), padNat_eq (by norm_num) (by norm_num; omega)]
  by_cases hn : off < 0 <;> simp [hn]

theorem splitAt_digits (w n : ℕ) (r : Str) : splitAt ':' (digitsW w n ++ ':' :: r) = digitsW w n :: splitAt ':' r := by
  induction w with
  | zero => simp [digitsW, splitAt]
  | succ w ih =>
    rw [digitsW, List.cons_append, splitAt, if_neg (dg_ne _ _ rfl), ih]

theorem splitAt_only (w n : ℕ) : splitAt ':' (digitsW w n) = [digitsW w n] := by
  induction w with
  | zero => simp [digitsW, splitAt]
  | succ w ih => rw [digitsW, splitAt, if_neg (dg_ne _ _ rfl), ih]

/-- Reading the text of an offset: only the hours get the sign. -/
theorem parseZone_off (fresh : ℕ) (neg : Bool) {h m : ℕ} (hh : h < 100) (hm : m < 100) :
    parseZone fresh (offText neg h m) =
      (newZone fresh (((if neg then -(h : ℤ) else h) * 60 + m) * 60000000) none).map some := by
  have a : (offText neg h m).any (fun c => !isDig c && c ≠ 'Z' && c ≠ 'B' && c ≠ '+' && c ≠ '-' && c ≠ ':') =
      false := by
    have hp : ∀ c, isDig c = true →
        (!isDig c && c ≠ 'Z' && c ≠ 'B' && c ≠ '+' && c ≠ '-' && c ≠ ':') = false := by
      intro c hc; simp [hc]
    unfold offText
    simp only [List.any_append, List.any_cons, any_digits _ _ _ hp]
    cases neg <;> decide
  have c1 : (offText neg h m).count '-' = if neg then 1 else 0 := by
    unfold offText
    cases neg <;> simp [List.count_append, count_digits _ _ '-' rfl]
  have c2 : (offText neg h m).count '+' = if neg then 0 else 1 := by
    unfold offText
    cases neg <;> simp [List.count_append, count_digits _ _ '+' rfl]
  have c3 : (offText neg h m).count 'Z' = 0 := by
    unfold offText
    cases neg <;> simp [List.count_append, count_digits _ _ 'Z' rfl]
  have c4 : (offText neg h m).count 'B' = 0 := by
    unfold offText
    cases neg <;> simp [List.count_append, count_digits _ _ 'B' rfl]
  have c5 : (offText neg h m).count ':' = 1 := by
    unfold offText
    cases neg <;> simp [List.count_append, count_digits _ _ ':' rfl]
  have d1 : (offText neg h m).drop 1 = digitsW 2 h ++ ':' :: digitsW 2 m := rfl
  have d2 : (offText neg h m).take 1 ∈ [['-'], ['+'], ['Z'], ['B']] := by
    cases neg <;> simp [offText]
  have d3 : offText neg h m ≠ [] := by simp [offText]
  unfold parseZone
  generalize offText neg h m = t at *
  rw [a, if_neg Bool.false_ne_true]
  simp only [c1, c2, c3, c4, c5]
  rw [pyAssert_true (by cases neg <;> decide), pyOk_bind, if_neg (fun hx => hx.2 d2), pyAssert_true (by norm_num),
    pyOk_bind, if_neg d3, if_neg (by simp), if_neg (by simp), d1, splitAt_digits, splitAt_only]
  simp only [offsetParts, intOf_digits (w := 2) (by norm_num) (show h < 10 ^ 2 by norm_num; exact hh),
    intOf_digits (w := 2) (by norm_num) (show m < 10 ^ 2 by norm_num; exact hm), pyOk_bind]
  cases neg <;> simp

end Verif
