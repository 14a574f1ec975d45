import Verif.Props.Date
import Verif.Props.DateTime

/-!
# Property C14: the order of short and long forms

The short form compares its year with the year in the Váḥid of the long form.
-/

namespace Verif

theorem dateCmp_short_long (y m d k v w m' d' : ℤ) :
    dateCmp (.short y m d) (.long k v w m' d') = .ok (tupleCmp [y, m, d] [w, m', d']) := rfl

/-- C14, partial: a short form date compared with a long form date of the first Váḥid (the years 1 to 19) is equal to it
exactly when they are the same day, and outside Ayyám-i-Há less than it exactly when it is the earlier day. Missing: the
other Váḥids, and the comparison the other way round; see the negations. -/
theorem C14_first_vahid_partial (A : Astro) (hE : TehranEvening A) (hO : NewYearOrder (Cal.init A)) (y m d w m' d' n n' : ℤ)
    (hs : IsDay (Cal.init A) (.short y m d) n) (hl : IsDay (Cal.init A) (.long 1 1 w m' d') n') :
    dateEq (.short y m d) (.long 1 1 w m' d') = .ok (decide (n = n')) ∧
    (m ≠ 0 → m' ≠ 0 → dateLt (.short y m d) (.long 1 1 w m' d') = .ok (decide (n < n'))) := by
  obtain ⟨y', ⟨-, -, -, -, e⟩, hd⟩ := hl
  have hw : y' = w := by omega
  subst hw
  have hs2 : IsDay (Cal.init A) (.short y' m' d') n' := hd
  have e1 : dateEq (.short y m d) (.long 1 1 y' m' d') = dateEq (.short y m d) (.short y' m' d') := rfl
  have e2 : dateLt (.short y m d) (.long 1 1 y' m' d') = dateLt (.short y m d) (.short y' m' d') := rfl
  constructor
  · rw [e1]
    obtain ⟨lt, eq, gt, -, he, -, -, -, -, hi, -⟩ := C12_total (.short y m d) (.short y' m' d') rfl
    rw [he]
    congr 1
    rw [Bool.eq_iff_iff, hi, decide_eq_true_eq]
    constructor
    · intro h
      rw [h] at hs
      obtain ⟨-, -, -, a⟩ := (dayNumber_iff hE).mp hs
      obtain ⟨-, -, -, b⟩ := (dayNumber_iff hE).mp hd
      omega
    · rintro rfl
      obtain ⟨rfl, rfl, rfl⟩ := dayNumber_unique hE hs hd
      rfl
  · intro h h'
    rw [e2]
    obtain ⟨i, j, hi, hj, he⟩ := C13_chronological_partial A hE hO (.short y m d) (.short y' m' d') n n' rfl hs hs2
      (Or.inl ⟨fun h0 => absurd h0 h, fun h0 => absurd h0 h'⟩)
    rw [toOrdinal_ok hE hO hs] at hi
    rw [toOrdinal_ok hE hO hs2] at hj
    injection hi with hi
    injection hj with hj
    rw [he, hi, hj]

/-- The year 5 in both forms. -/
example : ∃ n, IsDay (Cal.init newYearSun) (.short 5 3 7) n ∧ IsDay (Cal.init newYearSun) (.long 1 1 5 3 7) n := by
  refine ⟨ysInt 5 + dBefore (leapOf 5) 3 + 7 - 1, ?_, 5, by unfold DenotesYear; omega, ?_⟩ <;>
  · show DayNumber _ _ _ _ _
    rw [dayNumber_iff newYearSun_tehran]
    exact ⟨by norm_num, by norm_num, Or.inl ⟨by norm_num, by norm_num, by norm_num, by norm_num⟩, rfl⟩

/-- C14 is false: a short form date of a year after 19 is greater than every long form date, and one of a year before 1 is
less than every long form date, whatever days they are. -/
theorem C14_order_negation (y m d k v w m' d' : ℤ) (w0 : 1 ≤ w) (w1 : w ≤ 19) :
    (19 < y → dateGt (.short y m d) (.long k v w m' d') = .ok true) ∧
    (y < 1 → dateLt (.short y m d) (.long k v w m' d') = .ok true) := by
  constructor
  · intro h
    have : 0 < tupleCmp [y, m, d] [w, m', d'] := by simp only [tupleCmp]; split_ifs <;> omega
    simp [dateGt, dateCmp_short_long, Except.map, this]
  · intro h
    have : tupleCmp [y, m, d] [w, m', d'] < 0 := by simp only [tupleCmp]; split_ifs <;> omega
    simp [dateLt, dateCmp_short_long, Except.map, this]

/-- The year 20 is greater than the last day of the year 1161 in the long form. -/
example : dateGt (.short 20 1 1) (.long 4 5 2 19 19) = .ok true := by decide

/-- C14, datetimes: the comparison of a short with a long form datetime of the same offset answers, and the answers in the
two directions agree. -/
theorem C14_datetime_symmetric (C : Cal) (x y : DT) (h : SameOffset x.tz y.tz) :
    ∃ eq lt gt : Bool, C.dtEq x y = .ok eq ∧ C.dtEq y x = .ok eq ∧ C.dtLt x y = .ok lt ∧ C.dtGt y x = .ok lt ∧
      C.dtGt x y = .ok gt ∧ C.dtLt y x = .ok gt ∧ C.dtLe x y = .ok (lt || eq) ∧ C.dtGe x y = .ok (gt || eq) ∧
      ((lt = true ∧ eq = false ∧ gt = false) ∨ (lt = false ∧ eq = true ∧ gt = false) ∨
        (lt = false ∧ eq = false ∧ gt = true)) := by
  have h' : SameOffset y.tz x.tz := by
    revert h
    cases x.tz <;> cases y.tz <;> simp only [SameOffset] <;> try tauto
    rintro ⟨a, b⟩
    exact ⟨a.symm, a ▸ b⟩
  have hs := tupleCmp_swap x.cmpFields y.cmpFields
  unfold Cal.dtEq Cal.dtLt Cal.dtGt Cal.dtLe Cal.dtGe
  simp only [dtCmp_same h, dtCmp_same h', Except.map]
  have ht : tupleCmp y.cmpFields x.cmpFields = -tupleCmp x.cmpFields y.cmpFields := hs
  rw [ht]
  generalize tupleCmp x.cmpFields y.cmpFields = c
  rcases lt_trichotomy c 0 with h0 | h0 | h0
  · refine ⟨false, true, false, ?_, ?_, ?_, ?_, ?_, ?_, ?_, ?_, Or.inl ⟨rfl, rfl, rfl⟩⟩ <;> congr 1 <;> simp <;> omega
  · refine ⟨true, false, false, ?_, ?_, ?_, ?_, ?_, ?_, ?_, ?_, Or.inr (Or.inl ⟨rfl, rfl, rfl⟩)⟩ <;> congr 1 <;> simp <;> omega
  · refine ⟨false, false, true, ?_, ?_, ?_, ?_, ?_, ?_, ?_, ?_, Or.inr (Or.inr ⟨rfl, rfl, rfl⟩)⟩ <;> congr 1 <;> simp <;> omega

example : SameOffset (witnessDT none 0).tz (witnessLong none).tz := trivial

/-- C14 is false for datetimes: a short form datetime of a year after 19 is greater than every long form datetime of the
same offset, even one of a later day. -/
theorem C14_datetime_negation (C : Cal) (x y : DT) (h : SameOffset x.tz y.tz) (yr m d k v w m' d' : ℤ)
    (hx : x.d = .short yr m d) (hy : y.d = .long k v w m' d') (w1 : w ≤ 19) (hyr : 19 < yr) :
    C.dtGt x y = .ok true ∧ C.dtEq x y = .ok false ∧ C.dtEq y x = .ok false := by
  obtain ⟨eq, lt, gt, e1, e2, -, -, e5, -, -, -, hc⟩ := C14_datetime_symmetric C x y h
  have hg : C.dtGt x y = .ok true := by
    have : 0 < tupleCmp x.cmpFields y.cmpFields := by
      simp only [DT.cmpFields, hx, hy, DateObj.ymd, tupleCmp]
      rw [if_neg (by omega), if_pos (by omega)]
      norm_num
    unfold Cal.dtGt
    rw [dtCmp_same h]
    simp [Except.map, this]
  rw [e5] at hg
  injection hg with hg
  subst hg
  have he : eq = false := by rcases hc with ⟨-, -, h⟩ | ⟨-, -, h⟩ | ⟨-, h, -⟩ <;> simp_all
  subst he
  exact ⟨e5, e1, e2⟩

example : (witnessDT none 0).d = .short 182 0 5 ∧ (witnessLong none).d = .long 1 10 11 19 1 := ⟨rfl, rfl⟩

end Verif
