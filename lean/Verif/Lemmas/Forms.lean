import Verif.Lemmas.Kvy
import Verif.Model.Ordinal
import Verif.Spec.Layout

/-!
# Helper lemmas: validation and short / long form
-/

namespace Verif

/-- Number of days of Ayyám-i-Há. -/
def ayyam (leap : Bool) : ℤ := if leap then 5 else 4

theorem monthDay_spec (leap : Bool) : ∀ i : ℕ, i < (specYear leap).length →
    (specYear leap)[i]? = some (monthDayFromDoy ((i : ℤ) + 1) (ayyam leap)) := by
  have h : ∀ leap : Bool, (List.range (specYear leap).length).all (fun i : ℕ =>
    decide ((specYear leap)[i]? = some (monthDayFromDoy ((i : ℤ) + 1) (ayyam leap)))) = true := by
    decide +kernel
  intro i hi
  have := List.all_eq_true.mp (h leap) i (List.mem_range.mpr hi)
  simpa using this

theorem kvy_range (y : ℤ) (h0 : -2526 ≤ y) (h1 : y ≤ 1805) :
    DenotesYear (kvyFromYear y).1 (kvyFromYear y).2.1 (kvyFromYear y).2.2 y ∧
      -6 ≤ (kvyFromYear y).1 ∧ (kvyFromYear y).1 ≤ 5 := by
  have := kvy_exact (y := y) (q := (y - 1) / 361) (r := (y - 1) % 361 + 1) (by omega) (by omega)
    (by omega) (by omega) (by omega)
  rw [this]
  unfold DenotesYear
  simp only
  omega

theorem checkLong_of_short {C : Cal} {k v y s m : ℤ} {d : ℚ} {t : List ℚ}
    (hd : DenotesYear k v y s) (hk0 : -6 ≤ k) (hk1 : k ≤ 5) :
    C.checkLong ⟨k, v, y, m, d, t⟩ = C.checkTail s m d t := by
  obtain ⟨a1, a2, a3, a4, a5⟩ := hd
  unfold Cal.checkLong
  rw [pyAssert_true (by simp [kullishayMin, kullishayMax]; omega), pyOk_bind,
    pyAssert_true (by simp; omega), pyOk_bind, pyAssert_true (by simp; omega), pyOk_bind]
  have : longYear k v y = s := by unfold longYear; omega
  simp only [this]

theorem checkTail_getHms {C : Cal} {y m : ℤ} {d : ℚ} {t t' : List ℚ} (h : getHms t = getHms t') :
    C.checkTail y m d t = C.checkTail y m d t' := by
  unfold Cal.checkTail; rw [h]

theorem trimLoop_true (l acc : List ℚ) : trimLoop l true acc = acc ++ l := by
  induction l generalizing acc with
  | nil => simp [trimLoop]
  | cons a r ih => simp [trimLoop, ih]

theorem trimLoop_false (l : List ℚ) : trimLoop l false [] = l.dropWhile (· == 0) := by
  induction l with
  | nil => rfl
  | cons a r ih =>
    by_cases h : a = 0
    · simp [trimLoop, h, ih]
    · have : ((a : ℚ) == 0) = false := by simpa using h
      simp [trimLoop, h, trimLoop_true, this]

theorem trimHms_eq (l : List ℚ) : trimHms l = (l.reverse.dropWhile (· == 0)).reverse := by
  unfold trimHms; rw [trimLoop_false]

theorem trimHms_append (l : List ℚ) :
    ∃ n, l = trimHms l ++ List.replicate n 0 := by
  rw [trimHms_eq]
  refine ⟨(l.reverse.takeWhile (· == 0)).length, ?_⟩
  have h := List.takeWhile_append_dropWhile (p := (· == (0 : ℚ))) (l := l.reverse)
  have hz : l.reverse.takeWhile (· == 0)
      = List.replicate (l.reverse.takeWhile (· == 0)).length 0 := by
    rw [List.eq_replicate_iff]
    refine ⟨rfl, fun b hb => ?_⟩
    have h := List.all_takeWhile (p := (· == (0 : ℚ))) (l := l.reverse)
    simpa using List.all_eq_true.mp h b hb
  have h2 := congrArg List.reverse h
  rw [List.reverse_append, List.reverse_reverse] at h2
  rw [hz, List.reverse_replicate] at h2
  exact h2.symm

theorem getD_append_zeros (l : List ℚ) (n i : ℕ) :
    (l ++ List.replicate n 0).getD i 0 = l.getD i 0 := by
  simp only [List.getD_eq_getElem?_getD]
  by_cases h : i < l.length
  · rw [List.getElem?_append_left h]
  · rw [List.getElem?_append_right (by omega)]
    rw [List.getElem?_eq_none (l := l) (by omega)]
    by_cases h2 : i - l.length < n
    · rw [List.getElem?_replicate, if_pos h2]; rfl
    · rw [List.getElem?_replicate, if_neg h2]

theorem getHms_trim (l : List ℚ) : getHms (trimHms l) = getHms l := by
  obtain ⟨n, hn⟩ := trimHms_append l
  have : getHms l = getHms (trimHms l ++ List.replicate n 0) := by rw [← hn]
  rw [this]
  unfold getHms
  simp only [getD_append_zeros]

theorem getHms_pad (t : List ℚ) :
    getHms [(getHms t).1, (getHms t).2.1, (getHms t).2.2.1, (getHms t).2.2.2] = getHms t := rfl

theorem getHms_time (t : List ℚ) (trim : Bool) :
    getHms (if trim then trimHms [(getHms t).1, (getHms t).2.1, (getHms t).2.2.1, (getHms t).2.2.2]
      else [(getHms t).1, (getHms t).2.1, (getHms t).2.2.1, (getHms t).2.2.2]) = getHms t := by
  cases trim
  · simpa using getHms_pad t
  · simp only [if_true, getHms_trim]; exact getHms_pad t

/-- `longFromShort` succeeds exactly on representable years with a valid tail. -/
theorem longFromShort_ok (C : Cal) (b : ShortT) (trim : Bool) (h0 : -2526 ≤ b.y)
    (h1 : b.y ≤ 1805) :
    C.longFromShort b trim = (do
      C.checkTail b.y b.m b.d b.t
      .ok ⟨(kvyFromYear b.y).1, (kvyFromYear b.y).2.1, (kvyFromYear b.y).2.2, b.m, b.d,
        if trim then trimHms [(getHms b.t).1, (getHms b.t).2.1, (getHms b.t).2.2.1, (getHms b.t).2.2.2]
        else [(getHms b.t).1, (getHms b.t).2.1, (getHms b.t).2.2.1, (getHms b.t).2.2.2]⟩) := by
  obtain ⟨hd, hk0, hk1⟩ := kvy_range b.y h0 h1
  unfold Cal.longFromShort
  simp only []
  rw [checkLong_of_short hd hk0 hk1, checkTail_getHms (getHms_time b.t trim)]

theorem checkTail_inv {C : Cal} {y m : ℤ} {d : ℚ} {t : List ℚ} (h : C.checkTail y m d t = .ok ()) :
    0 ≤ m ∧ m ≤ 19 ∧ (∃ c : ℤ, C.cycleOf y m = .ok c ∧ 1 ≤ d ∧ d < c) ∧
      0 ≤ (getHms t).1 ∧ (getHms t).1 < 25 ∧ 0 ≤ (getHms t).2.1 ∧ (getHms t).2.1 < 60 ∧
      0 ≤ (getHms t).2.2.1 ∧ (getHms t).2.2.1 < 60 := by
  unfold Cal.checkTail at h
  simp only [] at h
  by_cases hm : 0 ≤ m ∧ m < 20
  · rw [pyAssert_true hm, pyOk_bind] at h
    cases hc : C.cycleOf y m with
    | error e => rw [hc, pyErr_bind] at h; cases h
    | ok c =>
      rw [hc, pyOk_bind] at h
      by_cases hdd : 1 ≤ d ∧ d < (c : ℚ)
      · rw [pyAssert_true hdd, pyOk_bind] at h
        unfold checkValidBadiTime at h
        by_cases q1 : 0 ≤ (getHms t).1 ∧ (getHms t).1 < 25
        · by_cases q2 : 0 ≤ (getHms t).2.1 ∧ (getHms t).2.1 < 60
          · by_cases q3 : 0 ≤ (getHms t).2.2.1 ∧ (getHms t).2.2.1 < 60
            · exact ⟨hm.1, by omega, ⟨c, rfl, hdd⟩, q1.1, q1.2, q2.1, q2.2, q3.1, q3.2⟩
            · rw [pyAssert_true q1, pyOk_bind, pyAssert_true q2, pyOk_bind, pyAssert_false q3,
                pyErr_bind, pyErr_bind] at h
              cases h
          · rw [pyAssert_true q1, pyOk_bind, pyAssert_false q2, pyErr_bind, pyErr_bind] at h
            cases h
        · rw [pyAssert_false q1, pyErr_bind, pyErr_bind] at h; cases h
      · rw [pyAssert_false hdd, pyErr_bind] at h; cases h
  · rw [pyAssert_false hm, pyErr_bind] at h; cases h

theorem checkShort_inv {C : Cal} {b : ShortT} (h : C.checkShort b = .ok ()) :
    -1843 ≤ b.y ∧ b.y ≤ 1162 ∧ C.checkTail b.y b.m b.d b.t = .ok () := by
  unfold Cal.checkShort at h
  by_cases hy : minYear - 1 ≤ b.y ∧ b.y ≤ maxYear + 1
  · rw [pyAssert_true hy, pyOk_bind] at h
    have e0 : minYear = -1842 := rfl
    have e1 : maxYear = 1161 := rfl
    exact ⟨by omega, by omega, h⟩
  · rw [pyAssert_false hy, pyErr_bind] at h; cases h

/-- A whole day that exists in its month is not beyond the month's length. -/
theorem monthLen_of_cycle {C : Cal} {y m c : ℤ} (h0 : 0 ≤ m) (h1 : m ≤ 19)
    (hc : C.cycleOf y m = .ok c) : C.monthLen y m = .ok (c - 1) := by
  unfold Cal.cycleOf at hc
  unfold Cal.monthLen
  split_ifs at hc with hm
  · subst hm
    rw [if_neg (by omega)]
    cases hl : C.isLeapYear y with
    | error e => rw [hl, pyErr_bind] at hc; cases hc
    | ok l =>
      rw [hl, pyOk_bind] at hc
      rw [pyOk_bind]
      have : (5 + if l = true then (1 : ℤ) else 0) = c := by injection hc
      rw [← this]; congr 1; ring
  · rw [if_pos (by omega)]
    have : (20 : ℤ) = c := by injection hc
    rw [← this]; norm_num

theorem shortFromLong_ok {C : Cal} {k v y s m : ℤ} {d : ℤ} {t : List ℚ} (trim : Bool)
    (hd : DenotesYear k v y s) (h0 : -1843 ≤ s) (h1 : s ≤ 1162)
    (ht : C.checkTail s m d t = .ok ()) (hh : (getHms t).1 < 24) :
    C.shortFromLong ⟨k, v, y, m, d, t⟩ trim = .ok ⟨s, m, d,
      if trim then trimHms [(getHms t).1, (getHms t).2.1, (getHms t).2.2.1, (getHms t).2.2.2]
      else [(getHms t).1, (getHms t).2.1, (getHms t).2.2.1, (getHms t).2.2.2]⟩ := by
  obtain ⟨m0, m1, ⟨c, hc, d0, d1⟩, -, -, -, q2, -, q3⟩ := checkTail_inv ht
  have hs : longYear k v y = s := by obtain ⟨-, -, -, -, e⟩ := hd; unfold longYear; omega
  have hdm : ¬ (((c - 1 : ℤ) : ℚ) < (d : ℚ)) := by
    have : d < c := by exact_mod_cast d1
    rw [not_lt]
    exact_mod_cast (show d ≤ c - 1 by omega)
  unfold Cal.shortFromLong
  simp only []
  rw [hs, monthLen_of_cycle m0 m1 hc, pyOk_bind]
  simp only [if_neg (not_le.mpr q3), if_neg (not_le.mpr q2), if_neg (not_le.mpr hh), if_neg hdm,
    if_neg (show ¬ (19 < m) by omega)]
  have : C.checkShort ⟨s, m, d, if trim then
      trimHms [(getHms t).1, (getHms t).2.1, (getHms t).2.2.1, (getHms t).2.2.2]
      else [(getHms t).1, (getHms t).2.1, (getHms t).2.2.1, (getHms t).2.2.2]⟩ = .ok () := by
    unfold Cal.checkShort
    rw [pyAssert_true (by simp [minYear, maxYear]; omega), pyOk_bind]
    rw [checkTail_getHms (getHms_time t trim), ht]
  rw [this, pyOk_bind]

end Verif
