import Verif.Lemmas.Ordinal

/-!
# Lemmas about `date` objects: constructor and comparison
-/

namespace Verif

theorem checkTail_bad {C : Cal} {y m : ℤ} {d : ℚ} (hm : ¬ (0 ≤ m ∧ m < 20)) :
    C.checkTail y m d [] = .error .assertion := by
  unfold Cal.checkTail
  simp only []
  rw [pyAssert_false hm, pyErr_bind]

theorem checkTail_key {C : Cal} {y : ℤ} {d : ℚ} (h : C.isLeapYear y = .error .key) :
    C.checkTail y 0 d [] = .error .key := by
  unfold Cal.checkTail Cal.cycleOf
  simp only []
  rw [pyAssert_true (by omega), pyOk_bind, if_pos trivial, h, pyErr_bind, pyErr_bind]

theorem checkTail_badday {C : Cal} {y m d c : ℤ} (hm0 : 0 ≤ m) (hm1 : m < 20) (hc : C.cycleOf y m = .ok c)
    (hd : ¬ (1 ≤ d ∧ d < c)) : C.checkTail y m (d : ℚ) [] = .error .assertion := by
  unfold Cal.checkTail
  simp only []
  rw [pyAssert_true ⟨hm0, hm1⟩, pyOk_bind, hc, pyOk_bind, pyAssert_false, pyErr_bind]
  intro h
  exact hd ⟨by exact_mod_cast h.1, by exact_mod_cast h.2⟩

/-- The check of month and day for a year of the table. -/
theorem checkTail_dec {C : Cal} {y m d : ℤ} {leap : Bool} (hl : C.isLeapYear y = .ok leap) :
    (ValidMD leap m d → C.checkTail y m (d : ℚ) [] = .ok ()) ∧
    (¬ ValidMD leap m d → C.checkTail y m (d : ℚ) [] = .error .assertion) := by
  constructor
  · intro hv
    obtain ⟨c, hc, d0, d1, m0, m1⟩ := cycleOf_valid hl hv
    exact checkTail_day m0 m1 hc d0 d1
  · intro hv
    by_cases hm : 0 ≤ m ∧ m < 20
    · by_cases h0 : m = 0
      · subst h0
        have hc : C.cycleOf y 0 = .ok (5 + if leap then 1 else 0) := by
          unfold Cal.cycleOf; rw [if_pos rfl, hl, pyOk_bind]
        refine checkTail_badday (by omega) (by omega) hc fun h => hv (Or.inr ⟨rfl, h.1, ?_⟩)
        have := h.2
        cases leap <;> simp at this ⊢ <;> omega
      · have hc : C.cycleOf y m = .ok 20 := by unfold Cal.cycleOf; rw [if_neg h0]
        exact checkTail_badday hm.1 hm.2 hc fun h => hv (Or.inl ⟨by omega, by omega, h.1, by omega⟩)
    · exact checkTail_bad hm

/-- The check of month and day for a year that is not in the table. -/
theorem checkTail_out {C : Cal} {y m d : ℤ} (hl : C.isLeapYear y = .error .key) :
    C.checkTail y m (d : ℚ) [] = if m = 0 then .error .key else if 1 ≤ m ∧ m ≤ 19 ∧ 1 ≤ d ∧ d ≤ 19 then .ok ()
      else .error .assertion := by
  by_cases h0 : m = 0
  · rw [if_pos h0, h0, checkTail_key hl]
  · rw [if_neg h0]
    have hc : C.cycleOf y m = .ok 20 := by unfold Cal.cycleOf; rw [if_neg h0]
    by_cases hm : 0 ≤ m ∧ m < 20
    · by_cases hd : 1 ≤ d ∧ d ≤ 19
      · rw [if_pos (by omega)]; exact checkTail_day (by omega) (by omega) hc hd.1 (by omega)
      · rw [if_neg (by omega)]; exact checkTail_badday (by omega) (by omega) hc (by omega)
    · rw [if_neg (by omega)]; exact checkTail_bad hm

theorem newDate_short {C : Cal} {y m d : ℤ} (h : -1843 ≤ y ∧ y ≤ 1162) :
    C.newDate (.short y m d) = (C.checkTail y m d []).map (fun _ => .short y m d) := by
  unfold Cal.newDate Cal.checkShort
  have e0 : minYear = -1842 := rfl
  have e1 : maxYear = 1161 := rfl
  simp only []
  rw [pyAssert_true (by omega), pyOk_bind]
  cases C.checkTail y m d [] <;> rfl

theorem newDate_short_out {C : Cal} {y m d : ℤ} (h : ¬ (-1843 ≤ y ∧ y ≤ 1162)) :
    C.newDate (.short y m d) = .error .assertion := by
  unfold Cal.newDate Cal.checkShort
  have e0 : minYear = -1842 := rfl
  have e1 : maxYear = 1161 := rfl
  simp only []
  rw [pyAssert_false (by omega), pyErr_bind, pyErr_bind]

theorem newDate_long {C : Cal} {k v w y m d : ℤ} (hd : DenotesYear k v w y) (hk : -6 ≤ k ∧ k ≤ 5) :
    C.newDate (.long k v w m d) = (C.checkTail y m d []).map (fun _ => .long k v w m d) := by
  unfold Cal.newDate
  simp only []
  rw [checkLong_of_short hd hk.1 hk.2]
  cases C.checkTail y m d [] <;> rfl

theorem newDate_long_out {C : Cal} {k v w m d : ℤ}
    (h : ¬ (-6 ≤ k ∧ k ≤ 5 ∧ 1 ≤ v ∧ v ≤ 19 ∧ 1 ≤ w ∧ w ≤ 19)) :
    C.newDate (.long k v w m d) = .error .assertion := by
  have e0 : kullishayMin = -5 := rfl
  have e1 : kullishayMax = 4 := rfl
  unfold Cal.newDate Cal.checkLong
  simp only []
  by_cases c1 : -6 ≤ k ∧ k ≤ 5
  · rw [pyAssert_true (by omega), pyOk_bind]
    by_cases c2 : 1 ≤ v ∧ v < 20
    · rw [pyAssert_true c2, pyOk_bind, pyAssert_false (by omega), pyErr_bind, pyErr_bind]
    · rw [pyAssert_false c2, pyErr_bind, pyErr_bind]
  · rw [pyAssert_false (by omega), pyErr_bind, pyErr_bind]

/-! ## Comparison of tuples -/

theorem tupleCmp_self (l : List ℤ) : tupleCmp l l = 0 := by
  induction l with
  | nil => rfl
  | cons a l ih => simp [tupleCmp, ih]

theorem tupleCmp_eq_zero {l r : List ℤ} : tupleCmp l r = 0 ↔ l = r := by
  induction l generalizing r with
  | nil => cases r <;> simp [tupleCmp]
  | cons a l ih =>
    cases r with
    | nil => simp [tupleCmp]
    | cons b r =>
      unfold tupleCmp
      by_cases h : a = b
      · rw [if_pos h, ih]; simp [h]
      · rw [if_neg h]; split_ifs <;> simp [h]

theorem tupleCmp_swap (l r : List ℤ) : tupleCmp r l = -tupleCmp l r := by
  induction l generalizing r with
  | nil => cases r <;> simp [tupleCmp]
  | cons a l ih =>
    cases r with
    | nil => simp [tupleCmp]
    | cons b r =>
      unfold tupleCmp
      by_cases h : a = b
      · rw [if_pos h, if_pos h.symm, ih]
      · rw [if_neg h, if_neg (Ne.symm h)]
        split_ifs <;> omega

theorem tupleCmp_range (l r : List ℤ) : tupleCmp l r = -1 ∨ tupleCmp l r = 0 ∨ tupleCmp l r = 1 := by
  induction l generalizing r with
  | nil => cases r <;> simp [tupleCmp]
  | cons a l ih =>
    cases r with
    | nil => simp [tupleCmp]
    | cons b r =>
      unfold tupleCmp
      split_ifs <;> simp [ih]

theorem tupleCmp_trans {l r s : List ℤ} (h1 : tupleCmp l r < 0) (h2 : tupleCmp r s < 0) : tupleCmp l s < 0 := by
  induction l generalizing r s with
  | nil =>
    cases s with
    | nil => cases r <;> simp [tupleCmp] at h1 h2
    | cons c s => simp [tupleCmp]
  | cons a l ih =>
    cases r with
    | nil => simp [tupleCmp] at h1
    | cons b r =>
      cases s with
      | nil => simp [tupleCmp] at h2
      | cons c s =>
        unfold tupleCmp at h1 h2 ⊢
        by_cases hab : a = b
        · by_cases hbc : b = c
          · rw [if_pos hab] at h1
            rw [if_pos hbc] at h2
            rw [if_pos (hab.trans hbc)]
            exact ih h1 h2
          · rw [if_neg hbc] at h2
            rw [if_neg (by omega)]
            split_ifs at h2 ⊢ <;> omega
        · rw [if_neg hab] at h1
          by_cases hbc : b = c
          · rw [if_neg (by omega)]
            split_ifs at h1 ⊢ <;> omega
          · rw [if_neg hbc] at h2
            split_ifs at h1 h2 ⊢ <;> omega

end Verif
