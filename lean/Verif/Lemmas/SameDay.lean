import Verif.Lemmas.FromTimestamp
import Verif.Lemmas.Hms

/-!
# The fields of a converted timestamp, whatever the options are
-/

namespace Verif

theorem checkTail_valid {C : Cal} {y m d h mi : ℤ} {s u : ℚ} {t : List ℚ} (g : getHms t = ((h : ℚ), (mi : ℚ), s, u))
    (h0 : 0 ≤ h) (h1 : h ≤ 24) (mi0 : 0 ≤ mi) (mi1 : mi < 60) (s0 : 0 ≤ s) (s1 : s < 60) (u0 : 0 ≤ u) (u1 : u < 1000000) :
    C.checkTail y m d t = (do
      pyAssert (0 ≤ m ∧ m < 20)
      let cycle ← C.cycleOf y m
      pyAssert (1 ≤ (d : ℚ) ∧ (d : ℚ) < cycle)) := by
  unfold Cal.checkTail
  simp only [g]
  have hv : checkValidBadiTime (h : ℚ) (mi : ℚ) s u = .ok () := by
    have a1 : (h : ℚ) < 25 := by exact_mod_cast (by omega : h < 25)
    have a2 : (0 : ℚ) ≤ h := by exact_mod_cast h0
    have a3 : (mi : ℚ) < 60 := by exact_mod_cast (by omega : mi < 60)
    have a4 : (0 : ℚ) ≤ mi := by exact_mod_cast mi0
    unfold checkValidBadiTime
    rw [pyAssert_true ⟨a2, a1⟩, pyOk_bind, pyAssert_true ⟨a4, a3⟩, pyOk_bind, pyAssert_true ⟨s0, s1⟩, pyOk_bind,
      pyAssert_true ⟨u0, u1⟩]
  rw [hv]
  by_cases hm : 0 ≤ m ∧ m < 20
  · rw [pyAssert_true hm, pyOk_bind, pyOk_bind]
    cases C.cycleOf y m with
    | error e => rfl
    | ok c =>
      rw [pyOk_bind, pyOk_bind]
      by_cases hd : 1 ≤ (d : ℚ) ∧ (d : ℚ) < c
      · rw [pyAssert_true hd, pyOk_bind, pyOk_bind, checkFractions_int, pyAssert_true hd]
      · rw [pyAssert_false hd, pyErr_bind, pyOk_bind, pyAssert_false hd]
  · rw [pyAssert_false hm, pyErr_bind, pyErr_bind]

/-- The day and the hour that `short_date_from_long_date` gives: hour 24 becomes hour 23 of another day. -/
def shortRoll (C : Cal) (y m d h : ℤ) : Py (ℤ × ℤ × ℤ) := do
  let dm ← C.monthLen y m
  let d' := if 24 ≤ h then d + 1 else d
  let md := if dm < d' then (if dm = 4 ∨ dm = 5 then (19, 1) else (m + 1, d' - 1)) else (m, d')
  let my := if 19 < md.1 then (1, y + 1) else (md.1, y)
  C.checkShort ⟨my.2, my.1, (md.2 : ℤ), []⟩
  .ok (my.2, my.1, md.2)

/-- `short_date_from_long_date` on valid times of day. -/
theorem shortFromLong_roll {C : Cal} {k v w m d h mi : ℤ} {s u : ℚ} {t : List ℚ} (trim : Bool)
    (g : getHms t = ((h : ℚ), (mi : ℚ), s, u)) (d0 : 1 ≤ d) (d1 : d ≤ 19) (h0 : 0 ≤ h) (h1 : h ≤ 24) (mi0 : 0 ≤ mi)
    (mi1 : mi < 60) (s0 : 0 ≤ s) (s1 : s < 60) (u0 : 0 ≤ u) (u1 : u < 1000000) :
    C.shortFromLong ⟨k, v, w, m, d, t⟩ trim = (do
      let r ← shortRoll C (longYear k v w) m d h
      let t := [(((if 24 ≤ h then 23 else h : ℤ)) : ℚ), (mi : ℚ), s, u]
      .ok ⟨r.1, r.2.1, r.2.2, if trim then trimHms t else t⟩) := by
  have a1 : ¬ 60 ≤ s := not_le.mpr s1
  have a2 : ¬ (60 : ℚ) ≤ mi := not_le.mpr (by exact_mod_cast mi1)
  unfold Cal.shortFromLong shortRoll
  simp only [g, if_neg a1, if_neg a2]
  cases C.monthLen (longYear k v w) m with
  | error e => rfl
  | ok dm =>
    simp only [pyOk_bind]
    have e1 : (if (24 : ℚ) ≤ h then (fl ((d : ℚ) + 1), fl ((h : ℚ) - 1)) else ((d : ℚ), (h : ℚ))) =
        (((if 24 ≤ h then d + 1 else d : ℤ) : ℚ), (((if 24 ≤ h then 23 else h : ℤ)) : ℚ)) := by
      by_cases hh : 24 ≤ h
      · have : h = 24 := by omega
        subst this
        rw [if_pos (by norm_num), if_pos (by norm_num), if_pos (by norm_num)]
        rw [show (d : ℚ) + 1 = ((d + 1 : ℤ) : ℚ) by push_cast; ring, fl_int _ (by rw [abs_le]; constructor <;> omega)]
        rw [show ((24 : ℤ) : ℚ) - 1 = ((23 : ℤ) : ℚ) by norm_num, fl_int _ (by norm_num)]
      · rw [if_neg (by exact_mod_cast hh), if_neg hh, if_neg hh]
    simp only [e1]
    have e2 : ∀ d' : ℤ, 1 ≤ d' → d' ≤ 20 → (if (dm : ℚ) < (d' : ℚ) then
        if dm = 4 ∨ dm = 5 then ((19 : ℤ), (1 : ℚ)) else (m + 1, fl ((d' : ℚ) - 1)) else (m, (d' : ℚ))) =
        ((if dm < d' then (if dm = 4 ∨ dm = 5 then ((19 : ℤ), (1 : ℤ)) else (m + 1, d' - 1)) else (m, d')).1,
          (((if dm < d' then (if dm = 4 ∨ dm = 5 then ((19 : ℤ), (1 : ℤ)) else (m + 1, d' - 1)) else (m, d')).2 : ℤ) : ℚ)) := by
      intro d' b0 b1
      by_cases hd : dm < d'
      · rw [if_pos (by exact_mod_cast hd), if_pos hd]
        split_ifs
        · norm_num
        · rw [show (d' : ℚ) - 1 = ((d' - 1 : ℤ) : ℚ) by push_cast; ring, fl_int _ (by rw [abs_le]; constructor <;> omega)]
      · rw [if_neg (by exact_mod_cast hd), if_neg hd]
    rw [e2 _ (by split_ifs <;> omega) (by split_ifs <;> omega)]
    simp only []
    set md := (if dm < (if 24 ≤ h then d + 1 else d) then (if dm = 4 ∨ dm = 5 then ((19 : ℤ), (1 : ℤ))
      else (m + 1, (if 24 ≤ h then d + 1 else d) - 1)) else (m, (if 24 ≤ h then d + 1 else d))) with hmd
    set my := (if 19 < md.1 then ((1 : ℤ), longYear k v w + 1) else (md.1, longYear k v w)) with hmy
    have hchk : ∀ t', getHms t' = ((((if 24 ≤ h then 23 else h : ℤ)) : ℚ), (mi : ℚ), s, u) →
        C.checkShort ⟨my.2, my.1, (md.2 : ℤ), t'⟩ = C.checkShort ⟨my.2, my.1, (md.2 : ℤ), []⟩ := by
      intro t' g'
      unfold Cal.checkShort
      rw [checkTail_valid g' (by split_ifs <;> omega) (by split_ifs <;> omega) mi0 mi1 s0 s1 u0 u1]
      rw [checkTail_valid (t := []) (h := 0) (mi := 0) (s := 0) (u := 0) (by simp [getHms]) (by norm_num) (by norm_num)
        (by norm_num) (by norm_num) (by norm_num) (by norm_num) (by norm_num) (by norm_num)]
    rw [hchk _ (by cases trim <;> simp [getHms_trim] <;> rfl)]
    cases C.checkShort ⟨my.2, my.1, (md.2 : ℤ), []⟩ with
    | error e => rfl
    | ok _ => rfl

/-- The end of `badi_date_from_jd` for a valid long form date: the tuples with and without microseconds. -/
theorem kvymdhms_roll {C : Cal} {k v w m d h mi : ℤ} {s : ℚ} (us short : Bool) (d0 : 1 ≤ d) (d1 : d ≤ 19) (h0 : 0 ≤ h)
    (h1 : h ≤ 24) (mi0 : 0 ≤ mi) (mi1 : mi < 60) (s0 : 0 ≤ s) (s1 : s < 60) {a u : ℤ}
    (hsm : secMicrosecFromSeconds s = (a, u)) (a0 : 0 ≤ a) (a1 : a ≤ 59) (u0 : 0 ≤ u) (u1 : u ≤ 999999)
    (hchk : C.checkLong ⟨k, v, w, m, d, trimHms [(h : ℚ), (mi : ℚ), s, 0]⟩ = .ok ()) :
    C.kvymdhmsFromBDate ⟨k, v, w, m, d, trimHms [(h : ℚ), (mi : ℚ), s, 0]⟩ us short (!us) =
      if short then (do
        let r ← shortRoll C (longYear k v w) m d h
        let h' : ℤ := if 24 ≤ h then 23 else h
        .ok (.short ⟨r.1, r.2.1, r.2.2, if us then [(h' : ℚ), (mi : ℚ), (a : ℚ), (u : ℚ)]
          else trimHms [(h' : ℚ), (mi : ℚ), s, 0]⟩))
      else .ok (.long ⟨k, v, w, m, d, if us then [(h : ℚ), (mi : ℚ), (a : ℚ), (u : ℚ)] else trimHms [(h : ℚ), (mi : ℚ), s]⟩) := by
  have e4 : trimHms [(h : ℚ), (mi : ℚ), s, 0] = trimHms [(h : ℚ), (mi : ℚ), s] :=
    trimHms_snoc_zero [(h : ℚ), (mi : ℚ), s]
  have g := getHms_trim [(h : ℚ), (mi : ℚ), s]
  rw [e4] at hchk ⊢
  set t := trimHms [(h : ℚ), (mi : ℚ), s] with htd
  have hi : trimHms t = t := trimHms_idem _
  have hb : (if (⟨k, v, w, m, d, t⟩ : LongT).t.length > 0 then
      { (⟨k, v, w, m, d, t⟩ : LongT) with t := trimHms t } else ⟨k, v, w, m, d, t⟩) =
      ⟨k, v, w, m, d, t⟩ := by split_ifs <;> simp [hi]
  have hz : t.length = 0 → (h : ℚ) = 0 ∧ (mi : ℚ) = 0 ∧ s = 0 := by
    intro hl
    have : t = [] := List.length_eq_zero_iff.mp hl
    rw [this] at g
    have g' : ((0 : ℚ), (0 : ℚ), (0 : ℚ), (0 : ℚ)) = ((h : ℚ), (mi : ℚ), s, 0) := g
    simp only [Prod.mk.injEq] at g'
    exact ⟨g'.1.symm, g'.2.1.symm, g'.2.2.1.symm⟩
  have hget : t.getD 0 0 = h ∧ t.getD 1 0 = mi ∧ t.getD 2 0 = s := by
    have g' : (t.getD 0 0, t.getD 1 0, t.getD 2 0, t.getD 3 0) = ((h : ℚ), (mi : ℚ), s, (0 : ℚ)) := g
    simp only [Prod.mk.injEq] at g'
    exact ⟨g'.1, g'.2.1, g'.2.2.1⟩
  have htri : (if t.length = 0 then
      ((⌊partialDayToHours (d : ℚ)⌋ : ℚ),
        (⌊partialHourToMinute (partialDayToHours (d : ℚ))⌋ : ℚ),
        pyRound (partialHourToMinute (partialHourToMinute (partialDayToHours (d : ℚ)))) 6)
      else (t.getD 0 0, t.getD 1 0, t.getD 2 0)) = ((h : ℚ), (mi : ℚ), s) := by
    split_ifs with hl
    · obtain ⟨a, b, c⟩ := hz hl
      have p0 : partialDayToHours (d : ℚ) = 0 := by
        unfold partialDayToHours; rw [pyMod1_int]; simp [fl_zero, pyRound, roundHalfEven]
      have p1 : partialHourToMinute 0 = 0 := by
        unfold partialHourToMinute
        have := pyMod1_int 0
        simp only [Int.cast_zero] at this
        rw [this]; simp [fl_zero, pyRound, roundHalfEven]
      rw [p0, p1, p1, a, b, c]
      simp [fl_zero, pyRound, roundHalfEven]
    · rw [hget.1, hget.2.1, hget.2.2]
  unfold Cal.kvymdhmsFromBDate
  simp only [hb]
  rw [hchk, pyOk_bind]
  have a0' : (0 : ℚ) ≤ a := by exact_mod_cast a0
  have a1' : (a : ℚ) < 60 := by exact_mod_cast (by omega : a < 60)
  have u0' : (0 : ℚ) ≤ u := by exact_mod_cast u0
  have u1' : (u : ℚ) < 1000000 := by exact_mod_cast (by omega : u < 1000000)
  cases us
  · simp only [htri, Bool.false_eq_true, if_false, Bool.not_false, if_true, Int.floor_intCast]
    cases short
    · simp [htd]
    · simp only [if_true]
      rw [shortFromLong_roll (h := h) (mi := mi) (s := s) (u := 0) true g d0 d1 h0 h1 mi0 mi1 s0 s1 le_rfl (by norm_num)]
      cases shortRoll C (longYear k v w) m d h with
      | error e => rfl
      | ok r => simp [pyOk_bind]
  · simp only [htri, hsm, if_true, Bool.not_true, Bool.false_eq_true, if_false, Int.floor_intCast]
    cases short
    · simp
    · simp only [if_true]
      rw [shortFromLong_roll (h := h) (mi := mi) (s := a) (u := u) false (by rfl) d0 d1 h0 h1 mi0 mi1 a0' a1' u0' u1']
      cases shortRoll C (longYear k v w) m d h with
      | error e => rfl
      | ok r => simp [pyOk_bind]

end Verif
