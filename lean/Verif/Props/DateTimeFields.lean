import Verif.Model.DateTime
import Verif.Lemmas.Hms
import Verif.Lemmas.Badi

/-!
# C49: the time fields of a constructed `datetime`
-/

namespace Verif

theorem partialSixty_spec {x : ℚ} (h0 : 0 ≤ x) :
    0 ≤ partialSixty x ∧ partialSixty x ≤ 60 ∧ |partialSixty x - 60 * Int.fract x| ≤ 1 / 1900000 := by
  have hp0 := pyMod1_nonneg x
  have hp1 := pyMod1_le_one x
  obtain ⟨a, b, c, -⟩ := partial_step (N := 60) hp0 hp1 (by norm_num) le_rfl
  rw [← pyMod1_of_nonneg h0]
  refine ⟨a, by exact_mod_cast b, ?_⟩
  rw [mul_comm]
  exact_mod_cast c

theorem partialMicro_spec {x : ℚ} (h0 : 0 ≤ x) :
    0 ≤ partialMicro x ∧ partialMicro x ≤ 1000000 ∧ |(partialMicro x : ℚ) - 1000000 * Int.fract x| ≤ 16 / 10 := by
  have hp0 := pyMod1_nonneg x
  have hp1 := pyMod1_le_one x
  rw [← pyMod1_of_nonneg h0]
  unfold partialMicro
  generalize pyMod1 x = p at *
  have r0 : 0 ≤ pyRound p 6 := by
    have := pyRound_mono 6 hp0
    rwa [show (0 : ℚ) = ((0 : ℤ) : ℚ) by norm_num, pyRound_int 0 6 (by norm_num)] at this
  have r1 : pyRound p 6 ≤ 1 := by
    have := pyRound_mono 6 hp1
    rwa [show (1 : ℚ) = ((1 : ℤ) : ℚ) by norm_num, pyRound_int 1 6 (by norm_num)] at this
  have re := pyRound_err p 6
  rw [abs_of_nonneg hp0] at re
  generalize pyRound p 6 = r at *
  have f0 : 0 ≤ fl (r * 1000000) := fl_nonneg (by positivity)
  have f1 : fl (r * 1000000) ≤ ((1000000 : ℤ) : ℚ) :=
    fl_le_of_le (by push_cast; linarith) (isF64_int (by norm_num))
  have fe := fl_err_le (x := r * 1000000) (B := 1000000) (by rw [abs_of_nonneg (by positivity)]; linarith)
  generalize fl (r * 1000000) = z at *
  unfold pyInt
  rw [if_pos f0]
  refine ⟨Int.floor_nonneg.2 f0, ?_, ?_⟩
  · have := Int.floor_le_floor f1
    rwa [Int.floor_intCast] at this
  · have a1 := Int.floor_le z
    have a2 := Int.lt_floor_add_one z
    rw [abs_le] at *
    norm_num at re
    constructor <;> linarith [re.1, re.2, fe.1, fe.2]

/-- The seconds since the start of the day that four time fields stand for. -/
def denotedSeconds (h mi s us : ℚ) : ℚ := 3600 * h + 60 * mi + s + us / 1000000

/-- C49, whole numbers: they are the fields, exactly when they are in range. -/
theorem C49_whole (h mi s us : ℤ) :
    newDTTime h mi s us = if 0 ≤ h ∧ h ≤ 24 ∧ 0 ≤ mi ∧ mi ≤ 59 ∧ 0 ≤ s ∧ s ≤ 60 ∧ 0 ≤ us ∧ us ≤ 999999 then
      .ok ((h : ℚ), (mi : ℚ), (s : ℚ), us) else .error .assertion := by
  have e1 : (0 ≤ (h : ℚ) ∧ (h : ℚ) < 25) ↔ (0 ≤ h ∧ h ≤ 24) := by
    constructor <;> rintro ⟨a, b⟩
    · exact ⟨by exact_mod_cast a, Int.lt_add_one_iff.1 (by exact_mod_cast b)⟩
    · exact ⟨by exact_mod_cast a, by exact_mod_cast (by omega : h < 25)⟩
  have e2 : (0 ≤ (mi : ℚ) ∧ (mi : ℚ) < 60) ↔ (0 ≤ mi ∧ mi ≤ 59) := by
    constructor <;> rintro ⟨a, b⟩
    · exact ⟨by exact_mod_cast a, Int.lt_add_one_iff.1 (by exact_mod_cast b)⟩
    · exact ⟨by exact_mod_cast a, by exact_mod_cast (by omega : mi < 60)⟩
  have e3 : (0 ≤ (s : ℚ) ∧ (s : ℚ) < 61) ↔ (0 ≤ s ∧ s ≤ 60) := by
    constructor <;> rintro ⟨a, b⟩
    · exact ⟨by exact_mod_cast a, Int.lt_add_one_iff.1 (by exact_mod_cast b)⟩
    · exact ⟨by exact_mod_cast a, by exact_mod_cast (by omega : s < 61)⟩
  have e4 : (0 ≤ us ∧ us < 1000000) ↔ (0 ≤ us ∧ us ≤ 999999) := by omega
  unfold newDTTime createTime checkTimeArgs
  simp only [pyMod1_int, ne_eq, not_true_eq_false, false_and, if_false]
  simp only [e1, e2, e3, e4]
  have ok : ∀ {p : Prop} [Decidable p], p → pyAssert (decide p) = .ok () := fun h => by simp [pyAssert, h]
  have er : ∀ {p : Prop} [Decidable p], ¬ p → pyAssert (decide p) = .error .assertion := fun h => by simp [pyAssert, h]
  by_cases h1 : 0 ≤ h ∧ h ≤ 24
  · by_cases h2 : 0 ≤ mi ∧ mi ≤ 59
    · by_cases h3 : 0 ≤ s ∧ s ≤ 60
      · by_cases h4 : 0 ≤ us ∧ us ≤ 999999
        · rw [ok h1, ok h2, ok h3, ok h4, if_pos (by tauto)]; simp only [pyOk_bind]
        · rw [ok h1, ok h2, ok h3, er h4, if_neg (by tauto)]; simp only [pyOk_bind, pyErr_bind]
      · rw [ok h1, ok h2, er h3, if_neg (by tauto)]; simp only [pyOk_bind, pyErr_bind]
    · rw [ok h1, er h2, if_neg (by tauto)]; simp only [pyOk_bind, pyErr_bind]
  · rw [er h1, if_neg (by tauto)]; simp only [pyOk_bind, pyErr_bind]

example : (0 : ℤ) ≤ 24 ∧ (24 : ℤ) ≤ 24 ∧ (0 : ℤ) ≤ 59 ∧ (59 : ℤ) ≤ 59 ∧ (0 : ℤ) ≤ 60 ∧ (60 : ℤ) ≤ 60 ∧
    (0 : ℤ) ≤ 999999 ∧ (999999 : ℤ) ≤ 999999 := by decide

theorem newDTTime_inv {hour minute second : ℚ} {us : ℤ} {r} (h : newDTTime hour minute second us = .ok r) :
    createTime hour minute second us = .ok r ∧ (0 ≤ hour ∧ hour < 25) ∧ (0 ≤ minute ∧ minute < 60) ∧
      (0 ≤ second ∧ second < 61) ∧ (0 ≤ us ∧ us < 1000000) := by
  unfold newDTTime at h
  cases hc : createTime hour minute second us with
  | error e => rw [hc] at h; cases h
  | ok t =>
    rw [hc, pyOk_bind] at h
    unfold checkTimeArgs pyAssert at h
    by_cases h1 : 0 ≤ hour ∧ hour < 25
    · by_cases h2 : 0 ≤ minute ∧ minute < 60
      · by_cases h3 : 0 ≤ second ∧ second < 61
        · by_cases h4 : 0 ≤ us ∧ us < 1000000
          · simp [h1, h2, h3, h4, pyOk_bind] at h
            exact ⟨by rw [h], h1, h2, h3, h4⟩
          · simp only [h1, h2, h3, h4, decide_false] at h; cases h
        · simp only [h1, h2, h3, decide_false] at h; cases h
      · simp only [h1, h2, decide_false] at h; cases h
    · simp only [h1, decide_false] at h; cases h

/-- C49: a `datetime` constructed from any numbers has whole fields, with hour 0..24, minute 0..60, second 0..60 and
microsecond 0..1000000, and denotes the requested time up to 34 microseconds (3 when the hour is whole, 2 when the
minute is whole too). Missing from the full property: minute 60 and microsecond 1000000 should be excluded and the
time should be exact; both are false (below). -/
theorem C49_fields_partial (hour minute second : ℚ) (us : ℤ) (h mi s : ℚ) (u : ℤ)
    (hr : newDTTime hour minute second us = .ok (h, mi, s, u)) :
    (∃ a b c : ℤ, h = a ∧ mi = b ∧ s = c ∧ 0 ≤ a ∧ a ≤ 24 ∧ 0 ≤ b ∧ b ≤ 60 ∧ 0 ≤ c ∧ c ≤ 60) ∧
    0 ≤ u ∧ u ≤ 1000000 ∧
    |denotedSeconds h mi s u - denotedSeconds hour minute second us| ≤
      (if Int.fract hour ≠ 0 then 34 else if Int.fract minute ≠ 0 then 3 else 2) / 1000000 := by
  obtain ⟨hc, ⟨h0, h1⟩, ⟨m0, m1⟩, ⟨s0, s1⟩, u0, u1⟩ := newDTTime_inv hr
  have whole : ∀ x : ℚ, Int.fract x = 0 → x = ⌊x⌋ := by
    intro x hx
    have := Int.floor_add_fract x
    rw [hx] at this; linarith
  have fl0 : ∀ x : ℚ, 0 ≤ x → 0 ≤ ⌊x⌋ := fun x hx => Int.floor_nonneg.2 hx
  have flt : ∀ (x : ℚ) (n : ℤ), x < n → ⌊x⌋ < n := fun x n hx => Int.floor_lt.2 hx
  have fle : ∀ (x : ℚ) (n : ℤ), x ≤ n → ⌊x⌋ ≤ n := fun x n hx => by
    have := Int.floor_le_floor hx
    rwa [Int.floor_intCast] at this
  have uq0 : (0 : ℚ) ≤ us := by exact_mod_cast u0
  unfold createTime at hc
  rw [pyMod1_of_nonneg h0, pyMod1_of_nonneg m0, pyMod1_of_nonneg s0] at hc
  by_cases g1 : Int.fract hour ≠ 0 ∧ (minute ≠ 0 ∨ second ≠ 0 ∨ us ≠ 0)
  · rw [if_pos g1] at hc; cases hc
  rw [if_neg g1] at hc
  by_cases g2 : Int.fract minute ≠ 0 ∧ (second ≠ 0 ∨ us ≠ 0)
  · rw [if_pos g2] at hc; cases hc
  rw [if_neg g2] at hc
  by_cases g3 : Int.fract second ≠ 0 ∧ us ≠ 0
  · rw [if_pos g3] at hc; cases hc
  rw [if_neg g3] at hc
  have eh := Int.floor_add_fract hour
  have em := Int.floor_add_fract minute
  have es := Int.floor_add_fract second
  by_cases f1 : Int.fract hour ≠ 0
  · rw [if_pos f1] at hc
    have z : minute = 0 ∧ second = 0 ∧ us = 0 := by
      by_contra hz; apply g1; refine ⟨f1, ?_⟩; by_contra hn; apply hz; push Not at hn; exact hn
    obtain ⟨z1, z2, z3⟩ := z
    obtain ⟨a0, a1, ae⟩ := partialSixty_spec h0
    obtain ⟨b0, b1, be⟩ := partialSixty_spec a0
    obtain ⟨c0, c1, ce⟩ := partialMicro_spec b0
    simp only [Except.ok.injEq, Prod.mk.injEq] at hc
    obtain ⟨rfl, rfl, rfl, rfl⟩ := hc
    refine ⟨⟨_, _, _, rfl, rfl, rfl, fl0 _ h0, Int.lt_add_one_iff.1 (flt _ 25 (by exact_mod_cast h1)), fl0 _ a0,
      fle _ 60 (by exact_mod_cast a1), fl0 _ b0, fle _ 60 (by exact_mod_cast b1)⟩, c0, c1, ?_⟩
    rw [if_pos f1]
    have e1 := Int.floor_add_fract (partialSixty hour)
    have e2 := Int.floor_add_fract (partialSixty (partialSixty hour))
    unfold denotedSeconds
    rw [z1, z2, z3]
    rw [abs_le] at *
    push_cast
    constructor <;> linarith [ae.1, ae.2, be.1, be.2, ce.1, ce.2]
  · rw [if_neg f1] at hc
    have w1 := whole _ (not_not.1 f1)
    by_cases f2 : Int.fract minute ≠ 0
    · rw [if_pos f2] at hc
      have z : second = 0 ∧ us = 0 := by
        by_contra hz; apply g2; refine ⟨f2, ?_⟩; by_contra hn; apply hz; push Not at hn; exact hn
      obtain ⟨z2, z3⟩ := z
      obtain ⟨b0, b1, be⟩ := partialSixty_spec m0
      obtain ⟨c0, c1, ce⟩ := partialMicro_spec b0
      simp only [Except.ok.injEq, Prod.mk.injEq] at hc
      obtain ⟨rfl, rfl, rfl, rfl⟩ := hc
      refine ⟨⟨_, _, _, w1, rfl, rfl, fl0 _ h0, Int.lt_add_one_iff.1 (flt _ 25 (by exact_mod_cast h1)), fl0 _ m0,
        (flt _ 60 (by exact_mod_cast m1)).le, fl0 _ b0, fle _ 60 (by exact_mod_cast b1)⟩, c0, c1, ?_⟩
      rw [if_neg f1, if_pos f2]
      have e2 := Int.floor_add_fract (partialSixty minute)
      unfold denotedSeconds
      rw [z2, z3]
      rw [abs_le] at *
      push_cast
      constructor <;> linarith [be.1, be.2, ce.1, ce.2]
    · rw [if_neg f2] at hc
      have w2 := whole _ (not_not.1 f2)
      by_cases f3 : Int.fract second ≠ 0
      · rw [if_pos f3] at hc
        have z3 : us = 0 := by
          by_contra hz; exact g3 ⟨f3, hz⟩
        obtain ⟨c0, c1, ce⟩ := partialMicro_spec s0
        simp only [Except.ok.injEq, Prod.mk.injEq] at hc
        obtain ⟨rfl, rfl, rfl, rfl⟩ := hc
        refine ⟨⟨_, _, _, w1, w2, rfl, fl0 _ h0, Int.lt_add_one_iff.1 (flt _ 25 (by exact_mod_cast h1)), fl0 _ m0,
          (flt _ 60 (by exact_mod_cast m1)).le, fl0 _ s0, Int.lt_add_one_iff.1 (flt _ 61 (by exact_mod_cast s1))⟩,
          c0, c1, ?_⟩
        rw [if_neg f1, if_neg f2]
        unfold denotedSeconds
        rw [z3]
        rw [abs_le] at *
        push_cast
        constructor <;> linarith [ce.1, ce.2]
      · rw [if_neg f3] at hc
        have w3 := whole _ (not_not.1 f3)
        simp only [Except.ok.injEq, Prod.mk.injEq] at hc
        obtain ⟨rfl, rfl, rfl, rfl⟩ := hc
        refine ⟨⟨_, _, _, w1, w2, w3, fl0 _ h0, Int.lt_add_one_iff.1 (flt _ 25 (by exact_mod_cast h1)), fl0 _ m0,
          (flt _ 60 (by exact_mod_cast m1)).le, fl0 _ s0, Int.lt_add_one_iff.1 (flt _ 61 (by exact_mod_cast s1))⟩,
          u0, u1.le, ?_⟩
        rw [if_neg f1, if_neg f2, sub_self, abs_zero]
        norm_num

example : newDTTime (45 / 2) 0 0 0 = .ok (22, 30, 0, 0) ∧ newDTTime 22 (61 / 2) 0 0 = .ok (22, 30, 30, 0) ∧
    newDTTime 22 30 (fl (121 / 10)) 0 = .ok (22, 30, 12, 100000) := by decide +kernel

/-- C49: a fraction followed by a non-zero smaller field is refused with ValueError. -/
theorem C49_fraction_refused (hour minute second : ℚ) (us : ℤ) (h0 : 0 ≤ hour) (m0 : 0 ≤ minute) (s0 : 0 ≤ second)
    (h : (Int.fract hour ≠ 0 ∧ (minute ≠ 0 ∨ second ≠ 0 ∨ us ≠ 0)) ∨
      (Int.fract minute ≠ 0 ∧ (second ≠ 0 ∨ us ≠ 0)) ∨ (Int.fract second ≠ 0 ∧ us ≠ 0)) :
    newDTTime hour minute second us = .error .value := by
  have : createTime hour minute second us = .error .value := by
    unfold createTime
    rw [pyMod1_of_nonneg h0, pyMod1_of_nonneg m0, pyMod1_of_nonneg s0]
    by_cases a : Int.fract hour ≠ 0 ∧ (minute ≠ 0 ∨ second ≠ 0 ∨ us ≠ 0)
    · rw [if_pos a]
    · rw [if_neg a]
      by_cases b : Int.fract minute ≠ 0 ∧ (second ≠ 0 ∨ us ≠ 0)
      · rw [if_pos b]
      · rw [if_neg b, if_pos (by tauto)]
  unfold newDTTime
  rw [this]; rfl

example : Int.fract (3 / 2 : ℚ) ≠ 0 ∧ ((1 : ℚ) ≠ 0 ∨ (0 : ℚ) ≠ 0 ∨ (0 : ℤ) ≠ 0) :=
  ⟨by rw [show (3 / 2 : ℚ) = 1 / 2 + 1 by norm_num, Int.fract_add_one, Int.fract_eq_self.2 (by norm_num)]; norm_num,
    Or.inl (by norm_num)⟩

/-- C49 is false: hour 0.9999999999 gives minute 60; minute 0.9999999999 gives second 60; second 0.9999999 gives
microsecond 1000000. All three are accepted. -/
theorem C49_range_negation :
    newDTTime (fl (9999999999 / 10000000000)) 0 0 0 = .ok (0, 60, 0, 0) ∧
    newDTTime 0 (fl (9999999999 / 10000000000)) 0 0 = .ok (0, 0, 60, 0) ∧
    newDTTime 0 0 (fl (9999999 / 10000000)) 0 = .ok (0, 0, 0, 1000000) := by decide +kernel

/-- C49 is false: second 0.000249 loses a microsecond, and hour 1.000000005 loses 18:
the fields denote a different time. -/
theorem C49_exact_negation :
    newDTTime 0 0 (fl (249 / 1000000)) 0 = .ok (0, 0, 0, 248) ∧
    newDTTime (fl (1000000005 / 1000000000)) 0 0 0 = .ok (1, 0, 0, 0) := by decide +kernel

end Verif
