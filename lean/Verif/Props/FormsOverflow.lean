import Verif.Props.StructTime
import Verif.Props.Forms

/-!
# Property C05: what the conversion to the short form does with hour 24 and second 60

The code carries each overflow into the next field but takes only one unit out of the field that
overflowed. The theorems give the exact result for every valid date.
-/

namespace Verif

theorem shortFromLong_last {A : Astro} (hE : TehranEvening A) {k v w y m d n mi s us : ℤ} (hden : DenotesYear k v w y)
    (hd : DayNumber (Cal.init A) y m d n) (hl : ∀ n', ¬ DayNumber (Cal.init A) y m (d + 1) n') {y' m' d' n' : ℤ}
    (hd' : DayNumber (Cal.init A) y' m' d' n') (he : (m = 0 ∧ y' = y ∧ m' = 19 ∧ d' = 1) ∨
      (1 ≤ m ∧ m ≤ 18 ∧ y' = y ∧ m' = m + 1 ∧ d' = 19) ∨ (m = 19 ∧ y' = y + 1 ∧ m' = 1 ∧ d' = 19))
    (mi0 : 0 ≤ mi) (mi1 : mi ≤ 59) (s0 : 0 ≤ s) (s1 : s ≤ 59) (u0 : 0 ≤ us) (u1 : us ≤ 999999) :
    (Cal.init A).shortFromLong ⟨k, v, w, m, d, [((24 : ℤ) : ℚ), (mi : ℚ), (s : ℚ), (us : ℚ)]⟩ false =
      .ok ⟨y', m', (d' : ℚ), [((23 : ℤ) : ℚ), (mi : ℚ), (s : ℚ), (us : ℚ)]⟩ := by
  have g : getHms [((24 : ℤ) : ℚ), (mi : ℚ), (s : ℚ), (us : ℚ)] = (((24 : ℤ) : ℚ), (mi : ℚ), (s : ℚ), (us : ℚ)) := rfl
  obtain ⟨y0, y1, hv, -⟩ := (dayNumber_iff hE).mp hd
  obtain ⟨y0', y1', hv', -⟩ := (dayNumber_iff hE).mp hd'
  have hs : longYear k v w = y := by obtain ⟨-, -, -, -, e⟩ := hden; unfold longYear; omega
  have hlast : (1 ≤ m ∧ d = 19) ∨ (m = 0 ∧ d = 4 + if leapOf y then 1 else 0) := by
    have := hl (ysInt y + dBefore (leapOf y) m + (d + 1) - 1)
    rw [dayNumber_iff hE] at this
    rcases hv with ⟨a, b, c, e⟩ | ⟨rfl, a, b⟩
    · refine Or.inl ⟨a, ?_⟩
      by_contra h
      exact this ⟨y0, y1, Or.inl ⟨a, b, by omega, by omega⟩, rfl⟩
    · refine Or.inr ⟨rfl, ?_⟩
      by_contra h
      exact this ⟨y0, y1, Or.inr ⟨rfl, by omega, by split_ifs at * <;> omega⟩, rfl⟩
  have hm : (Cal.init A).monthLen y m = .ok d := by
    unfold Cal.monthLen
    rcases hlast with ⟨a, rfl⟩ | ⟨rfl, rfl⟩
    · rw [if_pos (by omega)]
    · rw [if_neg (by omega), init_isLeap hE y0 y1, pyOk_bind]
      rfl
  have dr : 1 ≤ d ∧ d ≤ 19 := by
    rcases hlast with ⟨a, rfl⟩ | ⟨rfl, rfl⟩ <;> [omega; (split_ifs <;> omega)]
  have f1 : fl ((d : ℚ) + 1) = ((d + 1 : ℤ) : ℚ) := by
    have := fl_int (d + 1) (by rw [abs_le]; constructor <;> omega)
    push_cast at this ⊢
    exact this
  have f2 : fl ((24 : ℤ) - 1 : ℚ) = ((23 : ℤ) : ℚ) := by
    have := fl_int 23 (by norm_num)
    norm_num at this ⊢
    exact this
  have f3 : fl (((d + 1 : ℤ) : ℚ) - 1) = (d : ℚ) := by
    have := fl_int d (by rw [abs_le]; constructor <;> omega)
    push_cast
    rw [add_sub_cancel_right]
    exact this
  have q1 : ¬ (60 : ℚ) ≤ s := by rw [not_le]; exact_mod_cast (by omega : s < 60)
  have q2 : ¬ (60 : ℚ) ≤ mi := by rw [not_le]; exact_mod_cast (by omega : mi < 60)
  have q3 : (24 : ℚ) ≤ ((24 : ℤ) : ℚ) := by norm_num
  have q4 : ((d : ℚ) < ((d + 1 : ℤ) : ℚ)) := by exact_mod_cast (by omega : d < d + 1)
  have hck : (Cal.init A).checkShort ⟨y', m', (d' : ℚ), [((23 : ℤ) : ℚ), (mi : ℚ), (s : ℚ), (us : ℚ)]⟩ = .ok () :=
    checkShort_time (init_isLeap hE y0' y1') y0' (by omega) hv' (by omega) (by omega) mi0 mi1 s0 s1 u0 u1
  unfold Cal.shortFromLong
  simp only [g, hs]
  rw [hm, pyOk_bind]
  simp only [q1, q2, q3, if_false, if_true, f1, f2, f3, q4]
  rcases hlast with ⟨a, rfl⟩ | ⟨rfl, hdd⟩
  · rcases he with ⟨h, -⟩ | ⟨h0, h1, rfl, rfl, rfl⟩ | ⟨rfl, rfl, rfl, rfl⟩
    · omega
    · have q6 : ¬ (19 < m + 1) := by omega
      simp only [q6, if_false, (by decide : ¬ ((19 : ℤ) = 4 ∨ (19 : ℤ) = 5))]
      rw [if_neg (by simp), hck, pyOk_bind]
    · simp only [if_false, if_true, (by decide : ¬ ((19 : ℤ) = 4 ∨ (19 : ℤ) = 5)), (by decide : (19 : ℤ) < 19 + 1)]
      rw [if_neg (by simp), hck, pyOk_bind]
  · rcases he with ⟨-, rfl, rfl, rfl⟩ | ⟨h0, -⟩ | ⟨h, -⟩
    · have q7 : d = 4 ∨ d = 5 := by rw [hdd]; split_ifs <;> omega
      simp only [q7, if_true, lt_irrefl, if_false]
      push_cast at hck ⊢
      rw [hck, pyOk_bind]
    · omega
    · omega

/-- C05 is false for every time at hour 24 of a day before the last of its month: the result is on the next day, as it
should be, but at hour 23 instead of hour 0. -/
theorem C05_hour_24_in_month_negation (A : Astro) (hE : TehranEvening A) (k v w y m d n mi s us : ℤ) (hden : DenotesYear k v w y)
    (d0 : 1 ≤ d) (hd : DayNumber (Cal.init A) y m (d + 1) n) (mi0 : 0 ≤ mi) (mi1 : mi ≤ 59) (s0 : 0 ≤ s) (s1 : s ≤ 59)
    (u0 : 0 ≤ us) (u1 : us ≤ 999999) :
    (Cal.init A).shortFromLong ⟨k, v, w, m, d, [((24 : ℤ) : ℚ), (mi : ℚ), (s : ℚ), (us : ℚ)]⟩ false =
      .ok ⟨y, m, ((d + 1 : ℤ) : ℚ), [((23 : ℤ) : ℚ), (mi : ℚ), (s : ℚ), (us : ℚ)]⟩ :=
  shortFromLong_24 hE hden hd d0 mi0 mi1 s0 s1 u0 u1 rfl

/-- Hour 24 of the first day of the month of fasting of the year 182. -/
example : DenotesYear 1 10 11 182 ∧ DayNumber (Cal.init newYearSun) 182 19 (1 + 1) (739676 + 1) := hour24_witness.2

/-- C05 is false for every time at hour 24 of the last day of Ayyám-i-Há: the result is on the next day, the first of the
month of fasting, but at hour 23 instead of hour 0. -/
theorem C05_hour_24_ayyam_negation (A : Astro) (hE : TehranEvening A) (k v w y d n mi s us : ℤ) (hden : DenotesYear k v w y)
    (hd : DayNumber (Cal.init A) y 0 d n) (hl : ∀ n', ¬ DayNumber (Cal.init A) y 0 (d + 1) n')
    (mi0 : 0 ≤ mi) (mi1 : mi ≤ 59) (s0 : 0 ≤ s) (s1 : s ≤ 59) (u0 : 0 ≤ us) (u1 : us ≤ 999999) :
    (Cal.init A).shortFromLong ⟨k, v, w, 0, d, [((24 : ℤ) : ℚ), (mi : ℚ), (s : ℚ), (us : ℚ)]⟩ false =
      .ok ⟨y, 19, ((1 : ℤ) : ℚ), [((23 : ℤ) : ℚ), (mi : ℚ), (s : ℚ), (us : ℚ)]⟩ ∧
    DayNumber (Cal.init A) y 19 1 (n + 1) := by
  obtain ⟨y0, y1, hv, e⟩ := (dayNumber_iff hE).mp hd
  have hn := hl (ysInt y + dBefore (leapOf y) 0 + (d + 1) - 1)
  rw [dayNumber_iff hE] at hn
  have hd' : DayNumber (Cal.init A) y 19 1 (n + 1) := by
    rw [dayNumber_iff hE]
    refine ⟨y0, y1, Or.inl ⟨by omega, by omega, by omega, by omega⟩, ?_⟩
    rcases hv with ⟨a, -⟩ | ⟨-, a, b⟩
    · omega
    · have : d = 4 + if leapOf y then 1 else 0 := by
        by_contra h
        exact hn ⟨y0, y1, Or.inr ⟨rfl, by omega, by split_ifs at * <;> omega⟩, rfl⟩
      rw [e, this]
      unfold dBefore
      cases leapOf y <;> simp <;> ring
  exact ⟨shortFromLong_last hE hden hd hl hd' (Or.inl ⟨rfl, rfl, rfl, rfl⟩) mi0 mi1 s0 s1 u0 u1, hd'⟩

/-- The fourth day of Ayyám-i-Há of the year 181 is its last: the day after it is no day. -/
theorem ayyam_witness : DenotesYear 1 10 10 181 ∧ DayNumber (Cal.init newYearSun) 181 0 4 (ysInt 181 + 345) ∧
    ∀ n', ¬ DayNumber (Cal.init newYearSun) 181 0 (4 + 1) n' := by
  have hl : leapOf 181 = false := by decide +kernel
  refine ⟨by unfold DenotesYear; omega, ?_, fun n' h => ?_⟩
  · rw [dayNumber_iff newYearSun_tehran, hl]
    refine ⟨by norm_num, by norm_num, Or.inr ⟨rfl, by norm_num, by norm_num⟩, ?_⟩
    simp [dBefore]
    ring
  · rw [dayNumber_iff newYearSun_tehran, hl] at h
    obtain ⟨-, -, ⟨a, -⟩ | ⟨-, -, a⟩, -⟩ := h
    · omega
    · norm_num at a

example : DenotesYear 1 10 10 181 ∧ DayNumber (Cal.init newYearSun) 181 0 4 (ysInt 181 + 345) ∧
    ∀ n', ¬ DayNumber (Cal.init newYearSun) 181 0 (4 + 1) n' := ayyam_witness

/-- C05 is false for every time at hour 24 of the last day of the months 1 to 18: the result is the last day of the month
with the next number at hour 23. For months 1 to 17 that is 18 days and 23 hours late, for month 18 it skips
Ayyám-i-Há as well and is 22 or 23 days and 23 hours late. -/
theorem C05_hour_24_month_end_negation (A : Astro) (hE : TehranEvening A) (k v w y m n mi s us : ℤ) (hden : DenotesYear k v w y)
    (m0 : 1 ≤ m) (m1 : m ≤ 18) (hd : DayNumber (Cal.init A) y m 19 n)
    (mi0 : 0 ≤ mi) (mi1 : mi ≤ 59) (s0 : 0 ≤ s) (s1 : s ≤ 59) (u0 : 0 ≤ us) (u1 : us ≤ 999999) :
    (Cal.init A).shortFromLong ⟨k, v, w, m, ((19 : ℤ) : ℚ), [((24 : ℤ) : ℚ), (mi : ℚ), (s : ℚ), (us : ℚ)]⟩ false =
      .ok ⟨y, m + 1, ((19 : ℤ) : ℚ), [((23 : ℤ) : ℚ), (mi : ℚ), (s : ℚ), (us : ℚ)]⟩ ∧
    ∃ n', DayNumber (Cal.init A) y (m + 1) 19 n' ∧ (m ≤ 17 → n' = n + 1 + 18) ∧ (m = 18 → n' = n + 1 + 22 ∨ n' = n + 1 + 23) := by
  obtain ⟨y0, y1, hv, e⟩ := (dayNumber_iff hE).mp hd
  have hd' : DayNumber (Cal.init A) y (m + 1) 19 (ysInt y + dBefore (leapOf y) (m + 1) + 19 - 1) := by
    rw [dayNumber_iff hE]
    exact ⟨y0, y1, Or.inl ⟨by omega, by omega, by omega, by omega⟩, rfl⟩
  have hl : ∀ n', ¬ DayNumber (Cal.init A) y m (19 + 1) n' := by
    intro n' h
    obtain ⟨-, -, ⟨-, -, -, a⟩ | ⟨a, -⟩, -⟩ := (dayNumber_iff hE).mp h <;> omega
  refine ⟨shortFromLong_last hE hden hd hl hd' (Or.inr (Or.inl ⟨m0, m1, rfl, rfl, rfl⟩)) mi0 mi1 s0 s1 u0 u1, _, hd', ?_, ?_⟩
  · intro h
    rw [e]
    unfold dBefore
    rw [if_neg (by omega), if_pos (by omega), if_neg (by omega), if_pos (by omega)]
    ring
  · rintro rfl
    rw [e]
    unfold dBefore
    cases leapOf y <;> simp <;> omega

theorem month_end_witness (m : ℤ) (m0 : 1 ≤ m) (m1 : m ≤ 19) : DenotesYear 1 10 10 181 ∧
    DayNumber (Cal.init newYearSun) 181 m 19 (ysInt 181 + dBefore (leapOf 181) m + 19 - 1) := by
  refine ⟨by unfold DenotesYear; omega, ?_⟩
  rw [dayNumber_iff newYearSun_tehran]
  exact ⟨by norm_num, by norm_num, Or.inl ⟨m0, m1, by norm_num, by norm_num⟩, rfl⟩

example : DenotesYear 1 10 10 181 ∧ ∃ n, DayNumber (Cal.init newYearSun) 181 18 19 n :=
  ⟨(month_end_witness 18 (by norm_num) (by norm_num)).1, _, (month_end_witness 18 (by norm_num) (by norm_num)).2⟩

/-- C05 is false for every time at hour 24 of the last day of a year: the result is day 19 of the first month of the next
year at hour 23, which is 18 days and 23 hours late. -/
theorem C05_hour_24_year_end_negation (A : Astro) (hE : TehranEvening A) (k v w y n mi s us : ℤ) (hden : DenotesYear k v w y)
    (hd : DayNumber (Cal.init A) y 19 19 n) (hy : y ≤ 1160)
    (mi0 : 0 ≤ mi) (mi1 : mi ≤ 59) (s0 : 0 ≤ s) (s1 : s ≤ 59) (u0 : 0 ≤ us) (u1 : us ≤ 999999) :
    (Cal.init A).shortFromLong ⟨k, v, w, 19, ((19 : ℤ) : ℚ), [((24 : ℤ) : ℚ), (mi : ℚ), (s : ℚ), (us : ℚ)]⟩ false =
      .ok ⟨y + 1, 1, ((19 : ℤ) : ℚ), [((23 : ℤ) : ℚ), (mi : ℚ), (s : ℚ), (us : ℚ)]⟩ ∧
    DayNumber (Cal.init A) (y + 1) 1 19 (n + 1 + 18) := by
  obtain ⟨y0, y1, hv, e⟩ := (dayNumber_iff hE).mp hd
  have hd' : DayNumber (Cal.init A) (y + 1) 1 19 (n + 1 + 18) := by
    rw [dayNumber_iff hE]
    refine ⟨by omega, by omega, Or.inl ⟨by omega, by omega, by omega, by omega⟩, ?_⟩
    rw [e, leapOf_len y0 y1]
    unfold dBefore
    cases leapOf y <;> cases leapOf (y + 1) <;> simp <;> omega
  have hl : ∀ n', ¬ DayNumber (Cal.init A) y 19 (19 + 1) n' := by
    intro n' h
    obtain ⟨-, -, ⟨-, -, -, a⟩ | ⟨a, -⟩, -⟩ := (dayNumber_iff hE).mp h <;> omega
  exact ⟨shortFromLong_last hE hden hd hl hd' (Or.inr (Or.inr ⟨rfl, rfl, rfl, rfl⟩)) mi0 mi1 s0 s1 u0 u1, hd'⟩

example : DenotesYear 1 10 10 181 ∧ (∃ n, DayNumber (Cal.init newYearSun) 181 19 19 n) ∧ (181 : ℤ) ≤ 1160 :=
  ⟨(month_end_witness 19 (by norm_num) (by norm_num)).1, ⟨_, (month_end_witness 19 (by norm_num) (by norm_num)).2⟩, by norm_num⟩

/-- C05 is false for second 60, which the time tuples accept: the minute is advanced but the second only drops to 59. The
result is 59 seconds late, and at minute 59 the same is done to the minute, so that it is 59 minutes and 59 seconds
late. -/
theorem C05_second_60_negation (A : Astro) (hE : TehranEvening A) (k v w y m d n h mi us : ℤ) (hden : DenotesYear k v w y)
    (hd : DayNumber (Cal.init A) y m d n) (h0 : 0 ≤ h) (h1 : h ≤ 23) (mi0 : 0 ≤ mi) (mi1 : mi ≤ 59)
    (hx : ¬ (h = 23 ∧ mi = 59)) (u0 : 0 ≤ us) (u1 : us ≤ 999999) :
    ∃ t', (Cal.init A).shortFromLong ⟨k, v, w, m, d, [(h : ℚ), (mi : ℚ), ((60 : ℤ) : ℚ), (us : ℚ)]⟩ false = .ok ⟨y, m, (d : ℚ), t'⟩ ∧
      specSeconds t' = specSeconds [(h : ℚ), (mi : ℚ), ((60 : ℤ) : ℚ), (us : ℚ)] + (if mi = 59 then 3599 else 59) := by
  have g : getHms [(h : ℚ), (mi : ℚ), ((60 : ℤ) : ℚ), (us : ℚ)] = ((h : ℚ), (mi : ℚ), ((60 : ℤ) : ℚ), (us : ℚ)) := rfl
  obtain ⟨y0, y1, hv, -⟩ := (dayNumber_iff hE).mp hd
  obtain ⟨c, hcy, c1, c2, c3, c4⟩ := cycleOf_valid (init_isLeap hE y0 y1) hv
  have hs : longYear k v w = y := by obtain ⟨-, -, -, -, e⟩ := hden; unfold longYear; omega
  have f1 : fl ((mi : ℚ) + 1) = ((mi + 1 : ℤ) : ℚ) := by
    have := fl_int (mi + 1) (by rw [abs_le]; constructor <;> omega)
    push_cast at this ⊢
    exact this
  have f2 : fl (((60 : ℤ) : ℚ) - 1) = ((59 : ℤ) : ℚ) := by
    have := fl_int 59 (by norm_num)
    norm_num at this ⊢
    exact this
  have f3 : fl ((h : ℚ) + 1) = ((h + 1 : ℤ) : ℚ) := by
    have := fl_int (h + 1) (by rw [abs_le]; constructor <;> omega)
    push_cast at this ⊢
    exact this
  have q1 : (60 : ℚ) ≤ ((60 : ℤ) : ℚ) := by norm_num
  have q4 : ¬ (((c - 1 : ℤ) : ℚ) < (d : ℚ)) := by
    rw [not_lt]; exact_mod_cast (by omega : d ≤ c - 1)
  have q5 : ¬ (19 < m) := by omega
  unfold Cal.shortFromLong
  simp only [g, hs]
  rw [monthLen_of_cycle c3 c4 hcy, pyOk_bind]
  by_cases hm : mi = 59
  · subst hm
    have q2 : (60 : ℚ) ≤ ((59 + 1 : ℤ) : ℚ) := by norm_num
    have f4 : fl (((59 + 1 : ℤ) : ℚ) - 1) = ((59 : ℤ) : ℚ) := by
      have := fl_int 59 (by norm_num)
      norm_num at this ⊢
      exact this
    have q3 : ¬ (24 : ℚ) ≤ ((h + 1 : ℤ) : ℚ) := by
      rw [not_le]; exact_mod_cast (by omega : h + 1 < 24)
    have hck : (Cal.init A).checkShort ⟨y, m, (d : ℚ), [((h + 1 : ℤ) : ℚ), ((59 : ℤ) : ℚ), ((59 : ℤ) : ℚ), (us : ℚ)]⟩ = .ok () :=
      checkShort_time (init_isLeap hE y0 y1) y0 (by omega) hv (by omega) (by omega) (by omega) (by omega) (by omega) (by omega) u0 u1
    simp only [q1, q2, q3, q4, q5, if_false, if_true, f1, f2, f3, f4]
    refine ⟨[((h + 1 : ℤ) : ℚ), ((59 : ℤ) : ℚ), ((59 : ℤ) : ℚ), (us : ℚ)], ?_, ?_⟩
    · rw [if_neg (by simp), hck, pyOk_bind]
    · simp [specSeconds]
      ring
  · have q2 : ¬ (60 : ℚ) ≤ ((mi + 1 : ℤ) : ℚ) := by
      rw [not_le]; exact_mod_cast (by omega : mi + 1 < 60)
    have q3 : ¬ (24 : ℚ) ≤ (h : ℚ) := by
      rw [not_le]; exact_mod_cast (by omega : h < 24)
    have hck : (Cal.init A).checkShort ⟨y, m, (d : ℚ), [(h : ℚ), ((mi + 1 : ℤ) : ℚ), ((59 : ℤ) : ℚ), (us : ℚ)]⟩ = .ok () :=
      checkShort_time (init_isLeap hE y0 y1) y0 (by omega) hv (by omega) (by omega) (by omega) (by omega) (by omega) (by omega) u0 u1
    simp only [q1, q2, q3, q4, q5, if_false, if_true, f1, f2]
    refine ⟨[(h : ℚ), ((mi + 1 : ℤ) : ℚ), ((59 : ℤ) : ℚ), (us : ℚ)], ?_, ?_⟩
    · rw [if_neg (by simp), hck, pyOk_bind]
    · simp [specSeconds, hm]
      ring

example : DenotesYear 1 10 10 181 ∧ (∃ n, DayNumber (Cal.init newYearSun) 181 18 19 n) ∧ ¬ ((22 : ℤ) = 23 ∧ (59 : ℤ) = 59) :=
  ⟨(month_end_witness 18 (by norm_num) (by norm_num)).1, ⟨_, (month_end_witness 18 (by norm_num) (by norm_num)).2⟩, by norm_num⟩

end Verif
