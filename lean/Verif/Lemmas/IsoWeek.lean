import Verif.Lemmas.Ordinal

/-!
# ISO weeks: lemmas
-/

namespace Verif

/-- The day number of the first day of week 1 of year `y`. -/
def week1 (y : ℤ) : ℤ := ysInt y + 3 - (ysInt y + 3 + 1) % 7

theorem dayOfWeek_ok {A : Astro} (hE : TehranEvening A) (hO : NewYearOrder (Cal.init A)) {y m d n : ℤ}
    (hd : DayNumber (Cal.init A) y m d n) : (Cal.init A).dayOfWeek y m d = .ok ((n + 1) % 7) := by
  unfold Cal.dayOfWeek
  rw [ord_ok hE hO hd, pyOk_bind]
  congr 1
  omega

theorem dayOfWeek_first {A : Astro} (hE : TehranEvening A) (hO : NewYearOrder (Cal.init A)) {y : ℤ}
    (h0 : -1843 ≤ y) (h1 : y ≤ 1162) : (Cal.init A).dayOfWeek y 1 1 = .ok ((ysInt y + 1) % 7) := by
  unfold Cal.dayOfWeek
  rw [ord_first hE hO h0 h1, pyOk_bind]
  congr 1
  omega

theorem isoweek1_ok {A : Astro} (hE : TehranEvening A) (hO : NewYearOrder (Cal.init A)) {y : ℤ}
    (h0 : -1843 ≤ y) (h1 : y ≤ 1162) : (Cal.init A).isoweek1jalal y = .ok (week1 y) := by
  unfold Cal.isoweek1jalal
  rw [ord_first hE hO h0 h1, pyOk_bind]
  simp only
  congr 1
  unfold week1
  split_ifs <;> omega

/-- What `_year_week_day` computes: the ISO year is the one whose weeks contain the day. -/
theorem yearWeekDay_ok {A : Astro} (hE : TehranEvening A) (hO : NewYearOrder (Cal.init A)) {y m d n : ℤ}
    (hd : DayNumber (Cal.init A) y m d n) (hy : -1842 ≤ y) :
    ∃ Y, (Cal.init A).yearWeekDay y m d = .ok (Y, (n - week1 Y) / 7 + 1, (n - week1 Y) % 7 + 1) ∧
      y - 1 ≤ Y ∧ Y ≤ y + 1 ∧ week1 Y ≤ n ∧ n < week1 Y + 371 ∧ (Y ≤ 1161 → n < week1 (Y + 1)) := by
  obtain ⟨-, y1, n0, n1⟩ := dayNumber_year hE hd
  have hlen := leapOf_len (y := y) (by omega) y1
  have hlen' := leapOf_len (y := y - 1) (by omega) (by omega)
  rw [sub_add_cancel] at hlen'
  unfold Cal.yearWeekDay
  rw [isoweek1_ok hE hO (by omega) (by omega), pyOk_bind, ord_ok hE hO hd, pyOk_bind]
  have w : week1 y ≤ ysInt y + 3 ∧ ysInt y - 3 ≤ week1 y ∧ week1 y % 7 = 6 := by unfold week1; omega
  have w' : week1 (y + 1) ≤ ysInt (y + 1) + 3 ∧ ysInt (y + 1) - 3 ≤ week1 (y + 1) ∧ week1 (y + 1) % 7 = 6 := by
    unfold week1; omega
  have w0 : week1 (y - 1) ≤ ysInt (y - 1) + 3 ∧ ysInt (y - 1) - 3 ≤ week1 (y - 1) ∧ week1 (y - 1) % 7 = 6 := by
    unfold week1; omega
  have l1 : ysInt (y + 1) - ysInt y = 365 ∨ ysInt (y + 1) - ysInt y = 366 := by split_ifs at hlen <;> omega
  have l0 : ysInt y - ysInt (y - 1) = 365 ∨ ysInt y - ysInt (y - 1) = 366 := by split_ifs at hlen' <;> omega
  by_cases c1 : (n - week1 y) / 7 < 0
  · simp only [c1, and_self, if_true]
    rw [isoweek1_ok hE hO (by omega) (by omega), pyOk_bind]
    refine ⟨y - 1, rfl, by omega, by omega, by omega, by omega, fun _ => ?_⟩
    rw [sub_add_cancel]; omega
  · by_cases c2 : 52 ≤ (n - week1 y) / 7
    · simp only [c1, c2, and_false, and_self, if_true, if_false]
      rw [isoweek1_ok hE hO (by omega) (by omega), pyOk_bind]
      by_cases c3 : week1 (y + 1) ≤ n
      · rw [if_pos c3]
        refine ⟨y + 1, ?_, by omega, by omega, c3, by omega, ?_⟩
        · have e1 : (n - week1 (y + 1)) / 7 = 0 := by omega
          have e2 : (n - week1 (y + 1)) % 7 = (n - week1 y) % 7 := by omega
          rw [e1, e2]
        · intro hy2
          have hlen2 := leapOf_len (y := y + 1) (by omega) hy2
          have l2 : ysInt (y + 1 + 1) - ysInt (y + 1) = 365 ∨ ysInt (y + 1 + 1) - ysInt (y + 1) = 366 := by
            split_ifs at hlen2 <;> omega
          have w2 : ysInt (y + 1 + 1) - 3 ≤ week1 (y + 1 + 1) := by unfold week1; omega
          omega
      · rw [if_neg c3]
        exact ⟨y, rfl, by omega, by omega, by omega, by omega, fun _ => by omega⟩
    · simp only [c1, c2, and_false, if_false]
      exact ⟨y, rfl, by omega, by omega, by omega, by omega, fun _ => by omega⟩

/-- A year is 52 or 53 weeks long; 53 only if it begins on the third or fourth day of the week. -/
theorem week1_step {y : ℤ} (h0 : -1843 ≤ y) (h1 : y ≤ 1161) :
    (week1 (y + 1) = week1 y + 364 ∨ week1 (y + 1) = week1 y + 371) ∧
    (week1 (y + 1) = week1 y + 371 → (ysInt y + 1) % 7 = 2 ∨ (ysInt y + 1) % 7 = 3) := by
  have hlen := leapOf_len (y := y) h0 h1
  have l1 : ysInt (y + 1) - ysInt y = 365 ∨ ysInt (y + 1) - ysInt y = 366 := by split_ifs at hlen <;> omega
  unfold week1
  omega

theorem ord2ymd_trim {C : Cal} {n : ℤ} {short : Bool} {b : BDate} (h : C.ord2ymd n short = .ok b) :
    (∃ y m d, b = .short ⟨y, m, d, []⟩) ∨ ∃ k v y m d, b = .long ⟨k, v, y, m, d, []⟩ := by
  unfold Cal.ord2ymd Cal.badiDateFromJd at h
  rw [show xorBoolean [false, false, true] = true by decide] at h
  simp only [pyAssert, pyOk_bind, if_true, Bool.false_eq_true, if_false] at h
  cases hy : C.badiYmdFromJd (ordJd n) tehranLat tehranLon with
  | error e => rw [hy] at h; cases h
  | ok q =>
    obtain ⟨y, m, d, fr⟩ := q
    rw [hy, pyOk_bind] at h
    simp only at h
    cases short with
    | true => injection h with h; exact Or.inl ⟨_, _, _, h.symm⟩
    | false =>
      simp only [Bool.false_eq_true, if_false] at h
      unfold Cal.longFromShort at h
      simp only [if_true] at h
      have hz : trimHms [(getHms []).1, (getHms []).2.1, (getHms []).2.2.1, (getHms []).2.2.2] = [] := by
        decide +kernel
      rw [hz] at h
      cases hc : C.checkLong ⟨(kvyFromYear y).1, (kvyFromYear y).2.1, (kvyFromYear y).2.2, m,
          (roundHalfEven (fl (d + fr)) : ℚ), []⟩ with
      | error e => rw [hc] at h; cases h
      | ok u =>
        rw [hc] at h
        injection h with h
        exact Or.inr ⟨_, _, _, _, _, h.symm⟩

theorem isoOrd_eq {C : Cal} (n : ℤ) (short : Bool) :
    (do let b ← C.ord2ymd n short
        match b with
        | .short s => C.newDate (.short s.y s.m ⌊s.d⌋)
        | .long l => C.newDate (.long l.k l.v l.y l.m ⌊l.d⌋)) = C.fromOrdinal n short := by
  unfold Cal.fromOrdinal
  cases h : C.ord2ymd n short with
  | error e => rfl
  | ok b =>
    rcases ord2ymd_trim h with ⟨y, m, d, rfl⟩ | ⟨k, v, y, m, d, rfl⟩ <;> rfl

/-- `fromisocalendar` where the week is not one that the code treats specially. -/
theorem fromIso_ok {A : Astro} (hE : TehranEvening A) (hO : NewYearOrder (Cal.init A)) {y w d : ℤ} (short : Bool)
    (h0 : -1843 ≤ y) (h1 : y ≤ 1162) (hd0 : 1 ≤ d) (hd1 : d ≤ 7)
    (hw : (1 ≤ w ∧ w ≤ 51) ∨ ¬ ((ysInt y + 1) % 7 = 2 ∨ (ysInt y + 1) % 7 = 3)) :
    (Cal.init A).fromIsoCalendar y w d short =
      (Cal.init A).fromOrdinal (week1 y + (w - 1) * 7 + (d - 1)) short := by
  have ho : (Cal.init A).isoweekOffset y w = .ok 0 := by
    unfold Cal.isoweekOffset
    by_cases c : 0 < w ∧ w < 52
    · simp only [c, not_true, if_false, and_self]
    · rw [if_pos c, dayOfWeek_first hE hO h0 h1, pyOk_bind]
      simp only
      rw [if_neg (by omega)]
  unfold Cal.fromIsoCalendar Cal.isoweekToBadi
  rw [ho, pyOk_bind, pyAssert_true (by omega), pyOk_bind, isoweek1_ok hE hO h0 h1, pyOk_bind]
  rw [show week1 y + ((w - 1) * 7 + (d - 1) + 0) = week1 y + (w - 1) * 7 + (d - 1) by ring]
  exact isoOrd_eq _ _

/-- Week 52 in the years that begin on the third or fourth day of the week. -/
theorem fromIso_52 {A : Astro} (hE : TehranEvening A) (hO : NewYearOrder (Cal.init A)) {y d : ℤ} (short : Bool)
    (h0 : -1843 ≤ y) (h1 : y ≤ 1162) (hd0 : 1 ≤ d) (hd1 : d ≤ 7)
    (hw : (ysInt y + 1) % 7 = 2 ∨ (ysInt y + 1) % 7 = 3) :
    (Cal.init A).fromIsoCalendar y 52 d short =
      (Cal.init A).fromOrdinal (week1 y + 52 * 7 + (d - 1)) short := by
  have ho : (Cal.init A).isoweekOffset y 52 = .ok 7 := by
    unfold Cal.isoweekOffset
    rw [if_pos (by omega), dayOfWeek_first hE hO h0 h1, pyOk_bind]
    simp only
    rw [if_pos (by omega), if_pos trivial]
  unfold Cal.fromIsoCalendar Cal.isoweekToBadi
  rw [ho, pyOk_bind, pyAssert_true (by omega), pyOk_bind, isoweek1_ok hE hO h0 h1, pyOk_bind]
  rw [show week1 y + ((52 - 1) * 7 + (d - 1) + 7) = week1 y + 52 * 7 + (d - 1) by ring]
  exact isoOrd_eq _ _

/-- Other weeks outside 1..51 in those years. -/
theorem fromIso_err {A : Astro} (hE : TehranEvening A) (hO : NewYearOrder (Cal.init A)) {y w d : ℤ} (short : Bool)
    (h0 : -1843 ≤ y) (h1 : y ≤ 1162) (hw0 : w < 1 ∨ 52 < w)
    (hw : (ysInt y + 1) % 7 = 2 ∨ (ysInt y + 1) % 7 = 3) :
    (Cal.init A).fromIsoCalendar y w d short = .error .assertion := by
  have ho : (Cal.init A).isoweekOffset y w = .error .assertion := by
    unfold Cal.isoweekOffset
    rw [if_pos (by omega), dayOfWeek_first hE hO h0 h1, pyOk_bind]
    simp only
    rw [if_pos (by omega), if_neg (by omega)]
  unfold Cal.fromIsoCalendar Cal.isoweekToBadi
  rw [ho]
  rfl

/-- A weekday outside 1..7 is refused. -/
theorem fromIso_day {A : Astro} (hE : TehranEvening A) (hO : NewYearOrder (Cal.init A)) {y w d : ℤ} (short : Bool)
    (h0 : -1843 ≤ y) (h1 : y ≤ 1162) (hd : d < 1 ∨ 7 < d) :
    (Cal.init A).fromIsoCalendar y w d short = .error .assertion := by
  have ho : (Cal.init A).isoweekOffset y w = .error .assertion ∨
      ∃ k, (Cal.init A).isoweekOffset y w = .ok k := by
    unfold Cal.isoweekOffset
    rw [dayOfWeek_first hE hO h0 h1, pyOk_bind]
    simp only
    split_ifs <;> simp
  unfold Cal.fromIsoCalendar Cal.isoweekToBadi
  rcases ho with ho | ⟨k, ho⟩
  · rw [ho]; rfl
  · rw [ho, pyOk_bind, pyAssert_false (by omega)]; rfl

/-- A week of two characters and a weekday in the short form: a day of the calendar, or one of two refusals. -/
theorem isoweek_cases {A : Astro} (hE : TehranEvening A) (hO : NewYearOrder (Cal.init A)) {y w d : ℤ}
    (h0 : -1842 ≤ y) (h1 : y ≤ 1161) (hw0 : -9 ≤ w) (hw1 : w ≤ 99) :
    (Cal.init A).isoweekToBadi y w d true = .error .value ∨ (Cal.init A).isoweekToBadi y w d true = .error .assertion ∨
    ∃ r n, (Cal.init A).isoweekToBadi y w d true = .ok (.short r) ∧ DayNumber (Cal.init A) r.y r.m ⌊r.d⌋ n := by
  have ho : (Cal.init A).isoweekOffset y w = .error .assertion ∨
      ∃ k, (Cal.init A).isoweekOffset y w = .ok k ∧ 0 ≤ k ∧ k ≤ 7 := by
    unfold Cal.isoweekOffset
    rw [dayOfWeek_first hE hO (by omega) (by omega), pyOk_bind]
    simp only
    split_ifs <;> simp
  unfold Cal.isoweekToBadi
  rcases ho with ho | ⟨k, ho, k0, k1⟩
  · rw [ho]; exact Or.inr (Or.inl rfl)
  rw [ho, pyOk_bind]
  by_cases hd : 0 < d ∧ d < 8
  swap
  · rw [pyAssert_false hd]; exact Or.inr (Or.inl rfl)
  rw [pyAssert_true hd, pyOk_bind, isoweek1_ok hE hO (by omega) (by omega), pyOk_bind]
  have wk : week1 y ≤ ysInt y + 3 ∧ ysInt y - 3 ≤ week1 y := by unfold week1; omega
  have y0 := ysInt_mono (a := -1842) (b := y) (by omega) (by omega) (by omega)
  have y1 := ysInt_mono (a := y) (b := 1161) (by omega) (by omega) (by omega)
  rw [ysInt_m1842] at y0
  rw [ysInt_1161] at y1
  generalize hN : week1 y + ((w - 1) * 7 + (d - 1) + k) = N
  have n0 : -287 ≤ N := by omega
  have n1 : N ≤ 1098100 := by omega
  by_cases hl : lostDays (Cal.init A) N
  · rw [ord2ymd_lost hE hl]; exact Or.inl rfl
  by_cases hn : N ≤ 1096902
  swap
  · rw [ord2ymd_late hE (by omega) n1]; exact Or.inr (Or.inl rfl)
  have hc : Convertible (Cal.init A) N :=
    ⟨⟨_, by rw [init_yearStart hE, if_pos (by omega)], by rw [ysInt_m1843]; exact n0⟩,
      ⟨_, by rw [init_yearStart hE, if_pos (by omega)], by rw [ysInt_1161]; exact hn⟩, hl⟩
  obtain ⟨o, e, ho, hs⟩ := fromOrdinal_ok hE hc true
  unfold Cal.fromOrdinal at e
  cases hb : (Cal.init A).ord2ymd N true with
  | error e' => rw [hb] at e; cases e
  | ok b =>
    right; right
    rw [hb, pyOk_bind] at e
    have inv : ∀ p, (Cal.init A).newDate p = .ok o → p = o := by
      intro p hp
      cases p with
      | short a b c =>
        simp only [Cal.newDate] at hp
        cases hq : (Cal.init A).checkShort ⟨a, b, c, []⟩ with
        | error e' => rw [hq] at hp; cases hp
        | ok u => rw [hq] at hp; cases hp; rfl
      | long k' v' a b c =>
        simp only [Cal.newDate] at hp
        cases hq : (Cal.init A).checkLong ⟨k', v', a, b, c, []⟩ with
        | error e' => rw [hq] at hp; cases hp
        | ok u => rw [hq] at hp; cases hp; rfl
    rcases ord2ymd_trim hb with ⟨y', m', d', rfl⟩ | ⟨k', v', y', m', d', rfl⟩
    · have := inv (.short y' m' ⌊d'⌋) e
      subst this
      exact ⟨_, N, rfl, ho⟩
    · have := inv (.long k' v' y' m' ⌊d'⌋) e
      subst this
      cases hs

end Verif
