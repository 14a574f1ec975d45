import Verif.Lemmas.IsoWeek
import Verif.Lemmas.WitnessOrdinal
import Verif.Spec.IsoWeek

/-!
# Properties C06 to C11: ordinals, date arithmetic, weekdays and ISO weeks

Two hypotheses about the sun occur throughout: `TehranEvening` (the sun sets in the evening) and
`NewYearOrder` (`Spec/Ordinal`). `newYearSun` is an assignment of sunsets that meets both.
-/

namespace Verif

/-- The last day of Ayyám-i-Há of leap year 182 (short form) and the day after it (long form). -/
theorem witness_days : IsDay (Cal.init newYearSun) (.short 182 0 5) 739675 ∧
    IsDay (Cal.init newYearSun) (.long 1 10 11 19 1) 739676 := by
  have key : ysInt 182 = 739329 ∧ leapOf 182 = true := by decide +kernel
  refine ⟨(dayNumber_iff newYearSun_tehran).mpr ⟨by omega, by omega, ?_, ?_⟩, 182, ⟨by omega, by omega, by omega, by omega,
    by omega⟩, (dayNumber_iff newYearSun_tehran).mpr ⟨by omega, by omega, ?_, ?_⟩⟩
  · rw [key.2]; exact Or.inr ⟨rfl, by omega, by decide⟩
  · rw [key.1, key.2]; decide
  · exact Or.inl ⟨by omega, by omega, by omega, by omega⟩
  · rw [key.1, key.2]; decide

/-- Days after the reform and not after the first day of year 1161 are convertible. -/
theorem convertible_modern {A : Astro} (hE : TehranEvening A) {n : ℤ} (h0 : 600000 ≤ n) (h1 : n ≤ 1096902) :
    Convertible (Cal.init A) n := by
  refine ⟨⟨_, by rw [init_yearStart hE, if_pos (by omega)], by rw [ysInt_m1843]; omega⟩,
    ⟨_, by rw [init_yearStart hE, if_pos (by omega)], by rw [ysInt_1161]; exact h1⟩, fun hl => ?_⟩
  have hk : ∀ Q ∈ changeDays, Q < 2300000 := by decide
  rcases lost_day_mem hE hl with h | h
  · have := hk _ h; omega
  · omega

/-! ## C06 -/

/-- C06. Every date has an ordinal; the ordinal of the next day is one larger; ordinals compare as the days
do; different days have different ordinals. -/
theorem C06_ordinals (A : Astro) (hE : TehranEvening A) (hO : NewYearOrder (Cal.init A)) (o p : DateObj) (n n' : ℤ)
    (ho : IsDay (Cal.init A) o n) (hp : IsDay (Cal.init A) p n') :
    ∃ a b, (Cal.init A).toOrdinal o = .ok a ∧ (Cal.init A).toOrdinal p = .ok b ∧
      (n' = n + 1 → b = a + 1) ∧ (a < b ↔ n < n') ∧ (a = b ↔ n = n') ∧
      (a = b → o.isShort = p.isShort → o = p) := by
  refine ⟨n, n', toOrdinal_ok hE hO ho, toOrdinal_ok hE hO hp, fun h => h, Iff.rfl, Iff.rfl, fun h hs => ?_⟩
  subst h
  exact isDay_unique hE ho hp hs

example : ∃ o p n, TehranEvening newYearSun ∧ NewYearOrder (Cal.init newYearSun) ∧
    IsDay (Cal.init newYearSun) o n ∧ IsDay (Cal.init newYearSun) p (n + 1) ∧ o.isShort ≠ p.isShort :=
  ⟨_, _, _, newYearSun_tehran, newYearSun_order, witness_days.1, witness_days.2, by decide⟩

/-- C06. Every day of every supported year has a date, in either form, to which `C06_ordinals` applies. -/
theorem C06_every_day (A : Astro) (hE : TehranEvening A) (n a b : ℤ)
    (ha : (Cal.init A).yearStart (-1843) = some a) (hb : (Cal.init A).yearStart 1162 = some b) (h0 : a ≤ n)
    (h1 : n < b) (short : Bool) : ∃ o, IsDay (Cal.init A) o n ∧ o.isShort = short := by
  rw [init_yearStart hE, if_pos (by omega)] at ha hb
  obtain rfl := Option.some.inj ha
  obtain rfl := Option.some.inj hb
  rw [ysInt_m1843] at h0
  rw [ysInt_1162] at h1
  obtain ⟨y, m, d, hd⟩ := dayNumber_exists hE h0 h1
  cases short with
  | true => exact ⟨.short y m d, hd, rfl⟩
  | false =>
    obtain ⟨y0, y1, -, -⟩ := dayNumber_year hE hd
    obtain ⟨hden, -, -⟩ := kvy_range y (by omega) (by omega)
    exact ⟨.long _ _ _ m d, ⟨y, hden, hd⟩, rfl⟩

example : ∃ a b, (Cal.init newYearSun).yearStart (-1843) = some a ∧ (Cal.init newYearSun).yearStart 1162 = some b ∧
    a < b :=
  ⟨-287, 1097268, by rw [init_yearStart newYearSun_tehran, if_pos (by omega), ysInt_m1843],
    by rw [init_yearStart newYearSun_tehran, if_pos (by omega), ysInt_1162], by omega⟩

/-- C06. The first day of MINYEAR has ordinal 78. -/
theorem C06_first_ordinal (A : Astro) (hE : TehranEvening A) (hO : NewYearOrder (Cal.init A)) :
    (Cal.init A).toOrdinal (.short (-1842) 1 1) = .ok 78 := by
  rw [← ysInt_m1842]
  exact ord_first hE hO (by omega) (by omega)

example : TehranEvening newYearSun ∧ NewYearOrder (Cal.init newYearSun) := ⟨newYearSun_tehran, newYearSun_order⟩

/-- The hypothesis `NewYearOrder` is not stronger than needed: where the ordinals are the day numbers it
holds for all supported years. -/
theorem C06_hypothesis_needed (A : Astro) (hE : TehranEvening A)
    (h : ∀ o n, IsDay (Cal.init A) o n → (Cal.init A).toOrdinal o = .ok n) (y : ℤ) (j0 j : ℚ)
    (hy0 : -1843 ≤ y) (hy1 : y ≤ 1161)
    (e0 : (Cal.init A).jdFromBadiDateDefault ⟨-1843, 19, 19, []⟩ = .ok j0)
    (e1 : (Cal.init A).jdFromBadiDateDefault ⟨y, 1, 1, []⟩ = .ok j) :
    Int.fract j < Int.fract j0 ↔ y = -1796 ∨ y = -1792 ∨ y = -1788 := by
  obtain ⟨i0, i, f0, f1, f⟩ := daysBeforeYear_eq hE hy0 (by omega : y ≤ 1162)
  rw [e0] at f0
  rw [e1] at f1
  injection f0 with f0
  injection f1 with f1
  subst f0 f1
  have hd : IsDay (Cal.init A) (.short y 1 1) (ysInt y) :=
    (dayNumber_iff hE).mpr ⟨hy0, hy1, Or.inl ⟨by omega, by omega, by omega, by omega⟩, by simp [dBefore]⟩
  have := h _ _ hd
  unfold Cal.toOrdinal Cal.dateShort at this
  rw [pyOk_bind] at this
  simp only at this
  unfold Cal.ymd2ord at this
  rw [f, pyOk_bind, show (Cal.init A).daysBeforeMonth y 1 = .ok 0 from rfl, pyOk_bind] at this
  injection this with this
  unfold fudge daysBefore1stYear at this
  simp only [List.mem_cons, List.not_mem_nil, or_false] at this
  by_cases c : Int.fract j < Int.fract j0 <;> by_cases c' : y = -1796 ∨ y = -1792 ∨ y = -1788 <;>
    simp only [c, c', if_true, if_false] at this ⊢
  · omega
  · omega

example : TehranEvening newYearSun ∧ (∀ o n, IsDay (Cal.init newYearSun) o n →
      (Cal.init newYearSun).toOrdinal o = .ok n) ∧
    (∃ j, (Cal.init newYearSun).jdFromBadiDateDefault ⟨-1792, 1, 1, []⟩ = .ok j) :=
  ⟨newYearSun_tehran, fun _ _ => toOrdinal_ok newYearSun_tehran newYearSun_order,
    _, nr_jd (C := Cal.init newYearSun) newYearSun_tehran (by omega) (by omega)⟩

/-! ## C07 -/

/-- C07. Missing from the full property: the lost days and the days after the first day of year 1161, see the
`_negation` theorems below. -/
theorem C07_round_trip_partial (A : Astro) (hE : TehranEvening A) (hO : NewYearOrder (Cal.init A)) (n : ℤ)
    (hc : Convertible (Cal.init A) n) (short : Bool) :
    ∃ o, (Cal.init A).fromOrdinal n short = .ok o ∧ o.isShort = short ∧ (Cal.init A).toOrdinal o = .ok n ∧
      ∀ p, IsDay (Cal.init A) p n → p.isShort = short →
        p = o ∧ (do let k ← (Cal.init A).toOrdinal p; (Cal.init A).fromOrdinal k short) = .ok p := by
  obtain ⟨o, e, ho, hs⟩ := fromOrdinal_ok hE hc short
  refine ⟨o, e, hs, toOrdinal_ok hE hO ho, fun p hp hps => ?_⟩
  have hpo : p = o := isDay_unique hE hp ho (by rw [hps, hs])
  refine ⟨hpo, ?_⟩
  rw [toOrdinal_ok hE hO hp, pyOk_bind, e, hpo]

example : Convertible (Cal.init newYearSun) 739675 ∧ Convertible (Cal.init newYearSun) 739676 :=
  ⟨convertible_modern newYearSun_tehran (by omega) (by omega), convertible_modern newYearSun_tehran (by omega) (by omega)⟩

/-- C07 is false on 22 days: their ordinals are refused with ValueError. -/
theorem C07_lost_days_negation (A : Astro) (hE : TehranEvening A) (hO : NewYearOrder (Cal.init A)) (y m d : ℤ)
    (h : (y, m, d) ∈ changeEves ++ reformDates) (short : Bool) :
    ∃ n, (Cal.init A).toOrdinal (.short y m d) = .ok n ∧ (Cal.init A).fromOrdinal n short = .error .value := by
  have key : ∀ p ∈ changeEves ++ reformDates, -1843 ≤ p.1 ∧ p.1 ≤ 1161 ∧
      ((1 ≤ p.2.1 ∧ p.2.1 ≤ 19 ∧ 1 ≤ p.2.2 ∧ p.2.2 ≤ 19) ∨
        (p.2.1 = 0 ∧ 1 ≤ p.2.2 ∧ p.2.2 ≤ if leapOf p.1 then 5 else 4)) := by decide +kernel
  obtain ⟨h0, h1, hv⟩ := key _ h
  simp only at h0 h1 hv
  have hd : DayNumber (Cal.init A) y m d (ysInt y + dBefore (leapOf y) m + d - 1) :=
    (dayNumber_iff hE).mpr ⟨h0, h1, hv, rfl⟩
  exact ⟨_, toOrdinal_ok hE hO (o := .short y m d) hd, fromOrdinal_lost hE ⟨y, m, d, hd, h⟩ short⟩

example : ((-261 : ℤ), (11 : ℤ), (9 : ℤ)) ∈ changeEves ++ reformDates := by decide

/-- C07 is false on the days of year 1161 after the first: their ordinals are refused with AssertionError. -/
theorem C07_last_year_negation (A : Astro) (hE : TehranEvening A) (hO : NewYearOrder (Cal.init A)) (o : DateObj)
    (n b : ℤ) (hb : (Cal.init A).yearStart 1161 = some b) (hn : b < n) (ho : IsDay (Cal.init A) o n) (short : Bool) :
    (Cal.init A).toOrdinal o = .ok n ∧ (Cal.init A).fromOrdinal n short = .error .assertion := by
  rw [init_yearStart hE, if_pos (by omega), ysInt_1161] at hb
  obtain rfl := Option.some.inj hb
  refine ⟨toOrdinal_ok hE hO ho, fromOrdinal_late hE hn ?_ short⟩
  obtain ⟨y, m, d, hd, -⟩ := dateShort_ok hE ho
  obtain ⟨a, b', c, e⟩ := dayNumber_year hE hd
  have := ysInt_mono (a := y + 1) (b := 1162) (by omega) (by omega) (by omega)
  rw [ysInt_1162] at this
  omega

example : ∃ b, (Cal.init newYearSun).yearStart 1161 = some b ∧
    IsDay (Cal.init newYearSun) (.short 1161 19 19) (b + 365) := by
  have key : ysInt 1161 = 1096902 ∧ leapOf 1161 = true := by decide +kernel
  refine ⟨1096902, by rw [init_yearStart newYearSun_tehran, if_pos (by omega), ysInt_1161],
    (dayNumber_iff newYearSun_tehran).mpr ⟨by omega, by omega, Or.inl ⟨by omega, by omega, by omega, by omega⟩, ?_⟩⟩
  rw [key.1, key.2]; decide

/-! ## C08 -/

/-- A whole number of days. -/
def WholeDays (t : TimeDelta) : Prop := ∃ k : ℤ, t = TimeDelta.ofDays k

/-- The day numbers that date arithmetic can reach. -/
def Reachable (C : Cal) (n : ℤ) : Prop := (∃ a, C.yearStart (-1842) = some a ∧ a ≤ n) ∧ Convertible C n

theorem days_ofDays (k : ℤ) : (TimeDelta.ofDays k).days = k := by
  unfold TimeDelta.ofDays TimeDelta.days
  simp only
  omega

theorem reachable_lo {A : Astro} (hE : TehranEvening A) {n : ℤ} (h : Reachable (Cal.init A) n) : 78 ≤ n := by
  obtain ⟨⟨a, ha, h⟩, -⟩ := h
  rw [init_yearStart hE, if_pos (by omega), ysInt_m1842] at ha
  obtain rfl := Option.some.inj ha
  exact h

theorem addDelta_eq {A : Astro} (hE : TehranEvening A) (hO : NewYearOrder (Cal.init A)) {o : DateObj} {n : ℤ}
    (ho : IsDay (Cal.init A) o n) (t : TimeDelta) (h0 : 78 ≤ n + t.days) (h1 : n + t.days ≤ 1097267) :
    (Cal.init A).addDelta o t = (Cal.init A).fromOrdinal (n + t.days) o.isShort := by
  unfold Cal.addDelta
  rw [toOrdinal_ok hE hO ho, pyOk_bind, if_pos (by unfold daysBefore1stYear maxOrdinal; omega)]

/-- A result of date addition is the date of the day `t.days` later, in the same form, and that day can be
reached: results never wrap. -/
theorem C08_never_wraps (A : Astro) (hE : TehranEvening A) (hO : NewYearOrder (Cal.init A)) (o p : DateObj) (n : ℤ)
    (ho : IsDay (Cal.init A) o n) (t : TimeDelta) (h : (Cal.init A).addDelta o t = .ok p) :
    IsDay (Cal.init A) p (n + t.days) ∧ p.isShort = o.isShort ∧ Reachable (Cal.init A) (n + t.days) := by
  by_cases c : 78 ≤ n + t.days ∧ n + t.days ≤ 1097267
  · rw [addDelta_eq hE hO ho t c.1 c.2] at h
    obtain ⟨a, b, e⟩ := fromOrdinal_inv hE (by omega) c.2 h
    exact ⟨a, b, ⟨_, by rw [init_yearStart hE, if_pos (by omega)], by rw [ysInt_m1842]; exact c.1⟩, e⟩
  · unfold Cal.addDelta at h
    rw [toOrdinal_ok hE hO ho, pyOk_bind, if_neg (by unfold daysBefore1stYear maxOrdinal; omega)] at h
    cases h

/-- C08. Date plus timedelta. Missing from the full property: the results that are lost days or after the
first day of year 1161, see `C08_gap_negation`. -/
theorem C08_add_partial (A : Astro) (hE : TehranEvening A) (hO : NewYearOrder (Cal.init A)) (o : DateObj) (n : ℤ)
    (ho : IsDay (Cal.init A) o n) (t : TimeDelta) (hc : Reachable (Cal.init A) (n + t.days)) :
    ∃ p, (Cal.init A).addDelta o t = .ok p ∧ IsDay (Cal.init A) p (n + t.days) ∧ p.isShort = o.isShort := by
  have h0 := reachable_lo hE hc
  obtain ⟨-, h1, -⟩ := convertible_inv hE hc.2
  rw [addDelta_eq hE hO ho t h0 (by omega)]
  exact fromOrdinal_ok hE hc.2 o.isShort

theorem reachable_modern {A : Astro} (hE : TehranEvening A) {n : ℤ} (h0 : 600000 ≤ n) (h1 : n ≤ 1096902) :
    Reachable (Cal.init A) n :=
  ⟨⟨_, by rw [init_yearStart hE, if_pos (by omega)], by rw [ysInt_m1842]; omega⟩, convertible_modern hE h0 h1⟩

example : Reachable (Cal.init newYearSun) (739675 + (TimeDelta.ofDays 365).days) := by
  rw [days_ofDays]; exact reachable_modern newYearSun_tehran (by omega) (by omega)

/-- C08. `(d + t) - d` is the whole-day part of `t`, hence `t` for whole days. -/
theorem C08_add_sub (A : Astro) (hE : TehranEvening A) (hO : NewYearOrder (Cal.init A)) (o p : DateObj) (n : ℤ)
    (ho : IsDay (Cal.init A) o n) (t : TimeDelta) (h : (Cal.init A).addDelta o t = .ok p) :
    (Cal.init A).subDate p o = .ok (TimeDelta.ofDays t.days) ∧
      (WholeDays t → (Cal.init A).subDate p o = .ok t) := by
  obtain ⟨hp, -, -⟩ := C08_never_wraps A hE hO o p n ho t h
  have e : (Cal.init A).subDate p o = .ok (TimeDelta.ofDays t.days) := by
    unfold Cal.subDate
    rw [toOrdinal_ok hE hO hp, pyOk_bind, toOrdinal_ok hE hO ho, pyOk_bind]
    congr 2
    ring
  refine ⟨e, fun ⟨k, hk⟩ => ?_⟩
  rw [e, hk, days_ofDays]

/-- C08. `d + (e - d) == e`, when the two dates have the same form; with different forms the result is the
same day in the form of `d`. Missing from the full property: as for `C08_add_partial`. -/
theorem C08_sub_add_partial (A : Astro) (hE : TehranEvening A) (hO : NewYearOrder (Cal.init A)) (o e : DateObj)
    (n n' : ℤ) (ho : IsDay (Cal.init A) o n) (he : IsDay (Cal.init A) e n') (hc : Reachable (Cal.init A) n') :
    ∃ t p, (Cal.init A).subDate e o = .ok t ∧ (Cal.init A).addDelta o t = .ok p ∧ IsDay (Cal.init A) p n' ∧
      p.isShort = o.isShort ∧ (e.isShort = o.isShort → p = e) := by
  have hs : (Cal.init A).subDate e o = .ok (TimeDelta.ofDays (n' - n)) := by
    unfold Cal.subDate
    rw [toOrdinal_ok hE hO he, pyOk_bind, toOrdinal_ok hE hO ho, pyOk_bind]
  have hr : n + (TimeDelta.ofDays (n' - n)).days = n' := by rw [days_ofDays]; ring
  obtain ⟨p, h, hp, hf⟩ := C08_add_partial A hE hO o n ho (TimeDelta.ofDays (n' - n)) (by rw [hr]; exact hc)
  rw [hr] at hp
  exact ⟨_, p, hs, h, hp, hf, fun hef => isDay_unique hE hp he (by rw [hf, hef])⟩

example : IsDay (Cal.init newYearSun) (.short 182 0 5) 739675 ∧
    IsDay (Cal.init newYearSun) (.long 1 10 11 19 1) 739676 ∧ Reachable (Cal.init newYearSun) 739676 :=
  ⟨witness_days.1, witness_days.2, reachable_modern newYearSun_tehran (by omega) (by omega)⟩

/-- C08. `(d + t) + u == d + (t + u)` for whole days `t`, when the calls on the left succeed. -/
theorem C08_assoc (A : Astro) (hE : TehranEvening A) (hO : NewYearOrder (Cal.init A)) (o p q : DateObj) (n : ℤ)
    (ho : IsDay (Cal.init A) o n) (t u : TimeDelta) (ht : WholeDays t) (h1 : (Cal.init A).addDelta o t = .ok p)
    (h2 : (Cal.init A).addDelta p u = .ok q) : (Cal.init A).addDelta o (t.add u) = .ok q := by
  obtain ⟨hp, hpf, -⟩ := C08_never_wraps A hE hO o p n ho t h1
  obtain ⟨hq, hqf, hr⟩ := C08_never_wraps A hE hO p q _ hp u h2
  obtain ⟨k, rfl⟩ := ht
  have hd : ((TimeDelta.ofDays k).add u).days = k + u.days := by
    unfold TimeDelta.ofDays TimeDelta.add TimeDelta.days
    simp only
    omega
  rw [days_ofDays] at hq hr
  have hn : n + ((TimeDelta.ofDays k).add u).days = n + k + u.days := by rw [hd]; ring
  obtain ⟨q', h, hq', hf⟩ := C08_add_partial A hE hO o n ho ((TimeDelta.ofDays k).add u) (by rw [hn]; exact hr)
  rw [hn] at hq'
  rw [h, isDay_unique hE hq' hq (by rw [hf, hqf, hpf])]

/-- C08. `d - t == d + (-t)` for whole days. -/
theorem C08_sub_neg (A : Astro) (o : DateObj) (t : TimeDelta) (ht : WholeDays t) :
    (Cal.init A).subDelta o t = (Cal.init A).addDelta o t.neg := by
  obtain ⟨k, rfl⟩ := ht
  unfold Cal.subDelta
  rw [days_ofDays]
  congr 1
  unfold TimeDelta.ofDays TimeDelta.neg
  simp only
  congr 1
  ring

example : WholeDays ⟨-172800000000⟩ ∧ ∃ p q, (Cal.init newYearSun).addDelta (.short 182 0 5) ⟨-172800000000⟩ = .ok p ∧
    (Cal.init newYearSun).addDelta p ⟨90000000000⟩ = .ok q := by
  have hw : WholeDays ⟨-172800000000⟩ := ⟨-2, rfl⟩
  have d1 : (⟨-172800000000⟩ : TimeDelta).days = -2 := by decide
  have d2 : (⟨90000000000⟩ : TimeDelta).days = 1 := by decide
  obtain ⟨p, e, hp, -⟩ := C08_add_partial newYearSun newYearSun_tehran newYearSun_order _ _ witness_days.1
    ⟨-172800000000⟩ (by rw [d1]; exact reachable_modern newYearSun_tehran (by omega) (by omega))
  obtain ⟨q, e', -, -⟩ := C08_add_partial newYearSun newYearSun_tehran newYearSun_order p _ hp
    ⟨90000000000⟩ (by rw [d1, d2]; exact reachable_modern newYearSun_tehran (by omega) (by omega))
  exact ⟨hw, p, q, e, e'⟩

/-- C08 is false for timedeltas that are not whole days: `d - t` and `d + (-t)` differ by a day. -/
theorem C08_part_day_negation (A : Astro) (hE : TehranEvening A) (hO : NewYearOrder (Cal.init A)) (o p q : DateObj)
    (n : ℤ) (ho : IsDay (Cal.init A) o n) (t : TimeDelta) (ht : ¬ WholeDays t)
    (h1 : (Cal.init A).subDelta o t = .ok p) (h2 : (Cal.init A).addDelta o t.neg = .ok q) :
    (Cal.init A).subDate p q = .ok (TimeDelta.ofDays 1) ∧ p ≠ q := by
  obtain ⟨hp, -, -⟩ := C08_never_wraps A hE hO o p n ho _ h1
  obtain ⟨hq, -, -⟩ := C08_never_wraps A hE hO o q n ho _ h2
  have hd : t.neg.days = -t.days - 1 := by
    have : t.us % 86400000000 ≠ 0 := by
      intro h
      refine ht ⟨t.us / 86400000000, ?_⟩
      cases t
      unfold TimeDelta.ofDays
      simp only [TimeDelta.mk.injEq] at h ⊢
      omega
    unfold TimeDelta.neg TimeDelta.days
    simp only
    omega
  rw [days_ofDays] at hp
  rw [hd] at hq
  constructor
  · unfold Cal.subDate
    rw [toOrdinal_ok hE hO hp, pyOk_bind, toOrdinal_ok hE hO hq, pyOk_bind]
    congr 2
    ring
  · rintro rfl
    have := isDay_day hE hp hq
    omega

example : ∃ p q, ¬ WholeDays ⟨3600000000⟩ ∧ (Cal.init newYearSun).subDelta (.short 182 0 5) ⟨3600000000⟩ = .ok p ∧
    (Cal.init newYearSun).addDelta (.short 182 0 5) (TimeDelta.neg ⟨3600000000⟩) = .ok q := by
  have d1 : (TimeDelta.ofDays (-(⟨3600000000⟩ : TimeDelta).days)).days = 0 := by decide
  have d2 : (TimeDelta.neg ⟨3600000000⟩).days = -1 := by decide
  obtain ⟨p, e, hp, -⟩ := C08_add_partial newYearSun newYearSun_tehran newYearSun_order _ _ witness_days.1
    (TimeDelta.ofDays (-(⟨3600000000⟩ : TimeDelta).days))
    (by rw [d1]; exact reachable_modern newYearSun_tehran (by omega) (by omega))
  obtain ⟨q, e', -, -⟩ := C08_add_partial newYearSun newYearSun_tehran newYearSun_order _ _ witness_days.1
    (TimeDelta.neg ⟨3600000000⟩) (by rw [d2]; exact reachable_modern newYearSun_tehran (by omega) (by omega))
  refine ⟨p, q, ?_, e, e'⟩
  rintro ⟨k, hk⟩
  unfold TimeDelta.ofDays at hk
  injection hk with hk
  omega

/-- C08. Results before the first day of year -1842 or after the last day of year 1161 raise OverflowError. -/
theorem C08_overflow (A : Astro) (hE : TehranEvening A) (hO : NewYearOrder (Cal.init A)) (o : DateObj) (n a b : ℤ)
    (ho : IsDay (Cal.init A) o n) (t : TimeDelta) (ha : (Cal.init A).yearStart (-1842) = some a)
    (hb : (Cal.init A).yearStart 1162 = some b) (h : n + t.days < a ∨ b ≤ n + t.days) :
    (Cal.init A).addDelta o t = .error .overflow := by
  rw [init_yearStart hE, if_pos (by omega)] at ha hb
  rw [ysInt_m1842] at ha
  rw [ysInt_1162] at hb
  obtain rfl := Option.some.inj ha
  obtain rfl := Option.some.inj hb
  unfold Cal.addDelta
  rw [toOrdinal_ok hE hO ho, pyOk_bind, if_neg (by unfold daysBefore1stYear maxOrdinal; omega)]

example : ∃ b, (Cal.init newYearSun).yearStart 1162 = some b ∧
    b ≤ 739675 + (TimeDelta.ofDays 400000).days :=
  ⟨1097268, by rw [init_yearStart newYearSun_tehran, if_pos (by omega), ysInt_1162], by rw [days_ofDays]; omega⟩

/-- C08 is false on the lost days and at the end of year 1161: sums that are valid dates raise ValueError
and AssertionError. -/
theorem C08_gap_negation (A : Astro) (hE : TehranEvening A) (hO : NewYearOrder (Cal.init A)) (o : DateObj)
    (n b e : ℤ) (ho : IsDay (Cal.init A) o n) (t : TimeDelta) (hb : (Cal.init A).yearStart 1161 = some b)
    (he : (Cal.init A).yearStart 1162 = some e) :
    (lostDays (Cal.init A) (n + t.days) → (Cal.init A).addDelta o t = .error .value) ∧
    (b < n + t.days → n + t.days < e → (Cal.init A).addDelta o t = .error .assertion) := by
  rw [init_yearStart hE, if_pos (by omega)] at hb he
  rw [ysInt_1161] at hb
  rw [ysInt_1162] at he
  obtain rfl := Option.some.inj hb
  obtain rfl := Option.some.inj he
  constructor
  · intro hl
    have hk : ∀ Q ∈ changeDays, 1721600 ≤ Q ∧ Q ≤ 2300000 := by decide
    have hr : 78 ≤ n + t.days ∧ n + t.days ≤ 1097267 := by
      rcases lost_day_mem hE hl with h | h
      · have := hk _ h; omega
      · omega
    rw [addDelta_eq hE hO ho t hr.1 hr.2, fromOrdinal_lost hE hl]
  · intro h0 h1
    rw [addDelta_eq hE hO ho t (by omega) (by omega), fromOrdinal_late hE h0 (by omega)]

/-- A lost day, the first one of the reform, occurs as a sum. -/
example : ∃ t, lostDays (Cal.init newYearSun) (739675 + TimeDelta.days t) := by
  have key : ysInt (-261) + dBefore (leapOf (-261)) 11 + 9 - 1 = 577725 := by decide +kernel
  refine ⟨TimeDelta.ofDays (577725 - 739675), -261, 11, 9, (dayNumber_iff newYearSun_tehran).mpr
    ⟨by omega, by omega, Or.inl ⟨by omega, by omega, by omega, by omega⟩, ?_⟩, by decide⟩
  rw [days_ofDays, key]
  omega

end Verif
