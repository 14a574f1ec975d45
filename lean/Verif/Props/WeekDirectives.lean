import Verif.Props.YearDirectives
import Verif.Props.StrpTimeNeg
import Verif.Props.StrpSound

/-!
# C96: the week of the year, `%U` and `%W`

The numbers of the weeks are described by three facts: the 4th of Bahá is in week 1, the number grows by one at each Jalál of
the year, and it stays the same on the other days.
-/

namespace Verif

theorem weekday_ok {A : Astro} (hE : TehranEvening A) (hO : NewYearOrder (Cal.init A)) {o : DateObj} {n : ℤ}
    (h : IsDay (Cal.init A) o n) : (Cal.init A).weekday o = .ok ((n + 1) % 7) := by
  obtain ⟨y, m, d, hd, e⟩ := dateShort_ok hE h
  unfold Cal.weekday
  rw [e, pyOk_bind]
  exact dayOfWeek_ok hE hO hd

theorem yearWeekDay_zero {A : Astro} (hE : TehranEvening A) (hO : NewYearOrder (Cal.init A)) {y m d n : ℤ}
    (hd : DayNumber (Cal.init A) y m d n) :
    (Cal.init A).yearWeekDay y m d true = .ok (y, (n - week1 y) / 7 + 1, (n - week1 y) % 7 + 1) := by
  obtain ⟨y0, y1, -, -⟩ := dayNumber_year hE hd
  unfold Cal.yearWeekDay
  rw [isoweek1_ok hE hO (by omega) (by omega), pyOk_bind, ord_ok hE hO hd, pyOk_bind]
  simp

/-- The first day of a year. -/
theorem first_day {A : Astro} (hE : TehranEvening A) {y : ℤ} (h0 : -1843 ≤ y) (h1 : y ≤ 1161) :
    DayNumber (Cal.init A) y 1 1 (ysInt y) :=
  (dayNumber_iff hE).mpr ⟨h0, h1, Or.inl ⟨by omega, by omega, by omega, by omega⟩, by simp [dBefore]⟩

theorem week_texts {A : Astro} (hE : TehranEvening A) (hO : NewYearOrder (Cal.init A)) (L : Locale) {x : DT} {n : ℤ}
    (z : Option TzInfo) (hx : IsDT (Cal.init A) x n) (hc : x.d.isShort = true ∨ OrdinaryClock x) (hy : -1842 ≤ x.d.fullYear) :
    (Cal.init A).datetimeStrftime L x z "%U".toList = .ok (padInt 2 ((n - week1 x.d.fullYear) / 7 + 1)) ∧
    (Cal.init A).datetimeStrftime L x z "%W".toList = .ok (padInt 2 ((n - week1 x.d.fullYear) / 7 + 1)) ∧
    0 ≤ (n - week1 x.d.fullYear) / 7 + 1 ∧ (n - week1 x.d.fullYear) / 7 + 1 ≤ 53 ∧
    ysInt x.d.fullYear ≤ n ∧ n ≤ ysInt x.d.fullYear + 365 := by
  obtain ⟨w, yd, hw, ht, -⟩ := directive_text hE hO L z hx hc hy
  obtain ⟨y, m, dd, ey, hn, e1, y0, y1, hu⟩ := fullYear_day hE hx.day
  obtain ⟨h1, h2, h3⟩ := hu x.h x.mi x.s w yd
  rw [ey] at hy ⊢
  have hW := yearWeekDay_zero hE hO hn
  have wk : week1 y ≤ ysInt y + 3 ∧ ysInt y - 3 ≤ week1 y ∧ week1 y % 7 = 6 := by unfold week1; omega
  obtain ⟨-, -, n0, n1⟩ := dayNumber_year hE hn
  have hlen := leapOf_len (y := y) (by omega) y1
  have hle : n ≤ ysInt y + 365 := by split_ifs at hlen <;> omega
  refine ⟨?_, ?_, by omega, by omega, n0, hle⟩
  · rw [show "%U".toList = ['%', 'U'] by decide, ht _ (by decide)]
    change ((Cal.init A).yearWeekDay (tupOf x.d x.h x.mi x.s w yd).fullYear (tupOf x.d x.h x.mi x.s w yd).mon
      (tupOf x.d x.h x.mi x.s w yd).mday true >>= fun w => Except.ok (padInt 2 w.2.1)) = _
    rw [h1, h2, h3, hW, pyOk_bind]
  · rw [show "%W".toList = ['%', 'W'] by decide, ht _ (by decide)]
    change ((Cal.init A).yearWeekDay (tupOf x.d x.h x.mi x.s w yd).fullYear (tupOf x.d x.h x.mi x.s w yd).mon
      (tupOf x.d x.h x.mi x.s w yd).mday true >>= fun w => Except.ok (padInt 2 w.2.1)) = _
    rw [h1, h2, h3, hW, pyOk_bind]

/-- C96: `%U` and `%W` give the same text, of two digits and a number from 0 to 53. It is 1 on the 4th of Bahá, and from a
day to the next day of the same year it grows by one when the next day is Jalál (weekday 0) and stays the same when not. -/
theorem C96_weeks (A : Astro) (hE : TehranEvening A) (hO : NewYearOrder (Cal.init A)) (L : Locale) (x x' : DT) (n : ℤ)
    (z z' : Option TzInfo) (hx : IsDT (Cal.init A) x n) (hc : x.d.isShort = true ∨ OrdinaryClock x) (hy : -1842 ≤ x.d.fullYear)
    (hx' : IsDT (Cal.init A) x' (n + 1)) (hc' : x'.d.isShort = true ∨ OrdinaryClock x') (hy' : x'.d.fullYear = x.d.fullYear) :
    ∃ a a' W W', (Cal.init A).datetimeStrftime L x z "%U".toList = .ok a ∧
      (Cal.init A).datetimeStrftime L x z "%W".toList = .ok a ∧ a.length = 2 ∧ intOf a = .ok W ∧ 0 ≤ W ∧ W ≤ 53 ∧
      (Cal.init A).datetimeStrftime L x' z' "%U".toList = .ok a' ∧ intOf a' = .ok W' ∧
      ((Cal.init A).weekday x'.d = .ok 0 → W' = W + 1) ∧ ((Cal.init A).weekday x'.d ≠ .ok 0 → W' = W) ∧
      ((Cal.init A).dateShort x.d = .ok (x.d.fullYear, 1, 4) → W = 1) := by
  obtain ⟨t1, t2, w0, w1, n0, n1⟩ := week_texts hE hO L z hx hc hy
  obtain ⟨t3, -⟩ := week_texts hE hO L z' hx' hc' (by rw [hy']; exact hy)
  rw [hy'] at t3
  have wk : week1 x.d.fullYear % 7 = 6 ∧ week1 x.d.fullYear ≤ ysInt x.d.fullYear + 3 ∧
    ysInt x.d.fullYear - 3 ≤ week1 x.d.fullYear := by unfold week1; omega
  refine ⟨_, _, _, _, t1, t2, padInt_two w0 (by omega), (padInt_text _ _).2.2, w0, w1, t3, (padInt_text _ _).2.2, ?_, ?_, ?_⟩
  · rw [weekday_ok hE hO hx'.day]
    intro h
    injection h with h
    omega
  · rw [weekday_ok hE hO hx'.day]
    intro h
    have : (n + 1 + 1) % 7 ≠ 0 := fun e => h (by rw [e])
    omega
  · intro h
    obtain ⟨y, m, d, hd, e⟩ := dateShort_ok hE hx.day
    rw [e] at h
    simp only [Except.ok.injEq, Prod.mk.injEq] at h
    obtain ⟨rfl, rfl, rfl⟩ := h
    obtain ⟨-, -, -, hn⟩ := (dayNumber_iff hE).mp hd
    simp [dBefore] at hn
    omega

/-- The 4th and the 5th of Bahá of year 182. -/
example : IsDT (Cal.init newYearSun) ⟨.short 182 1 4, 7, 30, 0, 0, none, 0⟩ (ysInt 182 + 3) ∧
    IsDT (Cal.init newYearSun) ⟨.short 182 1 5, 7, 30, 0, 0, none, 0⟩ (ysInt 182 + 3 + 1) := by
  refine ⟨⟨(dayNumber_iff newYearSun_tehran).mpr ⟨by omega, by omega, Or.inl ⟨by omega, by omega, by omega, by omega⟩, ?_⟩, by
    constructor <;> decide⟩, ⟨(dayNumber_iff newYearSun_tehran).mpr ⟨by omega, by omega,
      Or.inl ⟨by omega, by omega, by omega, by omega⟩, ?_⟩, by constructor <;> decide⟩⟩
  · simp [dBefore]; ring
  · simp [dBefore]; ring

/-- C96: the first day of a year is in week 0 exactly when it is `Idāl, Istijlāl or Istiqlāl (weekdays 4 to 6); in the other
years it is in week 1, also when it is not Jalál and so comes before the first Jalál of the year. -/
theorem C96_first_day (A : Astro) (hE : TehranEvening A) (hO : NewYearOrder (Cal.init A)) (L : Locale) (x : DT) (n fw : ℤ)
    (z : Option TzInfo) (hx : IsDT (Cal.init A) x n) (hc : x.d.isShort = true ∨ OrdinaryClock x) (hy : -1842 ≤ x.d.fullYear)
    (hf : (Cal.init A).dateShort x.d = .ok (x.d.fullYear, 1, 1)) (hw : (Cal.init A).weekday x.d = .ok fw) :
    (Cal.init A).datetimeStrftime L x z "%U".toList = .ok (if 4 ≤ fw then ['0', '0'] else ['0', '1']) := by
  obtain ⟨t1, -⟩ := week_texts hE hO L z hx hc hy
  obtain ⟨y, m, d, hd, e⟩ := dateShort_ok hE hx.day
  rw [e] at hf
  simp only [Except.ok.injEq, Prod.mk.injEq] at hf
  obtain ⟨ey, rfl, rfl⟩ := hf
  obtain ⟨-, -, -, hn⟩ := (dayNumber_iff hE).mp hd
  simp [dBefore] at hn
  rw [weekday_ok hE hO hx.day] at hw
  injection hw with hw
  rw [t1, ← ey]
  by_cases h4 : 4 ≤ fw
  · rw [if_pos h4, show (n - week1 y) / 7 + 1 = 0 by unfold week1; omega]
    rfl
  · rw [if_neg h4, show (n - week1 y) / 7 + 1 = 1 by unfold week1; omega]
    rfl

/-- The 1st of Bahá of year 182. -/
example : IsDT (Cal.init newYearSun) ⟨.short 182 1 1, 7, 30, 0, 0, none, 0⟩ (ysInt 182) ∧
    (Cal.init newYearSun).dateShort (.short 182 1 1) = .ok (182, 1, 1) ∧
    (Cal.init newYearSun).weekday (.short 182 1 1) = .ok 4 := by
  have hf : IsDay (Cal.init newYearSun) (.short 182 1 1) (ysInt 182) := first_day newYearSun_tehran (by omega) (by omega)
  refine ⟨⟨hf, by constructor <;> decide⟩, rfl, ?_⟩
  rw [weekday_ok newYearSun_tehran newYearSun_order hf, show ysInt 182 = 739329 by decide +kernel]
  rfl

/-- C96 is false as `%U` is documented ("All days in a new year preceding the first `Idāl are considered to be in week 0"): in
every year that does not begin on `Idāl (weekday 4), a day before the first `Idāl of the year, at most the third of the year,
is in week 1. -/
theorem C96_week_zero_negation (A : Astro) (hE : TehranEvening A) (hO : NewYearOrder (Cal.init A)) (L : Locale) (y : ℤ)
    (hy : -1842 ≤ y) (hy1 : y ≤ 1161) (hfw : (Cal.init A).weekday (.short y 1 1) ≠ .ok 4) :
    ∃ d, 1 ≤ d ∧ d ≤ 3 ∧ (∀ k, 1 ≤ k → k ≤ d → (Cal.init A).weekday (.short y 1 k) ≠ .ok 4) ∧
      (Cal.init A).datetimeStrftime L ⟨.short y 1 d, 0, 0, 0, 0, none, 0⟩ none "%U".toList = .ok ['0', '1'] := by
  have day : ∀ k : ℤ, 1 ≤ k → k ≤ 19 → DayNumber (Cal.init A) y 1 k (ysInt y + (k - 1)) := fun k h0 h1 =>
    (dayNumber_iff hE).mpr ⟨by omega, by omega, Or.inl ⟨by omega, by omega, by omega, by omega⟩, by simp [dBefore]; ring⟩
  have wd : ∀ k : ℤ, 1 ≤ k → k ≤ 19 → (Cal.init A).weekday (.short y 1 k) = .ok ((ysInt y + (k - 1) + 1) % 7) :=
    fun k h0 h1 => weekday_ok hE hO (day k h0 h1)
  have h4 : (ysInt y + 1) % 7 ≠ 4 := by
    rw [wd 1 (by omega) (by omega)] at hfw
    intro h
    exact hfw (by rw [show ysInt y + (1 - 1) + 1 = ysInt y + 1 by ring, h])
  have txt : ∀ d : ℤ, 1 ≤ d → d ≤ 3 → (ysInt y + (d - 1) - week1 y) / 7 + 1 = 1 →
      (Cal.init A).datetimeStrftime L ⟨.short y 1 d, 0, 0, 0, 0, none, 0⟩ none "%U".toList = .ok ['0', '1'] := by
    intro d h0 h1 h
    have := (week_texts hE hO L none (x := ⟨.short y 1 d, 0, 0, 0, 0, none, 0⟩) (n := ysInt y + (d - 1))
      ⟨day d h0 (by omega), by constructor <;> simp [DT.timetz]⟩ (Or.inl rfl) (by change -1842 ≤ y; exact hy)).1
    rw [this, show (DateObj.short y 1 d).fullYear = y from rfl, h]
    rfl
  have fin : ∀ d : ℤ, 1 ≤ d → d ≤ 3 → (ysInt y + (d - 1) - week1 y) / 7 + 1 = 1 →
      (∀ k : ℤ, 1 ≤ k → k ≤ d → (ysInt y + (k - 1) + 1) % 7 ≠ 4) →
      ∃ d, 1 ≤ d ∧ d ≤ 3 ∧ (∀ k, 1 ≤ k → k ≤ d → (Cal.init A).weekday (.short y 1 k) ≠ .ok 4) ∧
      (Cal.init A).datetimeStrftime L ⟨.short y 1 d, 0, 0, 0, 0, none, 0⟩ none "%U".toList = .ok ['0', '1'] := by
    intro d h0 h1 h hk
    refine ⟨d, h0, h1, ?_, txt d h0 h1 h⟩
    intro k k0 k1 hc
    rw [wd k k0 (by omega)] at hc
    injection hc with hc
    exact hk k k0 k1 hc
  have hw1 : week1 y = ysInt y + 3 - (ysInt y + 3 + 1) % 7 := rfl
  by_cases h5 : (ysInt y + 1) % 7 = 5
  · exact fin 3 (by omega) (by omega) (by omega) (fun k k0 k1 => by omega)
  by_cases h6 : (ysInt y + 1) % 7 = 6
  · exact fin 2 (by omega) (by omega) (by omega) (fun k k0 k1 => by omega)
  · exact fin 1 (by omega) (by omega) (by omega) (fun k k0 k1 => by omega)

/-- Year 181 begins on Fiḍāl. -/
example : (Cal.init newYearSun).weekday (.short 181 1 1) ≠ .ok 4 := by
  have hf : IsDay (Cal.init newYearSun) (.short 181 1 1) (ysInt 181) := first_day newYearSun_tehran (by omega) (by omega)
  rw [weekday_ok newYearSun_tehran newYearSun_order hf, show ysInt 181 = 738964 by decide +kernel]
  decide

/-! ## Reading the week back -/

theorem reads_weekU (c : Char) (hc : c = 'U' ∨ c = 'W') : ∀ k < 53, readsB ((altsOf c).getD []) (digitsW 2 k) = true := by
  rcases hc with rfl | rfl <;> decide +kernel

/-- `%Y/%U/%a` or `%Y/%W/%a`. -/
def weekFormat (c : Char) : Str := ['%', 'Y', '/', '%', c, '/', '%', 'a']

def weekToks (c : Char) : List Tok := [.dir 'Y' none, .lit '/', .dir c none, .lit '/', .dir 'a' none]

/-- The text that `strftime` gives for `%Y/%U/%a`. -/
def weekText (y W k : ℤ) : Str := signedYear y ++ '/' :: (padInt 2 W ++ '/' :: (nameAt dayAbbrs k ++ []))

theorem week_format {A : Astro} (hE : TehranEvening A) (hO : NewYearOrder (Cal.init A)) (other : Directives) {c : Char}
    (hc : c = 'U' ∨ c = 'W') {y m d h mi s us n : ℤ} (hx : IsDT (Cal.init A) ⟨.short y m d, h, mi, s, us, none, 0⟩ n)
    (hy : -1842 ≤ y) : (Cal.init A).dtStrftime other y m d h mi s us (weekFormat c) =
      .ok (weekText y ((n - week1 y) / 7 + 1) ((n + 1) % 7)) := by
  have hd : DayNumber (Cal.init A) y m d n := hx.day
  obtain ⟨h0, h1, mi0, mi1, s0, s1, us0, us1, -⟩ := hx.time
  unfold DT.timetz at h0 h1 mi0 mi1 s0 s1 us0 us1
  simp only at h0 h1 mi0 mi1 s0 s1 us0 us1
  obtain ⟨hb, hok, hck⟩ := buildStruct_24 hE hO hd hy ⟨h0, h1⟩ ⟨mi0, mi1⟩ ⟨s0, s1⟩
    ⟨us0, (by omega : us < 1000000)⟩
  have hW := yearWeekDay_zero hE hO hd
  have hV : (Cal.init A).directives other ⟨true, 0, 0, y, m, d, h, mi, s, (n + 1) % 7, n - ysInt y + 1⟩ c none =
      .ok (padInt 2 ((n - week1 y) / 7 + 1)) := by
    rcases hc with rfl | rfl <;>
    · change ((Cal.init A).yearWeekDay y m d true >>= fun w => Except.ok (padInt 2 w.2.1)) = _
      rw [hW, pyOk_bind]
  rw [dtStrftime_eq (us := us) hb hck (ts := weekToks c) (by rcases hc with rfl | rfl <;> rfl) (by simp [weekToks]) (by
    intro t ht
    simp only [weekToks, List.mem_cons, List.not_mem_nil, or_false] at ht
    rcases hc with rfl | rfl <;> rcases ht with rfl | rfl | rfl | rfl | rfl <;> simp [Tok.Documented])
    (by rcases hc with rfl | rfl <;> decide) (by
    intro a b ha hb; simp [weekToks] at ha hb; subst ha hb; decide)]
  simp only [weekToks, tokValues, Tok.value]
  rw [hV]
  rfl

/-- What `strptime` does with a text of a week up to 52. -/
theorem week_read {A : Astro} (hE : TehranEvening A) (hO : NewYearOrder (Cal.init A)) {c : Char} (hc : c = 'U' ∨ c = 'W')
    {y W k j : ℤ} (hy : -1842 ≤ y) (hy1 : y ≤ 1161) (hW0 : 0 ≤ W) (hW1 : W ≤ 52) (hk0 : 0 ≤ k) (hk1 : k ≤ 6)
    (hj : j = if W = 0 then (if k < (ysInt y + 1) % 7 then 7 - (ysInt y + 1) % 7 + k + 1 else 1 + k - (ysInt y + 1) % 7)
      else 1 + ((7 - (ysInt y + 1) % 7) % 7 + 7 * (W - 1)) + k) (hj0 : 0 < j)
    {y' m' d' : ℤ} (ho : (Cal.init A).fromOrdinal ((j - 1) + ysInt y) true = .ok (.short y' m' d')) {N : ℤ}
    (hN : DayNumber (Cal.init A) y' m' d' N) :
    (Cal.init A).strptime (weekText y W k) (weekFormat c) = some (.ok ⟨.short y' m' d', 0, 0, 0, 0, none, 0⟩) := by
  obtain ⟨a1, a2⟩ := padInt_read (w := 2) (n := W) (by norm_num) (by omega) (by norm_num; omega)
  have hb := reads_tables.2.2.2.2.2.2.2.2.2 k.toNat (by omega)
  rw [Int.toNat_of_nonneg hk0] at hb
  obtain ⟨b1, b2, -⟩ := hb
  have hcomp : compileFmt false (weekFormat c) = some (.ok [.dir 'Y', .lit '/', .dir c, .lit '/', .dir 'a']) := by
    rcases hc with rfl | rfl <;> decide
  rw [strptime_eq hcomp]
  have m1 : (matchAll [] []).head? = some (([] : List (Char × Str)), ([] : Str)) := rfl
  have m2 := matchAll_dir (c := 'a') (v := nameAt dayAbbrs k) b1 m1
  have m3 := matchAll_dir (c := c) (v := padInt 2 W) (by rw [a1]; exact reads_weekU c hc _ (by omega))
    (matchAll_lit (c := '/') m2)
  have m4 := matchAll_dir (c := 'Y') (v := signedYear y) (by
    rw [signedYear_eq hy (by omega)]; exact reads_year _ _) (matchAll_lit (c := '/') m3)
  unfold findRegex weekText
  rw [m4]
  simp only [if_true]
  rw [pyOk_bind]
  unfold Cal.strptimeFound parseFound
  have hpf : List.foldlM setGroup {} [('Y', signedYear y), (c, padInt 2 W), ('a', nameAt dayAbbrs k)] =
      Except.ok { year := some y, weekOfYear := some W, weekday := some k : Found } := by
    rw [List.foldlM_cons, show setGroup {} ('Y', signedYear y) = Except.ok { year := some y : Found } by
        change (intOf (signedYear y)).map _ = _; rw [intOf_signedYear hy (by omega)]; rfl, pyOk_bind,
      List.foldlM_cons, show ∀ f, setGroup f (c, padInt 2 W) = Except.ok { f with weekOfYear := some W } by
        intro f
        rcases hc with rfl | rfl <;>
        · change (intOf (padInt 2 W)).map _ = _; rw [a2]; rfl, pyOk_bind,
      List.foldlM_cons, show ∀ f, setGroup f ('a', nameAt dayAbbrs k) = Except.ok { f with weekday := some k } by
        intro f; change (nameIndex dayAbbrs (nameAt dayAbbrs k)).map _ = _; rw [b2]; rfl, pyOk_bind]
    rfl
  have hfirst := first_day hE (y := y) (by omega) hy1
  have hfd : IsDay (Cal.init A) (.short y 1 1) (ysInt y) := hfirst
  rw [show ampmOf [('Y', signedYear y), (c, padInt 2 W), ('a', nameAt dayAbbrs k)] = [] by rcases hc with rfl | rfl <;> rfl, hpf,
    pyOk_bind, show checkIsoWeek { year := some y, weekOfYear := some W, weekday := some k } = .ok () from rfl, pyOk_bind]
  have hfw : (Cal.init A).fromWeeks { year := some y, weekOfYear := some W, weekday := some k } =
      .ok (y, 1, 1, some j) := by
    unfold Cal.fromWeeks
    simp only
    have : (Cal.init A).julianFromWeek y W k = .ok j := by
      unfold Cal.julianFromWeek
      rw [newDate_ok hE hfd, pyOk_bind, weekday_ok hE hO hfd, pyOk_bind, hj]
      split_ifs <;> rfl
    change ((Cal.init A).julianFromWeek y W k >>= _) = _
    rw [this, pyOk_bind, if_neg (by omega)]
    rfl
  rw [hfw, pyOk_bind]
  have hfj : (Cal.init A).fromJulian y 1 1 (some j) = .ok (y', m', d') := by
    unfold Cal.fromJulian
    simp only
    rw [newDate_ok hE hfd, pyOk_bind, toOrdinal_ok hE hO hfd, pyOk_bind, ho, pyOk_bind]
    rfl
  simp only
  rw [hfj, pyOk_bind]
  have hmw : (Cal.init A).missingWeekday { year := some y, weekOfYear := some W, weekday := some k } y' m' d' = .ok () := by
    unfold Cal.missingWeekday
    rw [if_neg (by simp)]
  rw [hmw, pyOk_bind, show Found.zone 2 { year := some y, weekOfYear := some W, weekday := some k } = .ok none
    from rfl, pyOk_bind]
  exact congrArg some (newDT_ok hE (x := ⟨.short y' m' d', 0, 0, 0, 0, none, 0⟩) (n := N) ⟨hN, by constructor <;> simp [DT.timetz]⟩)

/-- The date of a day that can be converted. -/
theorem fromOrdinal_short {A : Astro} (hE : TehranEvening A) {n : ℤ} (hc : Convertible (Cal.init A) n) :
    ∃ y m d, (Cal.init A).fromOrdinal n true = .ok (.short y m d) ∧ DayNumber (Cal.init A) y m d n := by
  obtain ⟨o, ho, hd, hs⟩ := fromOrdinal_ok hE hc true
  cases o with
  | long => cases hs
  | short y m d => exact ⟨y, m, d, ho, hd⟩

theorem week_single {A : Astro} (hE : TehranEvening A) (hO : NewYearOrder (Cal.init A)) (other : Directives) {c : Char}
    (hc : c = 'U' ∨ c = 'W') {y m d h mi s us n : ℤ} (hx : IsDT (Cal.init A) ⟨.short y m d, h, mi, s, us, none, 0⟩ n)
    (hy : -1842 ≤ y) :
    (Cal.init A).dtStrftime other y m d h mi s us ['%', c] = .ok (padInt 2 ((n - week1 y) / 7 + 1)) := by
  have hd : DayNumber (Cal.init A) y m d n := hx.day
  obtain ⟨h0, h1, mi0, mi1, s0, s1, us0, us1, -⟩ := hx.time
  unfold DT.timetz at h0 h1 mi0 mi1 s0 s1 us0 us1
  simp only at h0 h1 mi0 mi1 s0 s1 us0 us1
  obtain ⟨hb, hok, hck⟩ := buildStruct_24 hE hO hd hy ⟨h0, h1⟩ ⟨mi0, mi1⟩ ⟨s0, s1⟩
    ⟨us0, (by omega : us < 1000000)⟩
  have hV : (Cal.init A).directives other ⟨true, 0, 0, y, m, d, h, mi, s, (n + 1) % 7, n - ysInt y + 1⟩ c none =
      .ok (padInt 2 ((n - week1 y) / 7 + 1)) := by
    rcases hc with rfl | rfl <;>
    · change ((Cal.init A).yearWeekDay y m d true >>= fun w => Except.ok (padInt 2 w.2.1)) = _
      rw [yearWeekDay_zero hE hO hd, pyOk_bind]
  rw [dtStrftime_eq (us := us) hb hck (ts := [.dir c none]) (by rcases hc with rfl | rfl <;> rfl) (by simp) (by
    intro t ht
    simp only [List.mem_cons, List.not_mem_nil, or_false] at ht
    rcases hc with rfl | rfl <;> subst ht <;> simp [Tok.Documented])
    (by rcases hc with rfl | rfl <;> decide) (by
    intro a b ha hb; simp at ha hb; subst ha hb; simp [Tok.isLit])]
  simp only [tokValues, Tok.value]
  rw [hV, pyOk_bind]
  simp [bind, Except.bind]

/-- The number of the week from the text of `%U` or `%W`. -/
theorem week_value {A : Astro} (hE : TehranEvening A) (hO : NewYearOrder (Cal.init A)) {other : Directives} {c : Char}
    (hc : c = 'U' ∨ c = 'W') {y m d h mi s us n W : ℤ} {a : Str}
    (hx : IsDT (Cal.init A) ⟨.short y m d, h, mi, s, us, none, 0⟩ n) (hy : -1842 ≤ y)
    (ha : (Cal.init A).dtStrftime other y m d h mi s us ['%', c] = .ok a) (hW : intOf a = .ok W) :
    W = (n - week1 y) / 7 + 1 := by
  rw [week_single hE hO other hc hx hy] at ha
  injection ha with ha
  rw [← ha, (padInt_text _ _).2.2] at hW
  injection hW with hW
  exact hW.symm

/-- C96: in the years that begin on Jalál, `Idāl, Istijlāl or Istiqlāl, and up to week 52, `strptime` gives back the date from
the text that `strftime` gives for `%Y/%U/%a` or `%Y/%W/%a`. Missing from the full property: the other years and week 53,
where it is false (below), and the days that no conversion reaches. -/
theorem C96_round_trip_partial (A : Astro) (hE : TehranEvening A) (hO : NewYearOrder (Cal.init A)) (other : Directives)
    (c : Char) (hc : c = 'U' ∨ c = 'W') (y m d h mi s us n fw W : ℤ) (a : Str)
    (hx : IsDT (Cal.init A) ⟨.short y m d, h, mi, s, us, none, 0⟩ n) (hy : -1842 ≤ y) (hn : Convertible (Cal.init A) n)
    (hf : (Cal.init A).weekday (.short y 1 1) = .ok fw) (hfw : fw = 0 ∨ 4 ≤ fw)
    (ha : (Cal.init A).dtStrftime other y m d h mi s us ['%', c] = .ok a) (hW : intOf a = .ok W) (hW1 : W ≤ 52) :
    ∃ text, (Cal.init A).dtStrftime other y m d h mi s us (weekFormat c) = .ok text ∧
      (Cal.init A).strptime text (weekFormat c) = some (.ok ⟨.short y m d, 0, 0, 0, 0, none, 0⟩) := by
  have hd : DayNumber (Cal.init A) y m d n := hx.day
  obtain ⟨y0, y1, n0, n1⟩ := dayNumber_year hE hd
  have e := week_value hE hO hc hx hy ha hW
  have hfd : IsDay (Cal.init A) (.short y 1 1) (ysInt y) := first_day hE y0 y1
  rw [weekday_ok hE hO hfd] at hf
  injection hf with hf
  obtain ⟨y', m', d', ho, hd'⟩ := fromOrdinal_short hE hn
  obtain ⟨rfl, rfl, rfl⟩ := dayNumber_unique hE hd hd'
  refine ⟨_, week_format hE hO other hc hx hy, ?_⟩
  have w1 : week1 y = ysInt y + 3 - (ysInt y + 3 + 1) % 7 := rfl
  refine week_read hE hO hc hy y1 (by omega) (by omega) (by omega) (by omega) (j := n - ysInt y + 1) ?_ (by omega) ?_ hd
  · split_ifs <;> omega
  · rw [show n - ysInt y + 1 - 1 + ysInt y = n by ring]; exact ho

/-- The 4th of Bahá of year 182, which begins on weekday 4. -/
example (other : Directives) : ∃ n a, IsDT (Cal.init newYearSun) ⟨.short 182 1 4, 7, 30, 0, 0, none, 0⟩ n ∧
    Convertible (Cal.init newYearSun) n ∧ (Cal.init newYearSun).weekday (.short 182 1 1) = .ok 4 ∧
    (Cal.init newYearSun).dtStrftime other 182 1 4 7 30 0 0 ['%', 'U'] = .ok a ∧ intOf a = .ok 1 := by
  have e : ysInt 182 = 739329 := by decide +kernel
  have hx : IsDT (Cal.init newYearSun) ⟨.short 182 1 4, 7, 30, 0, 0, none, 0⟩ 739332 :=
    ⟨(dayNumber_iff newYearSun_tehran).mpr ⟨by omega, by omega, Or.inl ⟨by omega, by omega, by omega, by omega⟩, by
      simp [dBefore, e]⟩, by constructor <;> decide⟩
  refine ⟨739332, _, hx, convertible_modern newYearSun_tehran (by omega) (by omega), ?_,
    week_single newYearSun_tehran newYearSun_order other (Or.inl rfl) hx (by omega), ?_⟩
  · have hf : IsDay (Cal.init newYearSun) (.short 182 1 1) (ysInt 182) := first_day newYearSun_tehran (by omega) (by omega)
    rw [weekday_ok newYearSun_tehran newYearSun_order hf, e]
    rfl
  · rw [(padInt_text _ _).2.2]
    unfold week1
    rw [e]
    rfl

/-- C96 is false in the years that begin on Jamál, Kamál or Fiḍāl (weekdays 1 to 3): up to week 52 every date comes back from
its own text as the date a week later. -/
theorem C96_round_trip_negation (A : Astro) (hE : TehranEvening A) (hO : NewYearOrder (Cal.init A)) (other : Directives)
    (c : Char) (hc : c = 'U' ∨ c = 'W') (y m d h mi s us n fw W : ℤ) (a : Str)
    (hx : IsDT (Cal.init A) ⟨.short y m d, h, mi, s, us, none, 0⟩ n) (hy : -1842 ≤ y) (hn : Convertible (Cal.init A) (n + 7))
    (hf : (Cal.init A).weekday (.short y 1 1) = .ok fw) (hfw : 1 ≤ fw ∧ fw ≤ 3)
    (ha : (Cal.init A).dtStrftime other y m d h mi s us ['%', c] = .ok a) (hW : intOf a = .ok W) (hW1 : W ≤ 52) :
    ∃ text y' m' d', (Cal.init A).dtStrftime other y m d h mi s us (weekFormat c) = .ok text ∧
      (Cal.init A).strptime text (weekFormat c) = some (.ok ⟨.short y' m' d', 0, 0, 0, 0, none, 0⟩) ∧
      DayNumber (Cal.init A) y' m' d' (n + 7) := by
  have hd : DayNumber (Cal.init A) y m d n := hx.day
  obtain ⟨y0, y1, n0, n1⟩ := dayNumber_year hE hd
  have e := week_value hE hO hc hx hy ha hW
  have hfd : IsDay (Cal.init A) (.short y 1 1) (ysInt y) := first_day hE y0 y1
  rw [weekday_ok hE hO hfd] at hf
  injection hf with hf
  obtain ⟨y', m', d', ho, hd'⟩ := fromOrdinal_short hE hn
  refine ⟨_, y', m', d', week_format hE hO other hc hx hy, ?_, hd'⟩
  have w1 : week1 y = ysInt y + 3 - (ysInt y + 3 + 1) % 7 := rfl
  refine week_read hE hO hc hy y1 (by omega) (by omega) (by omega) (by omega) (j := n - ysInt y + 8) ?_ (by omega) ?_ hd'
  · split_ifs <;> omega
  · rw [show n - ysInt y + 8 - 1 + ysInt y = n + 7 by ring]; exact ho

/-! ## Week 53 -/

theorem lowerC_slash {x : Char} (h : lowerC x = lowerC '/') : x = '/' := by
  have e : lowerC '/' = '/' := by decide
  rw [e] at h
  unfold lowerC at h
  simp only at h
  have key : ∀ k : ℕ, k < 7900 → 48 ≤ k → Char.ofNat k ≠ '/' := by
    intro k k1 k0 hk
    have hv : k.isValidChar := Or.inl (by omega)
    have e1 : (Char.ofNat k).toNat = k := by
      unfold Char.ofNat
      rw [dif_pos hv]
      rfl
    have e2 : '/'.toNat = 47 := by decide
    rw [hk] at e1
    omega
  split_ifs at h with c1 c2
  · exact absurd h (key _ (by omega) (by omega))
  · exact absurd h (key _ (by omega) (by omega))
  · exact h

theorem follows_dir {c : Char} {f s : Str} {g : List (Char × Str)} (h : Follows ('%' :: c :: f) s g) (hc : c ≠ '%') :
    ∃ v s' g', s = v ++ s' ∧ DirText c v ∧ Follows f s' g' := by
  generalize hF : '%' :: c :: f = F at h
  cases h with
  | nil => cases hF
  | percent h => simp only [List.cons.injEq, true_and] at hF; exact absurd hF.1 hc
  | @dir c' v f' s' g' hd h =>
    simp only [List.cons.injEq, true_and] at hF
    obtain ⟨rfl, rfl⟩ := hF
    exact ⟨v, s', g', rfl, hd, h⟩
  | char hne _ _ _ => simp only [List.cons.injEq] at hF; exact absurd hF.1.symm hne
  | @spaces a b f' s' g' ha _ hs _ _ =>
    cases a with
    | nil => exact absurd rfl ha
    | cons x a =>
      rw [List.cons_append] at hF
      simp only [List.cons.injEq] at hF
      have := hs x (by simp)
      rw [← hF.1] at this
      exact absurd this (by decide)

theorem follows_slash {f s : Str} {g : List (Char × Str)} (h : Follows ('/' :: f) s g) :
    ∃ s', s = '/' :: s' ∧ Follows f s' g := by
  generalize hF : '/' :: f = F at h
  cases h with
  | nil => cases hF
  | percent h => simp at hF
  | dir hd h => simp at hF
  | @char c x f' s' g' hne _ hl h =>
    simp only [List.cons.injEq] at hF
    obtain ⟨rfl, rfl⟩ := hF
    rw [lowerC_slash hl]
    exact ⟨s', rfl, h⟩
  | @spaces a b f' s' g' ha _ hs _ _ =>
    cases a with
    | nil => exact absurd rfl ha
    | cons x a =>
      rw [List.cons_append] at hF
      simp only [List.cons.injEq] at hF
      have := hs x (by simp)
      rw [← hF.1] at this
      exact absurd this (by decide)

theorem split_slash {a b r t : Str} (ha : '/' ∉ a) (hb : '/' ∉ b) (h : a ++ '/' :: r = b ++ '/' :: t) : a = b ∧ r = t := by
  induction a generalizing b with
  | nil =>
    cases b with
    | nil => simp at h; exact ⟨rfl, h⟩
    | cons x b =>
      simp only [List.nil_append, List.cons_append, List.cons.injEq] at h
      rw [h.1] at hb
      simp at hb
  | cons x a ih =>
    cases b with
    | nil =>
      simp only [List.nil_append, List.cons_append, List.cons.injEq] at h
      rw [h.1] at ha
      simp at ha
    | cons x' b =>
      simp only [List.cons_append, List.cons.injEq] at h
      obtain ⟨rfl, h⟩ := h
      obtain ⟨rfl, hr⟩ := ih (by simp at ha; tauto) (by simp at hb; tauto) h
      exact ⟨rfl, hr⟩

theorem numText_slash {len : ℕ} {lo hi : ℤ} {v : Str} (h : NumText len lo hi v) : '/' ∉ v := by
  intro hc
  have := h.2.2.1 _ hc
  exact absurd this (by decide)

/-- C96 is false for the days of week 53, at the end of many years: `strftime` gives the week and `strptime` refuses the text. -/
theorem C96_week_53_negation (A : Astro) (hE : TehranEvening A) (hO : NewYearOrder (Cal.init A)) (other : Directives)
    (c : Char) (hc : c = 'U' ∨ c = 'W') (y m d h mi s us n W : ℤ) (a : Str)
    (hx : IsDT (Cal.init A) ⟨.short y m d, h, mi, s, us, none, 0⟩ n) (hy : -1842 ≤ y)
    (ha : (Cal.init A).dtStrftime other y m d h mi s us ['%', c] = .ok a) (hW : intOf a = .ok W) (hW1 : 53 ≤ W) :
    ∃ text, (Cal.init A).dtStrftime other y m d h mi s us (weekFormat c) = .ok text ∧
      (Cal.init A).strptime text (weekFormat c) = some (.error .value) := by
  have hd : DayNumber (Cal.init A) y m d n := hx.day
  obtain ⟨y0, y1, n0, n1⟩ := dayNumber_year hE hd
  have e := week_value hE hO hc hx hy ha hW
  refine ⟨_, week_format hE hO other hc hx hy, ?_⟩
  rw [← e]
  have hcomp : compileFmt false (weekFormat c) = some (.ok [.dir 'Y', .lit '/', .dir c, .lit '/', .dir 'a']) := by
    rcases hc with rfl | rfl <;> decide
  rw [strptime_eq hcomp]
  cases hr : findRegex (weekText y W ((n + 1) % 7)) [.dir 'Y', .lit '/', .dir c, .lit '/', .dir 'a'] with
  | error er =>
    have : er = .value := by
      unfold findRegex at hr
      split at hr
      · injection hr with hr; exact hr.symm
      · split_ifs at hr
        injection hr with hr; exact hr.symm
    rw [this]
    rfl
  | ok g =>
    exfalso
    have hF := findRegex_follows hcomp hr
    have wk : week1 y ≤ ysInt y + 3 ∧ ysInt y - 3 ≤ week1 y := by unfold week1; omega
    have hlen := leapOf_len (y := y) (by omega) y1
    have hW2 : W < 100 := by split_ifs at hlen <;> omega
    obtain ⟨a1, a2⟩ := padInt_read (w := 2) (n := W) (by norm_num) (by omega) (by norm_num; omega)
    obtain ⟨v, s1, g1, e1, d1, hF1⟩ := follows_dir hF (by decide)
    obtain ⟨s2, rfl, hF2⟩ := follows_slash hF1
    obtain ⟨v2, s3, g3, rfl, d3, hF3⟩ := follows_dir hF2 (by rcases hc with rfl | rfl <;> decide)
    obtain ⟨s4, rfl, -⟩ := follows_slash hF3
    have hv2 : NumText 2 0 52 v2 := by rcases hc with rfl | rfl <;> exact d3
    have hv : '/' ∉ v := by
      rcases d1 with d1 | ⟨w, rfl, d1⟩
      · exact numText_slash d1
      · simp [numText_slash d1]
    have hs : '/' ∉ signedYear y := by
      rw [signedYear_eq hy y1]
      have := digitsW_not_mem 4 y.natAbs '/' (by decide)
      split_ifs <;> simp [this]
    unfold weekText at e1
    obtain ⟨-, e2⟩ := split_slash hs hv e1
    obtain ⟨e3, -⟩ := split_slash (by rw [a1]; exact digitsW_not_mem _ _ _ (by decide)) (numText_slash hv2) e2
    obtain ⟨-, -, -, k, hk, -, k1⟩ := hv2
    rw [← e3, a2] at hk
    injection hk with hk
    omega

/-- The 19th of ‘Alá of year 181, which begins on weekday 3, is in week 53, and the 1st of Bahá is in week 1. -/
example (other : Directives) : ∃ n n' a a', IsDT (Cal.init newYearSun) ⟨.short 181 1 1, 7, 30, 0, 0, none, 0⟩ n ∧
    Convertible (Cal.init newYearSun) (n + 7) ∧ (Cal.init newYearSun).weekday (.short 181 1 1) = .ok 3 ∧
    (Cal.init newYearSun).dtStrftime other 181 1 1 7 30 0 0 ['%', 'U'] = .ok a ∧ intOf a = .ok 1 ∧
    IsDT (Cal.init newYearSun) ⟨.short 181 19 19, 7, 30, 0, 0, none, 0⟩ n' ∧
    (Cal.init newYearSun).dtStrftime other 181 19 19 7 30 0 0 ['%', 'U'] = .ok a' ∧ intOf a' = .ok 53 := by
  have e : ysInt 181 = 738964 := by decide +kernel
  have hl : leapOf 181 = false := by decide +kernel
  have hx : IsDT (Cal.init newYearSun) ⟨.short 181 1 1, 7, 30, 0, 0, none, 0⟩ 738964 :=
    ⟨(dayNumber_iff newYearSun_tehran).mpr ⟨by omega, by omega, Or.inl ⟨by omega, by omega, by omega, by omega⟩, by
      simp [dBefore, e]⟩, by constructor <;> decide⟩
  have hx' : IsDT (Cal.init newYearSun) ⟨.short 181 19 19, 7, 30, 0, 0, none, 0⟩ 739328 :=
    ⟨(dayNumber_iff newYearSun_tehran).mpr ⟨by omega, by omega, Or.inl ⟨by omega, by omega, by omega, by omega⟩, by
      simp [dBefore, e, hl]⟩, by constructor <;> decide⟩
  refine ⟨738964, 739328, _, _, hx, convertible_modern newYearSun_tehran (by omega) (by omega), ?_,
    week_single newYearSun_tehran newYearSun_order other (Or.inl rfl) hx (by omega), ?_, hx',
    week_single newYearSun_tehran newYearSun_order other (Or.inl rfl) hx' (by omega), ?_⟩
  · have hf : IsDay (Cal.init newYearSun) (.short 181 1 1) (ysInt 181) := first_day newYearSun_tehran (by omega) (by omega)
    rw [weekday_ok newYearSun_tehran newYearSun_order hf, e]
    rfl
  · rw [(padInt_text _ _).2.2]
    unfold week1
    rw [e]
    rfl
  · rw [(padInt_text _ _).2.2]
    unfold week1
    rw [e]
    rfl

/-- `strftime` refuses `%w`, which `strptime` reads (and, with no week beside it, ignores: without a year the date is the first
day of year 2) and for which the table of `strftime` has an entry. -/
theorem C96_w_negation (A : Astro) (hE : TehranEvening A) (hO : NewYearOrder (Cal.init A)) (L : Locale) (x : DT) (n : ℤ)
    (z : Option TzInfo) (hx : IsDT (Cal.init A) x n) (hc : x.d.isShort = true ∨ OrdinaryClock x) (hy : -1842 ≤ x.d.fullYear) :
    (Cal.init A).datetimeStrftime L x z "%w".toList = .error .value ∧
      ∀ k : ℕ, k < 7 → (Cal.init A).strptime (digitsW 1 k) "%w".toList = some (.ok ⟨.short 2 1 1, 0, 0, 0, 0, none, 0⟩) := by
  constructor
  · have hy : YearShown x.d := by
      cases hd : x.d with
      | long k v y m d => trivial
      | short y m d => rw [hd] at hy; exact hy
    obtain ⟨w, yd, -, hw, e1, e2⟩ := dtTimetuple_ok hE hO hx hc hy z
    unfold Cal.datetimeStrftime
    rw [e1, pyOk_bind, show wrapFormat (padInt 6 x.us) "%w".toList = "%w".toList from rfl]
    rfl
  · intro k hk
    have hcomp : compileFmt false "%w".toList = some (.ok [.dir 'w']) := by decide
    rw [strptime_eq hcomp]
    have m1 : (matchAll [] []).head? = some (([] : List (Char × Str)), ([] : Str)) := rfl
    have m2 := matchAll_dir (c := 'w') (v := digitsW 1 k)
      ((by decide +kernel : ∀ k < 7, readsB ((altsOf 'w').getD []) (digitsW 1 k) = true) k hk) m1
    rw [List.append_nil] at m2
    unfold findRegex
    rw [m2]
    simp only [if_true]
    rw [pyOk_bind]
    have hfirst := first_day hE (y := 2) (by omega) (by omega)
    have hfd : IsDay (Cal.init A) (.short 2 1 1) (ysInt 2) := hfirst
    unfold Cal.strptimeFound parseFound
    rw [show ampmOf [('w', digitsW 1 k)] = [] from rfl, List.foldlM_cons, show setGroup {} ('w', digitsW 1 k) =
        Except.ok { weekday := some (k : ℤ) : Found } by
      change (intOf (digitsW 1 k)).map _ = _; rw [intOf_digits (by norm_num) (by omega)]; rfl, pyOk_bind]
    rw [show List.foldlM setGroup { weekday := some (k : ℤ) : Found } [] = Except.ok { weekday := some (k : ℤ) : Found } from rfl,
      pyOk_bind, show checkIsoWeek { weekday := some (k : ℤ) : Found } = .ok () from rfl, pyOk_bind,
      show (Cal.init A).fromWeeks { weekday := some (k : ℤ) : Found } = .ok (2, 1, 1, none) from rfl, pyOk_bind]
    have hfj : (Cal.init A).fromJulian 2 1 1 none = .ok (2, 1, 1) := by
      unfold Cal.fromJulian
      simp only
      rw [newDate_ok hE hfd, pyOk_bind, toOrdinal_ok hE hO hfd, pyOk_bind, pyOk_bind,
        toOrdinal_ok hE hO hfd, pyOk_bind]
    rw [hfj, pyOk_bind, show (Cal.init A).missingWeekday { weekday := some (k : ℤ) : Found } 2 1 1 = .ok () from rfl, pyOk_bind,
      show Found.zone 2 { weekday := some (k : ℤ) : Found } = .ok none from rfl, pyOk_bind]
    exact congrArg some (newDT_ok hE (x := ⟨.short 2 1 1, 0, 0, 0, 0, none, 0⟩) (n := ysInt 2) ⟨hfirst, by
      constructor <;> decide⟩)

example : IsDT (Cal.init newYearSun) ⟨.short 182 0 5, 7, 30, 0, 0, none, 0⟩ 739675 :=
  ⟨witness_days.1, by constructor <;> decide⟩

end Verif
