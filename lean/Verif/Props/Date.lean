import Verif.Lemmas.DateObj
import Verif.Props.Ordinal

/-!
# Properties C12 to C16, C22 and C23 for `date` objects
-/

namespace Verif

/-! ## C22: the constructor -/

/-- The year that a `date` object denotes: the year of a short form; the year that Kull-i-Shay, Váḥid and
year make up in a long form. -/
def YearOf (o : DateObj) (y : ℤ) : Prop :=
  match o with
  | .short y' _ _ => y' = y
  | .long k v w _ _ => DenotesYear k v w y

/-- C22. Every date of the calendar is accepted, unchanged. -/
theorem C22_accepts (A : Astro) (hE : TehranEvening A) (o : DateObj) (n : ℤ) (h : IsDay (Cal.init A) o n) :
    (Cal.init A).newDate o = .ok o := newDate_ok hE h

example : IsDay (Cal.init newYearSun) (.short 182 0 5) 739675 ∧
    IsDay (Cal.init newYearSun) (.long 1 10 11 19 1) 739676 := witness_days

/-- C22. Tuples whose year is in the table (years -1843 to 1161) are accepted exactly when they are the date
of some day, and refused with AssertionError otherwise. Missing from the full property: year -1843 is outside
the documented range, and other years are not refused either, see the negations below. -/
theorem C22_exact_partial (A : Astro) (hE : TehranEvening A) (o : DateObj) (y : ℤ) (hy : YearOf o y)
    (h0 : -1843 ≤ y) (h1 : y ≤ 1161) :
    ((∃ n, IsDay (Cal.init A) o n) → (Cal.init A).newDate o = .ok o) ∧
    (¬ (∃ n, IsDay (Cal.init A) o n) → (Cal.init A).newDate o = .error .assertion) := by
  refine ⟨fun ⟨n, h⟩ => newDate_ok hE h, fun h => ?_⟩
  cases o with
  | short y' m d =>
    obtain rfl : y' = y := hy
    rw [newDate_short (by omega), (checkTail_dec (init_isLeap hE h0 h1)).2]
    · rfl
    · intro hv
      exact h ⟨_, (dayNumber_iff hE).mpr ⟨h0, h1, hv, rfl⟩⟩
  | long k v w m d =>
    have hden : DenotesYear k v w y := hy
    have hk : -6 ≤ k ∧ k ≤ 5 := by obtain ⟨a, b, c, e, f⟩ := hden; omega
    rw [newDate_long hden hk, (checkTail_dec (init_isLeap hE h0 h1)).2]
    · rfl
    · intro hv
      exact h ⟨_, y, hden, (dayNumber_iff hE).mpr ⟨h0, h1, hv, rfl⟩⟩

/-- The fifth day of Ayyám-i-Há exists in year 182 and not in year 181. -/
example : (∃ n, IsDay (Cal.init newYearSun) (.short 182 0 5) n) ∧
    ¬ (∃ n, IsDay (Cal.init newYearSun) (.short 181 0 5) n) := by
  refine ⟨⟨_, witness_days.1⟩, fun ⟨n, h⟩ => ?_⟩
  obtain ⟨-, -, hv, -⟩ := (dayNumber_iff newYearSun_tehran).mp h
  rw [show leapOf 181 = false by decide +kernel] at hv
  rcases hv with hv | ⟨-, -, hv⟩
  · omega
  · simp at hv

/-- C22. Years, Kull-i-Shays, Váḥids and years of the Váḥid further outside are refused with
AssertionError, whatever month and day. -/
theorem C22_refuses (A : Astro) (o : DateObj)
    (h : match o with
      | .short y _ _ => y < -1843 ∨ 1162 < y
      | .long k v w _ _ => k < -6 ∨ 5 < k ∨ v < 1 ∨ 19 < v ∨ w < 1 ∨ 19 < w) :
    (Cal.init A).newDate o = .error .assertion := by
  cases o with
  | short y m d => exact newDate_short_out (by simp only at h; omega)
  | long k v w m d => exact newDate_long_out (by simp only at h; omega)

/-- C22 is false at the edges. The documented years are -1842 to 1161 (Kull-i-Shay -5 to 4), but in the
short form year 1162 and in the long form every year with Kull-i-Shay -6 to 5, that is years -2526 to 1805, is
accepted in months 1 to 19, and in month 0 raises KeyError instead of AssertionError. -/
theorem C22_outside_years_negation (A : Astro) (hE : TehranEvening A) (o : DateObj) (y m d : ℤ) (hy : YearOf o y)
    (hf : match o with
      | .short _ m' d' => y = 1162 ∧ m' = m ∧ d' = d
      | .long k _ _ m' d' => -6 ≤ k ∧ k ≤ 5 ∧ (y < -1843 ∨ 1161 < y) ∧ m' = m ∧ d' = d) :
    (1 ≤ m → m ≤ 19 → 1 ≤ d → d ≤ 19 → (Cal.init A).newDate o = .ok o) ∧
    (m = 0 → (Cal.init A).newDate o = .error .key) := by
  cases o with
  | short y' m' d' =>
    obtain rfl : y' = y := hy
    obtain ⟨rfl, rfl, rfl⟩ := hf
    rw [newDate_short (by omega), checkTail_out (init_isLeap_out hE (by omega))]
    constructor
    · intro a b c e; rw [if_neg (by omega), if_pos (by omega)]; rfl
    · intro a; rw [if_pos a]; rfl
  | long k v w m' d' =>
    have hden : DenotesYear k v w y := hy
    obtain ⟨k0, k1, hy', rfl, rfl⟩ := hf
    rw [newDate_long hden ⟨k0, k1⟩, checkTail_out (init_isLeap_out hE (by omega))]
    constructor
    · intro a b c e; rw [if_neg (by omega), if_pos (by omega)]; rfl
    · intro a; rw [if_pos a]; rfl

example : YearOf (.long 5 19 19 1 1) 1805 ∧ YearOf (.long (-6) 1 1 1 1) (-2526) ∧ YearOf (.short 1162 1 1) 1162 :=
  ⟨⟨by omega, by omega, by omega, by omega, by omega⟩, ⟨by omega, by omega, by omega, by omega, by omega⟩, rfl⟩

/-- C22 is false for year -1843, the year before the documented ones: all its days are accepted. -/
theorem C22_early_year_negation (A : Astro) (m d : ℤ) (leap : Bool)
    (hl : (Cal.init A).isLeapYear (-1843) = .ok leap) (hv : ValidMD leap m d) :
    (Cal.init A).newDate (.short (-1843) m d) = .ok (.short (-1843) m d) := by
  rw [newDate_short (by omega), (checkTail_dec hl).1 hv]
  rfl

example : ∃ leap, (Cal.init newYearSun).isLeapYear (-1843) = .ok leap ∧ ValidMD leap 0 4 :=
  ⟨_, init_isLeap newYearSun_tehran (by omega) (by omega), Or.inr ⟨rfl, by omega, by split_ifs <;> omega⟩⟩

/-! ## C12: total order -/

/-- The fields of a date in the order in which they are written. -/
def DateObj.fields : DateObj → List ℤ
  | .short y m d => [y, m, d]
  | .long k v y m d => [k, v, y, m, d]

theorem dateCmp_same {a b : DateObj} (h : a.isShort = b.isShort) :
    dateCmp a b = .ok (tupleCmp a.fields b.fields) := by
  cases a <;> cases b <;> simp [DateObj.isShort] at h <;> rfl

theorem fields_inj {a b : DateObj} (h : a.fields = b.fields) : a = b := by
  cases a <;> cases b <;> simp [DateObj.fields] at h <;> simp [h]

/-- C12. For two dates of the same form all five operators answer; exactly one of `<`, `==`, `>` holds; `<=`
and `>=` are the unions; `==` holds exactly for equal fields; `a < b` is `b > a`. -/
theorem C12_total (a b : DateObj) (h : a.isShort = b.isShort) :
    ∃ lt eq gt : Bool, dateLt a b = .ok lt ∧ dateEq a b = .ok eq ∧ dateGt a b = .ok gt ∧
      dateLe a b = .ok (lt || eq) ∧ dateGe a b = .ok (gt || eq) ∧
      ((lt = true ∧ eq = false ∧ gt = false) ∨ (lt = false ∧ eq = true ∧ gt = false) ∨
        (lt = false ∧ eq = false ∧ gt = true)) ∧
      (eq = true ↔ a = b) ∧ dateGt b a = .ok lt ∧ dateEq b a = .ok eq := by
  have hba : dateCmp b a = .ok (-tupleCmp a.fields b.fields) := by
    rw [dateCmp_same h.symm, tupleCmp_swap]
  unfold dateLt dateEq dateGt dateLe dateGe
  rw [hba, dateCmp_same h]
  have h0 : tupleCmp a.fields b.fields = 0 ↔ a = b :=
    tupleCmp_eq_zero.trans ⟨fields_inj, fun h => by rw [h]⟩
  refine ⟨_, _, _, rfl, rfl, rfl, ?_⟩
  rw [← h0]
  rcases tupleCmp_range a.fields b.fields with hc | hc | hc <;> rw [hc] <;> decide

example : (DateObj.short 182 0 5).isShort = (DateObj.short 182 19 1).isShort ∧
    (DateObj.long 1 10 11 19 1).isShort = (DateObj.long 1 10 10 19 1).isShort := ⟨rfl, rfl⟩

/-- C12. The order is transitive. -/
theorem C12_transitive (a b c : DateObj) (hab : a.isShort = b.isShort) (hbc : b.isShort = c.isShort) :
    (dateLt a b = .ok true → dateLt b c = .ok true → dateLt a c = .ok true) ∧
    (dateLe a b = .ok true → dateLe b c = .ok true → dateLe a c = .ok true) := by
  have lt_iff : ∀ {x y : DateObj}, x.isShort = y.isShort →
      (dateLt x y = .ok true ↔ tupleCmp x.fields y.fields < 0) := by
    intro x y h
    unfold dateLt
    rw [dateCmp_same h]
    simp [Except.map]
  have le_iff : ∀ {x y : DateObj}, x.isShort = y.isShort →
      (dateLe x y = .ok true ↔ tupleCmp x.fields y.fields ≤ 0) := by
    intro x y h
    unfold dateLe
    rw [dateCmp_same h]
    simp [Except.map]
  rw [lt_iff hab, lt_iff hbc, lt_iff (hab.trans hbc), le_iff hab, le_iff hbc, le_iff (hab.trans hbc)]
  refine ⟨tupleCmp_trans, fun h1 h2 => ?_⟩
  by_cases c1 : tupleCmp a.fields b.fields = 0
  · rw [tupleCmp_eq_zero.mp c1]; exact h2
  · by_cases c2 : tupleCmp b.fields c.fields = 0
    · rw [← tupleCmp_eq_zero.mp c2]; exact h1
    · exact le_of_lt (tupleCmp_trans (r := b.fields) (by omega) (by omega))

example : dateLt (.short 182 0 5) (.short 182 19 1) = .ok true ∧ dateLt (.short 182 19 1) (.short 183 1 1) = .ok true := by
  decide

/-! ## C13: chronological order -/

/-- The month of a date. -/
def DateObj.month (o : DateObj) : ℤ := o.ymd.2.1

theorem year_cmp {k v w y k' v' w' y' : ℤ} (h : DenotesYear k v w y) (h' : DenotesYear k' v' w' y') :
    (y = y' ↔ k = k' ∧ v = v' ∧ w = w') ∧
    (y < y' ↔ k < k' ∨ k = k' ∧ (v < v' ∨ v = v' ∧ w < w')) := by
  obtain ⟨a, b, c, d, e⟩ := h
  obtain ⟨a', b', c', d', e'⟩ := h'
  constructor <;> constructor <;> intro h <;> omega

theorem lt3 (a b c a' b' c' : ℤ) : tupleCmp [a, b, c] [a', b', c'] < 0 ↔
    a < a' ∨ a = a' ∧ (b < b' ∨ b = b' ∧ c < c') := by
  unfold tupleCmp tupleCmp tupleCmp tupleCmp
  split_ifs <;> omega

theorem lt5 (k v a b c k' v' a' b' c' : ℤ) : tupleCmp [k, v, a, b, c] [k', v', a', b', c'] < 0 ↔
    (k < k' ∨ k = k' ∧ (v < v' ∨ v = v' ∧ a < a')) ∨ (k = k' ∧ v = v' ∧ a = a') ∧ (b < b' ∨ b = b' ∧ c < c') := by
  have h : tupleCmp [k, v, a, b, c] [k', v', a', b', c'] =
    if k = k' then (if v = v' then tupleCmp [a, b, c] [a', b', c'] else if v' < v then 1 else -1)
    else if k' < k then 1 else -1 := rfl
  have h3 := lt3 a b c a' b' c'
  rw [h]
  split_ifs <;> omega

/-- Dates compare as the triples (year, month, day). -/
theorem dateLt_ymd {A : Astro} {a b : DateObj} {n n' : ℤ} (hs : a.isShort = b.isShort)
    (ha : IsDay (Cal.init A) a n) (hb : IsDay (Cal.init A) b n') :
    ∃ y m d y' m' d', DayNumber (Cal.init A) y m d n ∧ DayNumber (Cal.init A) y' m' d' n' ∧ a.month = m ∧
      b.month = m' ∧ YearOf a y ∧ YearOf b y' ∧
      (dateLt a b = .ok (decide (y < y' ∨ y = y' ∧ (m < m' ∨ m = m' ∧ d < d')))) := by
  cases a with
  | short y m d =>
    cases b with
    | short y' m' d' =>
      refine ⟨y, m, d, y', m', d', ha, hb, rfl, rfl, rfl, rfl, ?_⟩
      unfold dateLt
      rw [dateCmp_same hs]
      simp only [Except.map, DateObj.fields, lt3]
    | long => cases hs
  | long k v w m d =>
    cases b with
    | short => cases hs
    | long k' v' w' m' d' =>
      obtain ⟨y, hy, ha⟩ := ha
      obtain ⟨y', hy', hb⟩ := hb
      refine ⟨y, m, d, y', m', d', ha, hb, rfl, rfl, hy, hy', ?_⟩
      unfold dateLt
      rw [dateCmp_same hs]
      simp only [Except.map, DateObj.fields, lt5, (year_cmp hy hy').1, (year_cmp hy hy').2]

/-- C13, for dates that do not pit a day of Ayyám-i-Há (month 0) against another day of the same year.
Missing from the full property: those pairs, where it is false, see `C13_ayyam_i_ha_negation`. -/
theorem C13_chronological_partial (A : Astro) (hE : TehranEvening A) (hO : NewYearOrder (Cal.init A)) (a b : DateObj)
    (n n' : ℤ) (hs : a.isShort = b.isShort) (ha : IsDay (Cal.init A) a n) (hb : IsDay (Cal.init A) b n')
    (hm : (a.month = 0 ↔ b.month = 0) ∨ ∃ y y', YearOf a y ∧ YearOf b y' ∧ y ≠ y') :
    ∃ i j, (Cal.init A).toOrdinal a = .ok i ∧ (Cal.init A).toOrdinal b = .ok j ∧
      dateLt a b = .ok (decide (i < j)) := by
  refine ⟨n, n', toOrdinal_ok hE hO ha, toOrdinal_ok hE hO hb, ?_⟩
  obtain ⟨y, m, d, y', m', d', hd, hd', rfl, rfl, hya, hyb, e⟩ := dateLt_ymd hs ha hb
  rw [e]
  congr 2
  obtain ⟨-, -, p0, p1⟩ := dayNumber_year hE hd
  obtain ⟨-, -, q0, q1⟩ := dayNumber_year hE hd'
  obtain ⟨y0, y1, hv, hn⟩ := (dayNumber_iff hE).mp hd
  obtain ⟨y0', y1', hv', hn'⟩ := (dayNumber_iff hE).mp hd'
  rcases lt_trichotomy y y' with c | c | c
  · have := ysInt_mono (a := y + 1) (b := y') (by omega) (by omega) (by omega)
    simp only [c, true_or, eq_iff_iff, true_iff]
    omega
  · subst c
    have hm' : a.month = 0 ↔ b.month = 0 := by
      rcases hm with hm | ⟨z, z', hz, hz', hne⟩
      · exact hm
      · exfalso
        apply hne
        cases a with
        | short =>
          cases b with
          | short => exact hz.symm.trans (hya.trans (hyb.symm.trans hz'))
          | long => cases hs
        | long =>
          cases b with
          | short => cases hs
          | long =>
            have e1 := hz.2.2.2.2
            have e2 := hya.2.2.2.2
            have e3 := hz'.2.2.2.2
            have e4 := hyb.2.2.2.2
            omega
    simp only [lt_self_iff_false, true_and, false_or, eq_iff_iff]
    unfold dBefore at hn hn'
    unfold ValidMD at hv hv'
    split_ifs at hn hn' hv hv' <;> omega
  · have := ysInt_mono (a := y' + 1) (b := y) (by omega) (by omega) (by omega)
    have hne : ¬ (y < y' ∨ y = y' ∧ (a.month < b.month ∨ a.month = b.month ∧ d < d')) := by omega
    simp only [hne, eq_iff_iff, false_iff]
    omega

/-- Two months of leap year 182. -/
example : IsDay (Cal.init newYearSun) (.short 182 1 1) 739329 ∧ (DateObj.short 182 1 1).month ≠ 0 := by
  have key : ysInt 182 + dBefore (leapOf 182) 1 + 1 - 1 = 739329 := by decide +kernel
  exact ⟨(dayNumber_iff newYearSun_tehran).mpr ⟨by omega, by omega, Or.inl ⟨by omega, by omega, by omega, by omega⟩,
    key.symm⟩, by decide⟩

/-- C13 is false for Ayyám-i-Há: a day of Ayyám-i-Há compares as earlier than every day of months 1 to 18 of
its year, which it follows. -/
theorem C13_ayyam_i_ha_negation (A : Astro) (hE : TehranEvening A) (hO : NewYearOrder (Cal.init A)) (a b : DateObj)
    (n n' y : ℤ) (hs : a.isShort = b.isShort) (ha : IsDay (Cal.init A) a n) (hb : IsDay (Cal.init A) b n')
    (hya : YearOf a y) (hyb : YearOf b y) (hm : a.month = 0) (hm0 : 1 ≤ b.month) (hm1 : b.month ≤ 18) :
    dateLt a b = .ok true ∧ ∃ i j, (Cal.init A).toOrdinal a = .ok i ∧ (Cal.init A).toOrdinal b = .ok j ∧ j < i := by
  obtain ⟨t, m, d, t', m', d', hd, hd', rfl, rfl, ea, eb, e⟩ := dateLt_ymd hs ha hb
  obtain ⟨y0, y1, hv, hn⟩ := (dayNumber_iff hE).mp hd
  obtain ⟨y0', y1', hv', hn'⟩ := (dayNumber_iff hE).mp hd'
  have ht : t = t' := by
    cases a with
    | short =>
      cases b with
      | short => exact ea.symm.trans (hya.trans (hyb.symm.trans eb))
      | long => cases hs
    | long =>
      cases b with
      | short => cases hs
      | long =>
        have e1 := hya.2.2.2.2
        have e2 := ea.2.2.2.2
        have e3 := hyb.2.2.2.2
        have e4 := eb.2.2.2.2
        omega
  subst ht
  refine ⟨?_, n, n', toOrdinal_ok hE hO ha, toOrdinal_ok hE hO hb, ?_⟩
  · rw [e]
    congr 1
    exact decide_eq_true (Or.inr ⟨rfl, Or.inl (by omega)⟩)
  · unfold dBefore at hn hn'
    unfold ValidMD at hv hv'
    rw [if_pos hm] at hn
    rw [if_neg (by omega), if_pos (by omega)] at hn'
    rcases hv with hv | ⟨-, hv, -⟩
    · omega
    · rcases hv' with hv' | hv' <;> omega

example : IsDay (Cal.init newYearSun) (.short 182 0 5) 739675 ∧ YearOf (.short 182 0 5) 182 ∧
    (DateObj.short 182 0 5).month = 0 ∧ 1 ≤ (DateObj.short 182 1 1).month ∧ (DateObj.short 182 1 1).month ≤ 18 :=
  ⟨witness_days.1, rfl, rfl, by decide, by decide⟩

/-! ## C14: short and long forms -/

/-- C14 is false. A long form date compared with a short form date raises AttributeError under every operator,
while the short form date compared with the long form date gives an answer. -/
theorem C14_asymmetry_negation (s l : DateObj) (hs : s.isShort = true) (hl : l.isShort = false) :
    (dateEq l s = .error .attribute ∧ dateLt l s = .error .attribute ∧ dateLe l s = .error .attribute ∧
      dateGt l s = .error .attribute ∧ dateGe l s = .error .attribute) ∧ ∃ r, dateEq s l = .ok r := by
  cases s with
  | long => cases hs
  | short y m d =>
    cases l with
    | short => cases hl
    | long k v w m' d' => exact ⟨⟨rfl, rfl, rfl, rfl, rfl⟩, _, rfl⟩

/-- C14 is false. A short form date equals a long form date exactly when its year is the year of the Váḥid of
the other: it does not equal the long form of its own day (unless its year is between 1 and 19), and it equals long
form dates of other days. -/
theorem C14_wrong_equality_negation (A : Astro) (hE : TehranEvening A) (s l : DateObj) (n n' : ℤ)
    (hs : s.isShort = true) (hl : l.isShort = false) (hds : IsDay (Cal.init A) s n) (hdl : IsDay (Cal.init A) l n') :
    (dateEq s l = .ok (decide (s.ymd = l.ymd))) ∧
    (n = n' → (∃ y, YearOf s y ∧ (y < 1 ∨ 19 < y)) → dateEq s l = .ok false) ∧
    (∀ y, YearOf l y → (y < 1 ∨ 19 < y) → dateEq s l = .ok true → n ≠ n') := by
  cases s with
  | long => cases hs
  | short y m d =>
    cases l with
    | short => cases hl
    | long k v w m' d' =>
      have e : dateEq (.short y m d) (.long k v w m' d') = .ok (decide ((y, m, d) = (w, m', d'))) := by
        unfold dateEq dateCmp
        simp only [DateObj.ymd, Except.map]
        congr 1
        by_cases h : (y, m, d) = (w, m', d')
        · have : tupleCmp [y, m, d] [w, m', d'] = 0 := tupleCmp_eq_zero.mpr (by simpa using h)
          rw [this]; simp only [h, decide_true]; rfl
        · have : tupleCmp [y, m, d] [w, m', d'] ≠ 0 := fun hc => h (by simpa using tupleCmp_eq_zero.mp hc)
          simp only [h, decide_false, beq_eq_false_iff_ne, ne_eq]
          exact this
      obtain ⟨y', hden, hd'⟩ := hdl
      refine ⟨e, ?_, ?_⟩
      · rintro rfl ⟨z, rfl, hz⟩
        have hw : 1 ≤ w ∧ w ≤ 19 := ⟨hden.2.2.1, hden.2.2.2.1⟩
        rw [e]
        congr 1
        simp only [Prod.mk.injEq, decide_eq_false_iff_not]
        omega
      · intro z hz hr he hne
        subst hne
        rw [e] at he
        injection he with he
        simp only [Prod.mk.injEq, decide_eq_true_eq] at he
        obtain ⟨u, -, -⟩ := dayNumber_unique hE hds hd'
        have h1 := hden.2.2
        have h2 : DenotesYear k v w z := hz
        have h3 := h2.2.2.2.2
        omega

/-- The last day of Ayyám-i-Há of year 182 in the short form, and the next day in the long form. -/
example : IsDay (Cal.init newYearSun) (.short 182 0 5) 739675 ∧
    IsDay (Cal.init newYearSun) (.long 1 10 11 19 1) 739676 ∧ YearOf (.long 1 10 11 19 1) 182 :=
  ⟨witness_days.1, witness_days.2, by omega, by omega, by omega, by omega, by omega⟩

/-! ## C15: hashes -/

/-- C15 for dates of the same form: equal dates have equal hashes, whatever the hash function on bytes. -/
theorem C15_date_partial (h : List ℤ → ℤ) (a b : DateObj) (hs : a.isShort = b.isShort)
    (he : dateEq a b = .ok true) : dateHash h a = dateHash h b := by
  obtain ⟨lt, eq, gt, -, e, -, -, -, -, hi, -, -⟩ := C12_total a b hs
  rw [he] at e
  injection e with e
  rw [hi.mp e.symm]

example : dateEq (.long 1 10 11 19 1) (.long 1 10 11 19 1) = .ok true := by decide

/-- C15, hashability: dates from the first day of MINYEAR on are hashable. -/
theorem C15_date_hashable (A : Astro) (hE : TehranEvening A) (h : List ℤ → ℤ) (o : DateObj) (n a : ℤ)
    (ho : IsDay (Cal.init A) o n) (ha : (Cal.init A).yearStart (-1842) = some a) (hn : a ≤ n) :
    ∃ x, dateHash h o = .ok x := by
  rw [init_yearStart hE, if_pos (by omega), ysInt_m1842] at ha
  obtain rfl := Option.some.inj ha
  have hy : ∀ y m d, DayNumber (Cal.init A) y m d n → -1842 ≤ y ∧ y ≤ 1161 ∧ 0 ≤ m ∧ m ≤ 19 ∧ 1 ≤ d ∧ d ≤ 19 := by
    intro y m d hd
    obtain ⟨y0, y1, hv, -⟩ := (dayNumber_iff hE).mp hd
    obtain ⟨-, -, -, n1⟩ := dayNumber_year hE hd
    have : -1842 ≤ y := by
      by_contra c
      have : y = -1843 := by omega
      subst this
      rw [show (-1843 : ℤ) + 1 = -1842 by norm_num, ysInt_m1842] at n1
      omega
    unfold ValidMD at hv
    split_ifs at hv <;> omega
  have e0 : minYear = -1842 := rfl
  have hb : ∀ l : List ℤ, (∀ x ∈ l, 0 ≤ x ∧ x < 256) → ∃ x, (pyBytes l).map h = .ok x := by
    intro l hl
    unfold pyBytes
    rw [if_pos hl]
    exact ⟨_, rfl⟩
  unfold dateHash
  cases o with
  | short y m d =>
    have := hy y m d ho
    refine hb _ ?_
    simp only [List.mem_cons, List.not_mem_nil, or_false, forall_eq_or_imp, forall_eq]
    omega
  | long k v w m d =>
    obtain ⟨y, hden, hd⟩ := ho
    have := hy y m d hd
    obtain ⟨a1, a2, a3, a4, a5⟩ := hden
    refine hb _ ?_
    simp only [List.mem_cons, List.not_mem_nil, or_false, forall_eq_or_imp, forall_eq]
    omega

example : ∃ a, (Cal.init newYearSun).yearStart (-1842) = some a ∧ a ≤ 739675 :=
  ⟨78, by rw [init_yearStart newYearSun_tehran, if_pos (by omega), ysInt_m1842], by omega⟩

/-- C15 is false between the forms: the short form date 11-19-01 equals the long form date of year 182 with
these last fields, and every injective hash of the bytes tells them apart. -/
theorem C15_forms_negation (h : List ℤ → ℤ) (hinj : Function.Injective h) (k v w m d : ℤ)
    (x y : ℤ) (hx : dateHash h (.short w m d) = .ok x) (hy : dateHash h (.long k v w m d) = .ok y) :
    dateEq (.short w m d) (.long k v w m d) = .ok true ∧ x ≠ y := by
  constructor
  · unfold dateEq dateCmp
    simp only [DateObj.ymd, Except.map, tupleCmp_self]
    rfl
  · unfold dateHash dateState pyBytes at hx hy
    simp only at hx hy
    split_ifs at hx hy
    · injection hx with hx
      injection hy with hy
      rw [← hx, ← hy]
      intro he
      have := congrArg List.length (hinj he)
      simp at this
    · cases hy
    · cases hx
    · cases hx

example : (∃ x, dateHash (fun _ => 0) (.short 11 19 1) = .ok x) ∧ ∃ y, dateHash (fun _ => 0) (.long 1 10 11 19 1) = .ok y :=
  ⟨⟨_, rfl⟩, _, rfl⟩

/-- C15 is false for year -1843, whose short form dates the constructor accepts: they are not hashable. -/
theorem C15_unhashable_negation (h : List ℤ → ℤ) (m d : ℤ) :
    dateHash h (.short (-1843) m d) = .error .value := by
  unfold dateHash dateState pyBytes
  simp only
  rw [if_neg]
  · rfl
  · intro hh
    have := hh _ (List.mem_cons_self)
    have e0 : minYear = -1842 := rfl
    omega

/-! ## C16: pickling -/

/-- C16, for dates outside Ayyám-i-Há, from the first day of MINYEAR on. Missing from the full property: days of
Ayyám-i-Há, where it is false, see `C16_ayyam_i_ha_negation`. -/
theorem C16_pickle_partial (A : Astro) (hE : TehranEvening A) (o : DateObj) (n a : ℤ) (ho : IsDay (Cal.init A) o n)
    (ha : (Cal.init A).yearStart (-1842) = some a) (hn : a ≤ n) (hm : o.month ≠ 0) :
    (Cal.init A).datePickle o = .ok o := by
  obtain ⟨x, hx⟩ := C15_date_hashable A hE (fun _ => 0) o n a ho ha hn
  have hok := newDate_ok hE ho
  have e0 : minYear = -1842 := rfl
  unfold dateHash at hx
  unfold Cal.datePickle
  cases o with
  | short y m d =>
    obtain ⟨y0, y1, hv, -⟩ := (dayNumber_iff hE).mp ho
    have hm' : 1 ≤ m ∧ m ≤ 19 := by
      have : m ≠ 0 := hm
      rcases hv with hv | hv <;> omega
    unfold dateState pyBytes at hx ⊢
    simp only at hx ⊢
    split_ifs at hx ⊢ with hc
    · rw [pyOk_bind]
      unfold Cal.dateOfBytes
      simp only
      rw [if_pos hm', show (y - minYear) / 256 * 256 + minYear + (y - minYear) % 256 = y by omega]
      exact hok
    · cases hx
  | long k v w m d =>
    obtain ⟨y, hden, hd⟩ := ho
    obtain ⟨y0, y1, hv, -⟩ := (dayNumber_iff hE).mp hd
    have hm' : 1 ≤ m ∧ m ≤ 19 := by
      have : m ≠ 0 := hm
      rcases hv with hv | hv <;> omega
    unfold dateState pyBytes at hx ⊢
    simp only at hx ⊢
    split_ifs at hx ⊢ with hc
    · rw [pyOk_bind]
      unfold Cal.dateOfBytes
      simp only
      rw [if_pos hm', show k + 19 - 19 = k by omega]
      exact hok
    · cases hx

example : IsDay (Cal.init newYearSun) (.long 1 10 11 19 1) 739676 ∧ (DateObj.long 1 10 11 19 1).month ≠ 0 :=
  ⟨witness_days.2, by decide⟩

/-- C16 is false in Ayyám-i-Há: no date of month 0 survives pickling. -/
theorem C16_ayyam_i_ha_negation (A : Astro) (o p : DateObj) (hm : o.month = 0) :
    (Cal.init A).datePickle o ≠ .ok p := by
  unfold Cal.datePickle
  cases o with
  | short y m d =>
    obtain rfl : m = 0 := hm
    unfold dateState pyBytes
    simp only
    split_ifs with hc
    · rw [pyOk_bind]
      unfold Cal.dateOfBytes
      simp
    · rw [pyErr_bind]; simp
  | long k v w m d =>
    obtain rfl : m = 0 := hm
    unfold dateState pyBytes
    simp only
    split_ifs with hc
    · rw [pyOk_bind]
      unfold Cal.dateOfBytes
      simp
    · rw [pyErr_bind]; simp

example : (DateObj.short 182 0 5).month = 0 ∧ IsDay (Cal.init newYearSun) (.short 182 0 5) 739675 :=
  ⟨rfl, witness_days.1⟩

/-! ## C23: replace -/

/-- The arguments that apply to the form of the date: a short form has no Kull-i-Shay and no Váḥid. -/
def ReplaceArgs.fits (a : ReplaceArgs) (o : DateObj) : Prop := o.isShort = true → a.k = none ∧ a.v = none

/-- `p` is `o` with the fields that `a` names replaced. -/
def Replaced (a : ReplaceArgs) : DateObj → DateObj → Prop
  | .short y m d, .short y' m' d' => y' = a.y.getD y ∧ m' = a.m.getD m ∧ d' = a.d.getD d
  | .long k v w m d, .long k' v' w' m' d' =>
    k' = a.k.getD k ∧ v' = a.v.getD v ∧ w' = a.y.getD w ∧ m' = a.m.getD m ∧ d' = a.d.getD d
  | _, _ => False

/-- C23 for dates. What `replace` returns has the named fields changed and the others not. The hypothesis
excludes Kull-i-Shay or Váḥid arguments on a short form; see `C23_zero_kull_negation`. -/
theorem C23_fields_partial (A : Astro) (o p : DateObj) (a : ReplaceArgs) (hf : a.fits o)
    (h : (Cal.init A).replaceDate o a = .ok p) : Replaced a o p ∧ p.isShort = o.isShort := by
  have hn : ∀ x q : DateObj, (Cal.init A).newDate x = .ok q → q = x := by
    intro x q hq
    cases x with
    | short y m d =>
      unfold Cal.newDate at hq
      simp only at hq
      cases hc : (Cal.init A).checkShort ⟨y, m, d, []⟩ with
      | error e => rw [hc] at hq; cases hq
      | ok u => rw [hc] at hq; injection hq with hq; exact hq.symm
    | long k v y m d =>
      unfold Cal.newDate at hq
      simp only at hq
      cases hc : (Cal.init A).checkLong ⟨k, v, y, m, d, []⟩ with
      | error e => rw [hc] at hq; cases hq
      | ok u => rw [hc] at hq; injection hq with hq; exact hq.symm
  unfold Cal.replaceDate at h
  cases o with
  | short y m d =>
    simp only at h
    split_ifs at h
    rw [hn _ _ h]
    exact ⟨⟨rfl, rfl, rfl⟩, rfl⟩
  | long k v w m d =>
    simp only at h
    split_ifs at h
    rw [hn _ _ h]
    exact ⟨⟨rfl, rfl, rfl, rfl, rfl⟩, rfl⟩

example : (⟨none, none, some 183, none, some 3⟩ : ReplaceArgs).fits (.short 182 19 1) := fun _ => ⟨rfl, rfl⟩

/-- C23 for dates. With no arguments, or with a date's own fields as arguments, `replace` returns the date. -/
theorem C23_identity (A : Astro) (hE : TehranEvening A) (o : DateObj) (n : ℤ) (ho : IsDay (Cal.init A) o n)
    (a : ReplaceArgs)
    (h : match o with
      | .short y m d => a.k = none ∧ a.v = none ∧ a.y ∈ [none, some y] ∧ a.m ∈ [none, some m] ∧ a.d ∈ [none, some d]
      | .long k v y m d => a.k ∈ [none, some k] ∧ a.v ∈ [none, some v] ∧ a.y ∈ [none, some y] ∧
          a.m ∈ [none, some m] ∧ a.d ∈ [none, some d]) :
    (Cal.init A).replaceDate o a = .ok o := by
  have hok := newDate_ok hE ho
  have g : ∀ (x : Option ℤ) (y : ℤ), x ∈ [none, some y] → x.getD y = y := by
    intro x y hx
    simp only [List.mem_cons, List.not_mem_nil, or_false] at hx
    rcases hx with rfl | rfl <;> rfl
  unfold Cal.replaceDate
  cases o with
  | short y m d =>
    obtain ⟨h1, h2, h3, h4, h5⟩ := h
    simp only
    rw [h1, h2, g _ _ h3, g _ _ h4, g _ _ h5]
    exact hok
  | long k v w m d =>
    obtain ⟨h1, h2, h3, h4, h5⟩ := h
    obtain ⟨y, ⟨-, -, w0, w1, -⟩, -⟩ := ho
    simp only
    rw [g _ _ h1, g _ _ h2, g _ _ h3, g _ _ h4, g _ _ h5, if_neg]
    · exact hok
    · simp only [List.mem_cons, List.not_mem_nil, or_false] at h3
      rcases h3 with h3 | h3
      · rw [h3]; simp
      · rw [h3]; simp; omega

example : IsDay (Cal.init newYearSun) (.long 1 10 11 19 1) 739676 := witness_days.2

/-- C23 for dates. A later replacement that names every field an earlier one named overrides it. -/
theorem C23_override (A : Astro) (o p : DateObj) (a b : ReplaceArgs) (hf : a.fits o)
    (h : (Cal.init A).replaceDate o a = .ok p)
    (hk : a.k ≠ none → b.k ≠ none) (hv : a.v ≠ none → b.v ≠ none) (hy : a.y ≠ none → b.y ≠ none)
    (hm : a.m ≠ none → b.m ≠ none) (hd : a.d ≠ none → b.d ≠ none) :
    (Cal.init A).replaceDate p b = (Cal.init A).replaceDate o b := by
  have g : ∀ (x z : Option ℤ) (y : ℤ), (x ≠ none → z ≠ none) → z.getD (x.getD y) = z.getD y := by
    intro x z y hx
    cases x with
    | none => rfl
    | some x =>
      cases z with
      | none => exact absurd rfl (hx (by simp))
      | some z => rfl
  have := (C23_fields_partial A o p a hf h).1
  cases o with
  | short y m d =>
    cases p with
    | short y' m' d' =>
      obtain ⟨rfl, rfl, rfl⟩ := this
      unfold Cal.replaceDate
      simp only
      rw [g _ _ _ hy, g _ _ _ hm, g _ _ _ hd]
    | long => exact this.elim
  | long k v w m d =>
    cases p with
    | short => exact this.elim
    | long k' v' w' m' d' =>
      obtain ⟨rfl, rfl, rfl, rfl, rfl⟩ := this
      unfold Cal.replaceDate
      simp only
      rw [g _ _ _ hk, g _ _ _ hv, g _ _ _ hy, g _ _ _ hm, g _ _ _ hd]

/-- Replacing the day twice. -/
example : ∃ p, (Cal.init newYearSun).replaceDate (.long 1 10 11 19 1) { d := some 1 } = .ok p :=
  ⟨_, C23_identity newYearSun newYearSun_tehran _ _ witness_days.2 _ (by simp)⟩

/-- C23 is false for a zero Kull-i-Shay or Váḥid on a short form: other values raise ValueError, zero is
silently ignored. -/
theorem C23_zero_kull_negation (A : Astro) (hE : TehranEvening A) (y m d n : ℤ)
    (ho : IsDay (Cal.init A) (.short y m d) n) :
    (Cal.init A).replaceDate (.short y m d) { k := some 0, v := some 0 } = .ok (.short y m d) ∧
    ∀ k, k ≠ 0 → (Cal.init A).replaceDate (.short y m d) { k := some k } = .error .value := by
  refine ⟨newDate_ok hE ho, fun k hk => ?_⟩
  unfold Cal.replaceDate
  simp [pyTruthy, hk]

example : IsDay (Cal.init newYearSun) (.short 182 0 5) 739675 := witness_days.1

end Verif
