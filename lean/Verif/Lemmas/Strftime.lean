import Verif.Model.Directives
import Verif.Props.StructTime
import Verif.Props.Format

/-!
# Helper lemmas: `strftime` of dates and datetimes in either form
-/

namespace Verif

/-- The dates that `strftime` takes: not year -1843 in the short form. -/
def YearShown : DateObj → Prop
  | .short y _ _ => -1842 ≤ y
  | .long .. => True

theorem fullYear_ok {C : Cal} {d : DateObj} {n h mi s w yd : ℤ} (hd : IsDay C d n) :
    ∃ y m dd, DayNumber C y m dd n ∧ (tupOf d h mi s w yd).fullYear = y ∧ (tupOf d h mi s w yd).mon = m ∧
      (tupOf d h mi s w yd).mday = dd := by
  cases d with
  | short y m dd => exact ⟨y, m, dd, hd, rfl, rfl, rfl⟩
  | long k v y m dd =>
    obtain ⟨y2, hden, hd2⟩ := hd
    refine ⟨y2, m, dd, hd2, ?_, rfl, rfl⟩
    obtain ⟨-, -, -, -, e⟩ := hden
    change longYear k v y = y2
    unfold longYear
    omega

theorem checktm_tupOf {A : Astro} (hE : TehranEvening A) {d : DateObj} {n h mi s w yd : ℤ} (hd : IsDay (Cal.init A) d n)
    (hy : YearShown d) (hh : 0 ≤ h ∧ h ≤ 24) (hmi : 0 ≤ mi ∧ mi ≤ 59) (hs : 0 ≤ s ∧ s ≤ 61) (hw : 0 ≤ w ∧ w ≤ 6)
    (hyd : 1 ≤ yd ∧ yd ≤ 366) : (Cal.init A).checktm (tupOf d h mi s w yd) = .ok () := by
  obtain ⟨y, m, dd, hn, e1, e2, e3⟩ := fullYear_ok (h := h) (mi := mi) (s := s) (w := w) (yd := yd) hd
  obtain ⟨y0, y1, hv, -⟩ := (dayNumber_iff hE).mp hn
  obtain ⟨c, hc, c1, c2, c3, c4⟩ := cycleOf_valid (init_isLeap hE y0 y1) hv
  have k1 : minYear = -1842 := rfl
  have k2 : maxYear = 1161 := rfl
  have k3 : kullishayMin = -5 := rfl
  have k4 : kullishayMax = 4 := rfl
  cases d with
  | short y' m' d' =>
    have e1 : y' = y := e1
    have e2 : m' = m := e2
    have e3 : d' = dd := e3
    have hy : -1842 ≤ y' := hy
    change (Cal.init A).checktm ⟨true, 0, 0, y', m', d', h, mi, s, w, yd⟩ = .ok ()
    subst e1 e2 e3
    unfold Cal.checktm Tup.fullYear
    simp only [if_true]
    rw [pyAssert_true (by omega), pyOk_bind, pyAssert_true (by simp), pyOk_bind, pyAssert_true (by simp), pyOk_bind,
      pyAssert_true (by simp), pyOk_bind, pyAssert_true (by omega), pyOk_bind, hc, pyOk_bind, pyAssert_true (by omega),
      pyOk_bind, pyAssert_true (by omega), pyOk_bind, pyAssert_true (by omega), pyOk_bind, pyAssert_true (by omega),
      pyOk_bind, pyAssert_true (by omega), pyOk_bind, pyAssert_true (by omega)]
  | long k v w' m' d' =>
    obtain ⟨y2, ⟨v0, v1, w0, w1, ey⟩, hd2⟩ := hd
    have e1 : longYear k v w' = y := e1
    have e2 : m' = m := e2
    have e3 : d' = dd := e3
    have e1' := e1
    unfold longYear at e1'
    have k5 : kullishayMin ≤ k ∧ k ≤ kullishayMax := by omega
    change (Cal.init A).checktm ⟨false, k, v, w', m', d', h, mi, s, w, yd⟩ = .ok ()
    subst e2 e3
    unfold Cal.checktm Tup.fullYear
    simp only [Bool.false_eq_true, if_false]
    rw [e1, pyAssert_true (by simp), pyOk_bind, pyAssert_true (fun _ => k5), pyOk_bind, pyAssert_true (by omega), pyOk_bind,
      pyAssert_true (by omega), pyOk_bind, pyAssert_true (by omega), pyOk_bind, hc, pyOk_bind, pyAssert_true (by omega),
      pyOk_bind, pyAssert_true (by omega), pyOk_bind, pyAssert_true (by omega), pyOk_bind, pyAssert_true (by omega),
      pyOk_bind, pyAssert_true (by omega), pyOk_bind, pyAssert_true (by omega)]

/-- The `struct_time` of a datetime. -/
def structOf (x : DT) (z : Option TzInfo) (w yd : ℤ) : Struct :=
  ⟨tupOf x.d x.h x.mi x.s w yd, dstFlag (-1) z, z.map (fun i => tzName i.zone), offsetSeconds z⟩

theorem strftimeStruct_eq (C : Cal) (L : Locale) (f : Str) {s : Struct} (h : C.checktm s.tup = .ok ()) :
    C.strftimeStruct L f s = strftimeWith (C.allDirectives L s) f := by
  unfold Cal.strftimeStruct strftimeWith
  rw [h]
  rfl

/-- The tuple of a datetime, with its weekday and day of the year. -/
theorem dtTimetuple_ok {A : Astro} (hE : TehranEvening A) (hO : NewYearOrder (Cal.init A)) {x : DT} {n : ℤ}
    (hx : IsDT (Cal.init A) x n) (hc : x.d.isShort = true ∨ OrdinaryClock x) (hy : YearShown x.d) (z : Option TzInfo) :
    ∃ w yd, (∃ y m d, DayNumber (Cal.init A) y m d n ∧ (Cal.init A).yearStart y = some (n - yd + 1)) ∧ w = (n + 1) % 7 ∧
      (Cal.init A).dtTimetuple x z = .ok (structOf x z w yd) ∧ (Cal.init A).checktm (structOf x z w yd).tup = .ok () := by
  obtain ⟨hd, ht⟩ := hx
  have hb := ht
  obtain ⟨a0, a1, a2, a3, a4, a5, a6, a7, -⟩ := hb
  simp only [DT.timetz] at a0 a1 a2 a3 a4 a5 a6 a7
  obtain ⟨y, m, dd, hn, -, e'⟩ := structYmd_ok (h := x.h) (mi := x.mi) (s := x.s) hE hd a0 a2 a3 a4 (by
    rcases hc with hc | hc
    · exact Or.inl hc
    · exact Or.inr hc)
  obtain ⟨y0, y1, hv, hnn⟩ := (dayNumber_iff hE).mp hn
  obtain ⟨-, -, n0, n1⟩ := dayNumber_year hE hn
  have hlen := leapOf_len (y := y) (by omega) y1
  have hl : ysInt (y + 1) ≤ ysInt y + 366 := by split_ifs at hlen <;> omega
  have yd0 : 1 ≤ dBefore (leapOf y) m + dd ∧ dBefore (leapOf y) m + dd ≤ 366 := by omega
  refine ⟨(n + 1) % 7, dBefore (leapOf y) m + dd, ⟨y, m, dd, hn, ?_⟩, rfl, ?_,
    checktm_tupOf hE hd hy ⟨a0, by omega⟩ ⟨a2, a3⟩ ⟨a4, by omega⟩ ⟨by omega, by omega⟩ yd0⟩
  · rw [init_yearStart hE, if_pos (by omega), hnn]
    congr 1
    omega
  · unfold Cal.dtTimetuple Cal.buildStructTime
    rw [e', pyOk_bind]
    simp only
    rw [dayOfWeek_ok hE hO hn, pyOk_bind, daysBeforeMonth_ok (init_isLeap hE y0 y1) hv, pyOk_bind]
    unfold Cal.structTime
    have hx' : IsDT (Cal.init A) ⟨x.d, x.h, x.mi, x.s, 0, z.map (fun i => i.zone.tz), 0⟩ n :=
      ⟨hd, ⟨a0, a1, a2, a3, a4, a5, by simp [DT.timetz], by simp [DT.timetz], Or.inl rfl⟩⟩
    rw [if_neg (by simp), newDT_ok hE hx', pyOk_bind]
    rfl

/-- `strftime` of a datetime is the expansion of the format with its weekday and day of the year. -/
theorem datetimeStrftime_eq {A : Astro} (hE : TehranEvening A) (hO : NewYearOrder (Cal.init A)) {x : DT} {n : ℤ}
    (hx : IsDT (Cal.init A) x n) (hc : x.d.isShort = true ∨ OrdinaryClock x) (hy : YearShown x.d) (L : Locale)
    (z : Option TzInfo) (f : Str) :
    ∃ w yd, (∃ y m d, DayNumber (Cal.init A) y m d n ∧ (Cal.init A).yearStart y = some (n - yd + 1)) ∧ w = (n + 1) % 7 ∧
      (Cal.init A).datetimeStrftime L x z f =
        strftimeWith ((Cal.init A).allDirectives L (structOf x z w yd)) (wrapFormat (padInt 6 x.us) f) := by
  obtain ⟨w, yd, h1, h2, h3, h4⟩ := dtTimetuple_ok hE hO hx hc hy z
  refine ⟨w, yd, h1, h2, ?_⟩
  unfold Cal.datetimeStrftime
  rw [h3, pyOk_bind]
  exact strftimeStruct_eq _ L _ h4

/-- A format of one directive. -/
theorem strftimeWith_one (dir : Directives) {c : Char} (hc : c ∈ "aAbBcCdDefGhHIjkKlmMnprSTuUVWxXyYzZ".toList) :
    strftimeWith dir ['%', c] = dir c none := by
  have := C40_copies_partial dir [.dir c none] (by simp) (by simpa [Tok.Documented] using hc) (by simp) (by
    intro a b ha hb; simp at ha; subst ha; simp [Tok.isLit])
  simp only [tokText, List.flatMap_cons, List.flatMap_nil, Tok.text, List.append_nil, tokValues, Tok.value] at this
  rw [this]
  cases dir c none with
  | error e => rfl
  | ok s => simp [bind, Except.bind]

theorem wrap_one {c : Char} (us : Str) (h : c ≠ 'f') : wrapFormat us ['%', c] = ['%', c] := by
  unfold wrapFormat
  · simp [wrapFormat]

end Verif
