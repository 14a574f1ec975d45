import Verif.Model.Operators
import Verif.Lemmas.DateObj
import Verif.Props.DateTime
import Verif.Props.Time

/-!
# Property C119: the operators between dates, times, datetimes and timedeltas
-/

namespace Verif

/-- C119: objects of different classes are never equal, a date and a datetime of the same day included, in either order. -/
theorem C119_unequal (C : Cal) (a b : Val) (h : a.kind ≠ b.kind) :
    C.compare .eq a b = .ok false ∧ C.compare .ne a b = .ok true := by
  cases a <;> cases b <;> first | exact absurd rfl h | exact ⟨rfl, rfl⟩

/-- C119: objects of different classes have no order: `<`, `<=`, `>` and `>=` raise TypeError, in either order of the objects. -/
theorem C119_no_order (C : Cal) (a b : Val) (h : a.kind ≠ b.kind) (op : CmpOp) (ho : op ≠ .eq ∧ op ≠ .ne) :
    C.compare op a b = .error .type := by
  obtain ⟨h1, h2⟩ := ho
  cases a <;> cases b <;> first
    | exact absurd rfl h
    | (cases op <;> first | exact absurd rfl h1 | exact absurd rfl h2 | rfl)

theorem compare_date (C : Cal) (op : CmpOp) (a b : DateObj) : C.compare op (.date a) (.date b) = dateOp op a b := by
  unfold Cal.compare firstOf
  simp only [Val.kind, properSub, Bool.false_eq_true, if_false, Cal.cmpMethod]
  cases dateOp op a b <;> rfl

theorem compare_time (C : Cal) (op : CmpOp) (a b : TimeObj) : C.compare op (.time a) (.time b) = timeOp op a b := by
  unfold Cal.compare firstOf
  simp only [Val.kind, properSub, Bool.false_eq_true, if_false, Cal.cmpMethod]
  cases timeOp op a b <;> rfl

theorem compare_datetime (C : Cal) (op : CmpOp) (a b : DT) : C.compare op (.datetime a) (.datetime b) = C.dtOp op a b := by
  unfold Cal.compare firstOf
  simp only [Val.kind, properSub, Bool.false_eq_true, if_false, Cal.cmpMethod]
  cases C.dtOp op a b <;> rfl

theorem compare_delta (C : Cal) (op : CmpOp) (a b : TimeDelta) :
    C.compare op (.delta a) (.delta b) = .ok (deltaOp op a b) := rfl

/-- C119: `a != b` is always the opposite of `a == b`, and raises when `a == b` raises. -/
theorem C119_ne (C : Cal) (a b : Val) : C.compare .ne a b = (C.compare .eq a b).map not := by
  by_cases h : a.kind = b.kind
  · cases a <;> cases b <;> first | (cases h; done) | skip
    · rw [compare_date, compare_date]; rfl
    · rw [compare_time, compare_time]; rfl
    · rw [compare_datetime, compare_datetime]; rfl
    · rw [compare_delta, compare_delta]; simp [deltaOp, Except.map]
  · obtain ⟨e1, e2⟩ := C119_unequal C a b h
    rw [e1, e2]
    rfl

theorem dateCmp_swap {a b : DateObj} (h : a.isShort = b.isShort) : ∃ c, dateCmp a b = .ok c ∧ dateCmp b a = .ok (-c) := by
  cases a <;> cases b <;> first | (cases h; done) | skip
  · exact ⟨_, rfl, congrArg Except.ok (tupleCmp_swap _ _)⟩
  · exact ⟨_, rfl, congrArg Except.ok (tupleCmp_swap _ _)⟩

/-- The answers of the six operators from a three-way comparison. -/
def opOf : CmpOp → ℤ → Bool
  | .eq, c => c == 0
  | .ne, c => !(c == 0)
  | .lt, c => decide (c < 0)
  | .le, c => decide (c ≤ 0)
  | .gt, c => decide (0 < c)
  | .ge, c => decide (0 ≤ c)

theorem opOf_swap (op : CmpOp) (c : ℤ) : opOf op.swap (-c) = opOf op c := by
  cases op <;> simp [opOf, CmpOp.swap]

theorem dateOp_of {op : CmpOp} {a b : DateObj} {c : ℤ} (h : dateCmp a b = .ok c) : dateOp op a b = .ok (opOf op c) := by
  cases op <;> simp [dateOp, dateEq, dateLt, dateLe, dateGt, dateGe, h, Except.map, opOf]

/-- C119: for dates of the same form every comparison can be turned around: `a < b` is `b > a`, `a <= b` is `b >= a`, and
`==` and `!=` do not depend on the order. -/
theorem C119_turn_dates_partial (C : Cal) (op : CmpOp) (a b : DateObj) (h : a.isShort = b.isShort) :
    C.compare op (.date a) (.date b) = C.compare op.swap (.date b) (.date a) := by
  obtain ⟨c, h1, h2⟩ := dateCmp_swap h
  rw [compare_date, compare_date, dateOp_of h1, dateOp_of h2, opOf_swap]

/-- C119: a date in the short form compared with one in the long form gives an answer, and the same comparison turned around
raises AttributeError. -/
theorem C119_forms_negation (C : Cal) (op : CmpOp) (a b : DateObj) (ha : a.isShort = true) (hb : b.isShort = false) :
    (∃ r, C.compare op (.date a) (.date b) = .ok r) ∧ C.compare op.swap (.date b) (.date a) = .error .attribute := by
  cases a with
  | long k v y m d => cases ha
  | short y m d =>
    cases b with
    | short y m d => cases hb
    | long k v y' m' d' =>
      rw [compare_date, compare_date]
      refine ⟨⟨_, dateOp_of rfl⟩, ?_⟩
      cases op <;> rfl

theorem utcOffset_cases (z : Option Tz) : (∃ o, utcOffset z = .ok o ∧ (o = none ↔ z = none)) ∨
    (utcOffset z = .error .value ∧ z ≠ none) := by
  cases z with
  | none => exact Or.inl ⟨none, rfl, by simp⟩
  | some z =>
    unfold utcOffset checkOffset
    by_cases h : -usPerDay < z.off ∧ z.off < usPerDay
    · exact Or.inl ⟨some z.off, by simp only [if_pos h]; rfl, by simp⟩
    · exact Or.inr ⟨by simp only [if_neg h]; rfl, by simp⟩

theorem timeCmp_swap (a b : TimeObj) (h : (a.tz = none ↔ b.tz = none)) :
    (∃ c, ∀ k, timeCmp a b k = .ok c ∧ timeCmp b a k = .ok (-c)) ∨
      (∀ k, timeCmp a b k = .error .value ∧ timeCmp b a k = .error .value) := by
  unfold timeCmp
  by_cases hz : a.tz = b.tz
  · refine Or.inl ⟨_, fun k => ⟨if_pos hz, ?_⟩⟩
    rw [if_pos hz.symm, tupleCmp_swap]
  · simp only [if_neg hz, if_neg (Ne.symm hz)]
    rcases utcOffset_cases a.tz with ⟨x, e1, i1⟩ | ⟨e1, -⟩
    · rcases utcOffset_cases b.tz with ⟨y, e2, i2⟩ | ⟨e2, -⟩
      · left
        simp only [e1, e2, pyOk_bind]
        unfold timeCmpOff
        by_cases hxy : x = y
        · refine ⟨_, fun k => ⟨if_pos hxy, ?_⟩⟩
          rw [if_pos hxy.symm, tupleCmp_swap]
        · simp only [if_neg hxy, if_neg (Ne.symm hxy)]
          cases x with
          | none =>
            have := i1.mp rfl
            have := i2.mpr (h.mp this)
            exact absurd this.symm hxy
          | some x =>
            cases y with
            | none => exact absurd (i1.mpr (h.mpr (i2.mp rfl))) (by simp)
            | some y => exact ⟨_, fun k => ⟨rfl, by simp only; rw [tupleCmp_swap]⟩⟩
      · right; intro k; simp only [e1, e2, pyOk_bind, pyErr_bind]; exact ⟨trivial, trivial⟩
    · rcases utcOffset_cases b.tz with ⟨y, e2, i2⟩ | ⟨e2, -⟩
      · right; intro k; simp only [e1, e2, pyOk_bind, pyErr_bind]; exact ⟨trivial, trivial⟩
      · right; intro k; simp only [e1, e2, pyErr_bind]; exact ⟨trivial, trivial⟩

/-- C119: for two times without a zone or two times with zones every comparison can be turned around, errors included. -/
theorem C119_turn_times_partial (C : Cal) (op : CmpOp) (a b : TimeObj) (h : (a.tz = none ↔ b.tz = none)) :
    C.compare op (.time a) (.time b) = C.compare op.swap (.time b) (.time a) := by
  rw [compare_time, compare_time]
  rcases timeCmp_swap a b h with ⟨c, e⟩ | e
  · cases op <;> simp only [timeOp, timeEq, timeLt, timeLe, timeGt, timeGe, (e true).1, (e true).2, (e false).1, (e false).2,
      Except.map, CmpOp.swap] <;> simp
  · cases op <;> simp only [timeOp, timeEq, timeLt, timeLe, timeGt, timeGe, (e true).1, (e true).2, (e false).1, (e false).2,
      Except.map, CmpOp.swap]

/-- C119: with one zone only, `a <= b` answers `False` and `b >= a` raises TypeError. -/
theorem C119_times_negation (C : Cal) (a b : TimeObj) (z : Tz) (ha : a.tz = none) (hb : b.tz = some z) (hz : ValidOff z.off) :
    C.compare .le (.time a) (.time b) = .ok false ∧ C.compare .ge (.time b) (.time a) = .error .type := by
  rw [compare_time, compare_time]
  have hv : utcOffset b.tz = .ok (some z.off) := by
    rw [hb]
    unfold utcOffset checkOffset usPerDay
    simp only
    rw [if_pos ⟨hz.1, hz.2⟩, pyOk_bind]
  have h0 : utcOffset a.tz = .ok none := by rw [ha]; rfl
  have hn : a.tz ≠ b.tz := by rw [ha, hb]; simp
  constructor
  · unfold timeOp timeLe timeCmp
    simp only [if_neg hn, h0, hv, pyOk_bind, timeCmpOff]
    rfl
  · unfold timeOp timeGe timeCmp
    simp only [if_neg hn.symm, h0, hv, pyOk_bind, timeCmpOff]
    rfl

/-- The six comparisons of numbers. -/
def opInt : CmpOp → ℤ → ℤ → Bool
  | .eq, m, n => decide (m = n)
  | .ne, m, n => decide (m ≠ n)
  | .lt, m, n => decide (m < n)
  | .le, m, n => decide (m ≤ n)
  | .gt, m, n => decide (m > n)
  | .ge, m, n => decide (m ≥ n)

/-- C119: two dates of the same form compare with all six operators as their ordinals do. Missing: dates of the same year of
which only one is in Ayyám-i-Há (C13). -/
theorem C119_dates_partial (A : Astro) (hE : TehranEvening A) (hO : NewYearOrder (Cal.init A)) (op : CmpOp) (a b : DateObj)
    (n n' : ℤ) (hs : a.isShort = b.isShort) (ha : IsDay (Cal.init A) a n) (hb : IsDay (Cal.init A) b n')
    (hm : (a.month = 0 ↔ b.month = 0) ∨ ∃ y y', YearOf a y ∧ YearOf b y' ∧ y ≠ y') :
    (Cal.init A).compare op (.date a) (.date b) = .ok (opInt op n n') := by
  obtain ⟨c, h1, h2⟩ := dateCmp_swap hs
  obtain ⟨i, j, ei, ej, e⟩ := C13_chronological_partial A hE hO a b n n' hs ha hb hm
  obtain ⟨j', i', ej', ei', e'⟩ := C13_chronological_partial A hE hO b a n' n hs.symm hb ha
    (hm.imp Iff.symm (fun ⟨y, y', p, q, r⟩ => ⟨y', y, q, p, r.symm⟩))
  rw [toOrdinal_ok hE hO ha] at ei ei'
  rw [toOrdinal_ok hE hO hb] at ej ej'
  injection ei with ei
  injection ej with ej
  injection ei' with ei'
  injection ej' with ej'
  subst ei ej ei' ej'
  unfold dateLt at e e'
  rw [h1] at e
  rw [h2] at e'
  have e1 : (c < 0) ↔ n < n' := by simpa [Except.map] using e
  have e2 : (0 < c) ↔ n' < n := by simpa [Except.map] using e'
  rw [compare_date, dateOp_of h1]
  congr 1
  cases op <;> simp only [opOf, opInt, Bool.beq_eq_decide_eq, ← decide_not, decide_eq_decide] <;> omega

/-- C119: two times without zones, or with equal offsets, compare with all six operators as their clocks do. -/
theorem C119_times (C : Cal) (op : CmpOp) (a b : TimeObj) (h : SameOffset a.tz b.tz) :
    ∃ r, C.compare op (.time a) (.time b) = .ok r ∧ (r = true ↔ match op with
      | .eq => SameClock a b
      | .ne => ¬ SameClock a b
      | .lt => EarlierClock a b
      | .le => EarlierClock a b ∨ SameClock a b
      | .gt => ¬ (EarlierClock a b ∨ SameClock a b)
      | .ge => ¬ EarlierClock a b) := by
  obtain ⟨bl, be, h1, h2, -, e1, e2, e3, e4, e5⟩ := C24_same_offset a b h
  rw [compare_time]
  cases op <;> simp only [timeOp, e1, e2, e3, e4, e5, Except.map] <;>
    refine ⟨_, rfl, ?_⟩ <;> simp [← h1, ← h2]

/-- C119: two datetimes with different offsets compare with all six operators as their instants do. -/
theorem C119_datetimes (A : Astro) (hE : TehranEvening A) (hO : NewYearOrder (Cal.init A)) (op : CmpOp) (x y : DT) (n m : ℤ)
    (z w : Tz) (hx : IsDT (Cal.init A) x n) (hy : IsDT (Cal.init A) y m) (hz : x.tz = some z) (hw : y.tz = some w)
    (oz : ValidOff z.off) (ow : ValidOff w.off) (hne : z.off ≠ w.off) :
    (Cal.init A).compare op (.datetime x) (.datetime y) =
      .ok (opInt op (localMicro x n - z.off) (localMicro y m - w.off)) := by
  obtain ⟨e1, e2, e3, e4, e5⟩ := C52_instants A hE hO x y n m z w hx hy hz hw oz ow hne
  rw [compare_datetime]
  cases op <;> simp only [Cal.dtOp, e1, e2, e3, e4, e5, Except.map, opInt, decide_not]

/-- The sums that are defined: of a timedelta and a date, a datetime or a timedelta. -/
def Summable (a b : Val) : Prop := (a.kind = .delta ∧ b.kind ≠ .time) ∨ (b.kind = .delta ∧ a.kind ≠ .time)

/-- C119: `a + b` is `b + a` for all objects, errors included. -/
theorem C119_plus_comm (C : Cal) (a b : Val) : C.plus a b = C.plus b a := by
  cases a <;> cases b <;> first | rfl | skip
  case delta.delta t u =>
    unfold Cal.plus firstOf
    simp only [Val.kind, properSub, Bool.false_eq_true, if_false, Cal.addMethod, pyOk_bind, TimeDelta.add, add_comm]

/-- C119: all other sums raise TypeError: two dates cannot be added, and nothing can be added to a time. -/
theorem C119_plus_refused (C : Cal) (a b : Val) (h : ¬ Summable a b) : C.plus a b = .error .type := by
  cases a <;> cases b <;> first | rfl | exact absurd (by simp [Summable, Val.kind]) h

/-- C119: a date plus a timedelta is a date of the same form, later by the whole days of the timedelta, on either side of the
plus sign; a datetime plus a timedelta is a datetime. -/
theorem C119_plus (A : Astro) (hE : TehranEvening A) (hO : NewYearOrder (Cal.init A)) (d : DateObj) (n : ℤ)
    (hd : IsDay (Cal.init A) d n) (t : TimeDelta) (hr : Reachable (Cal.init A) (n + t.days)) :
    ∃ e, (Cal.init A).plus (.date d) (.delta t) = .ok (.date e) ∧ (Cal.init A).plus (.delta t) (.date d) = .ok (.date e) ∧
      IsDay (Cal.init A) e (n + t.days) ∧ e.isShort = d.isShort := by
  obtain ⟨e, h1, h2, h3⟩ := C08_add_partial A hE hO d n hd t hr
  have : (Cal.init A).plus (.date d) (.delta t) = .ok (.date e) := by
    unfold Cal.plus firstOf
    simp only [Val.kind, properSub, Bool.false_eq_true, if_false, Cal.addMethod, h1]
    rfl
  exact ⟨e, this, by rw [C119_plus_comm]; exact this, h2, h3⟩

/-- C119: a date minus a datetime is the number of days between them, whatever the time of day of the datetime; the datetime
minus the date raises TypeError. So `a - b` is not `-(b - a)`. -/
theorem C119_minus_negation (A : Astro) (hE : TehranEvening A) (hO : NewYearOrder (Cal.init A)) (d : DateObj) (n : ℤ)
    (hd : IsDay (Cal.init A) d n) (x : DT) (m : ℤ) (hx : IsDT (Cal.init A) x m) :
    (Cal.init A).minus (.date d) (.datetime x) = .ok (.delta (TimeDelta.ofDays (n - m))) ∧
    (Cal.init A).minus (.datetime x) (.date d) = .error .type := by
  refine ⟨?_, rfl⟩
  unfold Cal.minus firstOf
  simp only [Cal.subMethod, Cal.subDate]
  rw [toOrdinal_ok hE hO hd, toOrdinal_ok hE hO hx.1, pyOk_bind, pyOk_bind]
  rfl

/-- C119: two dates, in either form, differ by the days between them, and the difference changes its sign with the order. -/
theorem C119_minus (A : Astro) (hE : TehranEvening A) (hO : NewYearOrder (Cal.init A)) (d e : DateObj) (n m : ℤ)
    (hd : IsDay (Cal.init A) d n) (he : IsDay (Cal.init A) e m) :
    (Cal.init A).minus (.date d) (.date e) = .ok (.delta (TimeDelta.ofDays (n - m))) ∧
    (Cal.init A).minus (.date e) (.date d) = .ok (.delta (TimeDelta.ofDays (n - m)).neg) := by
  have key : ∀ {d e : DateObj} {n m : ℤ}, IsDay (Cal.init A) d n → IsDay (Cal.init A) e m →
      (Cal.init A).minus (.date d) (.date e) = .ok (.delta (TimeDelta.ofDays (n - m))) := by
    intro d e n m hd he
    unfold Cal.minus firstOf
    simp only [Cal.subMethod, Cal.subDate]
    rw [toOrdinal_ok hE hO hd, toOrdinal_ok hE hO he, pyOk_bind, pyOk_bind]
    rfl
  refine ⟨key hd he, ?_⟩
  rw [key he hd]
  unfold TimeDelta.neg TimeDelta.ofDays
  congr 3
  ring

/-- The differences that are defined. -/
def Subtractable (a b : Val) : Prop :=
  a.kind ≠ .time ∧ (b.kind = .delta ∨ (a.kind ≠ .delta ∧ a.kind = b.kind) ∨ (a.kind = .date ∧ b.kind = .datetime))

/-- C119: all other differences raise TypeError: of times, and of a timedelta with a date on its right. -/
theorem C119_minus_refused (C : Cal) (a b : Val) (h : ¬ Subtractable a b) : C.minus a b = .error .type := by
  cases a <;> cases b <;> first | rfl | exact absurd (by simp [Subtractable, Val.kind]) h

/-- The last day of Ayyám-i-Há as a date and as a datetime, its times with and without a zone, and the reachable day after
it. -/
example : IsDay (Cal.init newYearSun) (witnessDT none 0).d 739675 ∧ IsDT (Cal.init newYearSun) (witnessDT none 0) 739675 ∧
    (Val.date (witnessDT none 0).d).kind ≠ (Val.datetime (witnessDT none 0)).kind ∧
    Reachable (Cal.init newYearSun) (739675 + (TimeDelta.ofDays 1).days) ∧
    (DateObj.short 182 0 5).isShort = true ∧ (DateObj.long 1 10 11 0 5).isShort = false ∧ ValidOff 12600000000 ∧
    ¬ Summable (.date (witnessDT none 0).d) (.datetime (witnessDT none 0)) ∧
    ¬ Subtractable (.datetime (witnessDT none 0)) (.date (witnessDT none 0).d) := by
  refine ⟨(witnessDT_is none (Or.inl rfl)).1, witnessDT_is none (Or.inl rfl), by simp [Val.kind],
    reachable_modern newYearSun_tehran (by decide) (by decide), rfl, rfl, by unfold ValidOff; norm_num, ?_, ?_⟩ <;>
  simp [Summable, Subtractable, Val.kind]

/-- The same evening in two zones, and two days of Ayyám-i-Há. -/
example : IsDT (Cal.init newYearSun) (witnessDT (some ⟨1, 12600000000⟩) 0) 739675 ∧
    IsDT (Cal.init newYearSun) (witnessDT (some ⟨2, 0⟩) 1) 739675 ∧ ValidOff 12600000000 ∧ ValidOff 0 ∧
    SameOffset (some ⟨1, 12600000000⟩) (some ⟨2, 12600000000⟩) ∧
    ((witnessDT none 0).d.month = 0 ↔ (DateObj.short 182 0 4).month = 0) :=
  ⟨witnessDT_is _ (Or.inl rfl), witnessDT_is _ (Or.inr rfl), by unfold ValidOff; norm_num, by unfold ValidOff; norm_num,
    ⟨rfl, by constructor <;> norm_num⟩, Iff.rfl⟩

end Verif
