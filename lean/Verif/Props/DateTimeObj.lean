import Verif.Props.DateTime

/-!
# Properties C15, C17 and C23 for `datetime` objects
-/

namespace Verif

/-! ## C17: pickling -/

/-- The state bytes of a datetime, `f` being added to the month. -/
theorem dtState_ok {A : Astro} (hE : TehranEvening A) {x : DT} {n : ℤ} (h : IsDT (Cal.init A) x n) (h0 : 78 ≤ n)
    (p : ℕ) {f : ℤ} (hf : f = if x.fold ≠ 0 ∧ 3 < p then 128 else 0) :
    dtState x p = .ok (match x.d with
      | .short y m d => [(y - minYear) / 256, (y - minYear) % 256, m + f, d, x.h, x.mi, x.s, x.us / 256 / 256,
          x.us / 256 % 256, x.us % 256]
      | .long k v y m d => [k + 19, v, y, m + f, d, x.h, x.mi, x.s, x.us / 256 / 256, x.us / 256 % 256, x.us % 256]) := by
  obtain ⟨hd, ⟨a0, a1, a2, a3, a4, a5, a6, a7, -⟩⟩ := h
  unfold DT.timetz at a0 a1 a2 a3 a4 a5 a6 a7
  simp only at a0 a1 a2 a3 a4 a5 a6 a7
  have hff : f = 0 ∨ f = 128 := by
    rw [hf]; split_ifs <;> simp
  have hy : ∀ y m d, DayNumber (Cal.init A) y m d n → -1842 ≤ y ∧ y ≤ 1161 ∧ 0 ≤ m ∧ m ≤ 19 ∧ 1 ≤ d ∧ d ≤ 19 := by
    intro y m d hd
    obtain ⟨y0, y1, hv, -⟩ := (dayNumber_iff hE).mp hd
    obtain ⟨-, -, -, n1⟩ := dayNumber_year hE hd
    have : -1842 ≤ y := by
      by_contra c
      have : y = -1843 := by omega
      subst this
      rw [show (-1843 : ℤ) + 1 = -1842 by norm_num, ysInt_m1842] at n1
      omega
    unfold ValidMD at hv
    split_ifs at hv <;> omega
  have e0 : minYear = -1842 := rfl
  unfold dtState
  obtain ⟨dd, b1, b2, b3, b4, tz, fo⟩ := x
  simp only at *
  rw [← hf]
  cases dd with
  | short y m d =>
    have := hy y m d hd
    refine pyBytes_ok fun x hx => ?_
    simp only [List.cons_append, List.nil_append, List.mem_cons, List.not_mem_nil, or_false] at hx
    omega
  | long k v w m d =>
    obtain ⟨y, hden, hd⟩ := hd
    have := hy y m d hd
    obtain ⟨c1, c2, c3, c4, c5⟩ := hden
    refine pyBytes_ok fun x hx => ?_
    simp only [List.cons_append, List.nil_append, List.mem_cons, List.not_mem_nil, or_false] at hx
    omega

/-- C17 for datetimes outside Ayyám-i-Há, from the first day of MINYEAR on: all fields and the zone come back,
and above protocol 3 also the fold. Missing from the full property: Ayyám-i-Há
(`C17_ayyam_i_ha_negation`). -/
theorem C17_datetime_partial (A : Astro) (hE : TehranEvening A) (x : DT) (n a : ℤ) (p : ℕ)
    (hx : IsDT (Cal.init A) x n) (ha : (Cal.init A).yearStart (-1842) = some a) (hn : a ≤ n) (hm : x.d.month ≠ 0) :
    (Cal.init A).dtPickle x p = .ok { x with fold := if 3 < p then x.fold else 0 } := by
  rw [init_yearStart hE, if_pos (by omega), ysInt_m1842] at ha
  obtain rfl := Option.some.inj ha
  have hmm : ∀ y m d, DayNumber (Cal.init A) y m d n → m ≠ 0 → 1 ≤ m ∧ m ≤ 19 := by
    intro y m d hd h0
    obtain ⟨y0, y1, hv, -⟩ := (dayNumber_iff hE).mp hd
    rcases hv with hv | hv <;> omega
  unfold Cal.dtPickle
  rw [dtState_ok hE hx hn p rfl, pyOk_bind]
  have hnd := newDate_ok hE hx.day
  have hfold := hx.time.fold
  have hus : (x.us / 256 / 256 * 256 + x.us / 256 % 256) * 256 + x.us % 256 = x.us := by omega
  have e0 : minYear = -1842 := rfl
  have hday := hx.day
  have hck : checkTimeFields 0 0 0 0 0 = .ok () := by decide
  obtain ⟨dd, b1, b2, b3, b4, tz, fo⟩ := x
  unfold DT.timetz at hfold
  simp only at *
  have hf : (if fo ≠ 0 ∧ 3 < p then (128 : ℤ) else 0) = 0 ∧ (if 3 < p then fo else 0) = 0 ∨
      (if fo ≠ 0 ∧ 3 < p then (128 : ℤ) else 0) = 128 ∧ (if 3 < p then fo else 0) = 1 := by
    by_cases hp : 3 < p
    · rcases hfold with rfl | rfl
      · left; simp
      · right; simp [hp]
    · left; simp [hp]
  cases dd with
  | short y m d =>
    have hm' := hmm y m d hday hm
    unfold Cal.dtOfBytes
    simp only
    have hyy : (y - minYear) / 256 * 256 + minYear + (y - minYear) % 256 = y := by omega
    rcases hf with ⟨f1, f2⟩ | ⟨f1, f2⟩
    · rw [f1, f2, if_pos (by omega)]
      unfold Cal.dtSetTail
      rw [if_neg (by omega), if_neg (by omega), hyy, add_zero, hnd, pyOk_bind, hck, pyOk_bind, hus]
    · rw [f1, f2, if_pos (by omega)]
      unfold Cal.dtSetTail
      rw [if_pos (by omega), if_pos (by omega), hyy, add_sub_cancel_right, hnd, pyOk_bind, hck, pyOk_bind, hus]
  | long k v w m d =>
    obtain ⟨y, hden, hday⟩ := hday
    have hm' := hmm y m d hday hm
    unfold Cal.dtOfBytes
    simp only
    rcases hf with ⟨f1, f2⟩ | ⟨f1, f2⟩
    · rw [f1, f2, if_pos (by omega)]
      unfold Cal.dtSetTail
      rw [if_neg (by omega), if_neg (by omega), add_sub_cancel_right, add_zero, hnd, pyOk_bind, hck, pyOk_bind, hus]
    · rw [f1, f2, if_pos (by omega)]
      unfold Cal.dtSetTail
      rw [if_pos (by omega), if_pos (by omega), add_sub_cancel_right, add_sub_cancel_right, hnd, pyOk_bind, hck,
        pyOk_bind, hus]

example : IsDT (Cal.init newYearSun) (witnessLong (some ⟨1, 12600000000⟩)) 739676 ∧ (witnessLong none).d.month ≠ 0 ∧
    ∃ a, (Cal.init newYearSun).yearStart (-1842) = some a ∧ a ≤ 739676 :=
  ⟨witnessLong_is _, by decide, 78, by rw [init_yearStart newYearSun_tehran, if_pos (by omega), ysInt_m1842], by omega⟩

/-- C17 is false in Ayyám-i-Há: no datetime of month 0 survives pickling, with any protocol. -/
theorem C17_ayyam_i_ha_negation (A : Astro) (x y : DT) (p : ℕ) (hm : x.d.month = 0) :
    (Cal.init A).dtPickle x p ≠ .ok y := by
  unfold Cal.dtPickle
  cases hs : dtState x p with
  | error e => rw [pyErr_bind]; simp
  | ok s =>
    rw [pyOk_bind]
    unfold dtState pyBytes at hs
    obtain ⟨dd, b1, b2, b3, b4, tz, fo⟩ := x
    have hf : ∀ f : ℤ, f = 0 ∨ f = 128 → ¬ (1 ≤ (0 + f) % 128 ∧ (0 + f) % 128 ≤ 19) := by
      rintro f (rfl | rfl) <;> decide
    have hff : (if fo ≠ 0 ∧ 3 < p then (128 : ℤ) else 0) = 0 ∨ (if fo ≠ 0 ∧ 3 < p then (128 : ℤ) else 0) = 128 := by
      split_ifs <;> simp
    cases dd with
    | short y m d =>
      obtain rfl : m = 0 := hm
      simp only at hs
      split_ifs at hs with hc
      all_goals
        injection hs with hs
        subst hs
        unfold Cal.dtOfBytes
        simp
    | long k v w m d =>
      obtain rfl : m = 0 := hm
      simp only at hs
      split_ifs at hs with hc
      all_goals
        injection hs with hs
        subst hs
        unfold Cal.dtOfBytes
        simp

example : (witnessDT none 1).d.month = 0 ∧ IsDT (Cal.init newYearSun) (witnessDT none 1) 739675 :=
  ⟨rfl, witnessDT_is _ (Or.inr rfl)⟩

/-! ## C23: replace -/

/-- `y` is `x` with the fields that `a` names replaced. -/
def DTReplaced (a : DTArgs) (x y : DT) : Prop := Replaced a.d x.d y.d ∧ TimeReplaced a.t x.timetz y.timetz

theorem newDT_inv {A : Astro} {x y : DT} (h : (Cal.init A).newDT x = .ok y) : y = x ∧ ValidTime x.timetz := by
  unfold Cal.newDT at h
  cases hd : (Cal.init A).newDate x.d with
  | error e => rw [hd, pyErr_bind] at h; cases h
  | ok d =>
    rw [hd, pyOk_bind] at h
    cases ht : checkTimeFields x.h x.mi x.s x.us x.fold with
    | error e => rw [ht, pyErr_bind] at h; cases h
    | ok u =>
      rw [ht, pyOk_bind] at h
      injection h with h
      refine ⟨h.symm, ?_⟩
      obtain ⟨p1, p2, p3, p4, p5⟩ := checkTimeFields_inv ht
      unfold DT.timetz
      exact ⟨p1.1, by simp only; omega, p2.1, by simp only; omega, p3.1, by simp only; omega, p4.1,
        by simp only; omega, p5⟩

/-- C23 for datetimes. What `replace` returns has the named fields changed and the others not, and is a valid
datetime. The hypothesis excludes Kull-i-Shay or Váḥid arguments on a short form; see
`C23_datetime_zero_negation`. -/
theorem C23_datetime_fields_partial (A : Astro) (x y : DT) (a : DTArgs) (hf : a.d.fits x.d)
    (h : (Cal.init A).replaceDT x a = .ok y) :
    DTReplaced a x y ∧ y.d.isShort = x.d.isShort ∧ ValidTime y.timetz := by
  unfold Cal.replaceDT at h
  obtain ⟨dd, b1, b2, b3, b4, tz, fo⟩ := x
  cases dd with
  | short y' m d =>
    simp only at h
    split_ifs at h
    obtain ⟨rfl, hv⟩ := newDT_inv h
    exact ⟨⟨⟨rfl, rfl, rfl⟩, rfl, rfl, rfl, rfl, rfl, rfl⟩, rfl, hv⟩
  | long k v w m d =>
    simp only at h
    split_ifs at h
    obtain ⟨rfl, hv⟩ := newDT_inv h
    exact ⟨⟨⟨rfl, rfl, rfl, rfl, rfl⟩, rfl, rfl, rfl, rfl, rfl, rfl⟩, rfl, hv⟩

theorem getD_own {α : Type} {x : Option α} {y : α} (hx : x ∈ [none, some y]) : x.getD y = y := by
  simp only [List.mem_cons, List.not_mem_nil, or_false] at hx
  rcases hx with rfl | rfl <;> rfl

/-- The date arguments are absent or the date's own fields. -/
def OwnDate (a : ReplaceArgs) : DateObj → Prop
  | .short y m d => a.k = none ∧ a.v = none ∧ a.y ∈ [none, some y] ∧ a.m ∈ [none, some m] ∧ a.d ∈ [none, some d]
  | .long k v y m d => a.k ∈ [none, some k] ∧ a.v ∈ [none, some v] ∧ a.y ∈ [none, some y] ∧
      a.m ∈ [none, some m] ∧ a.d ∈ [none, some d]

/-- The time arguments are absent or the datetime's own fields. -/
def OwnTime (a : TimeArgs) (x : DT) : Prop :=
  a.h ∈ [none, some x.h] ∧ a.mi ∈ [none, some x.mi] ∧ a.s ∈ [none, some x.s] ∧ a.us ∈ [none, some x.us] ∧
    a.tz ∈ [none, some x.tz] ∧ a.fold ∈ [none, some x.fold]

/-- C23 for datetimes. Replacing nothing, or fields by their own values, is the identity. -/
theorem C23_datetime_identity (A : Astro) (hE : TehranEvening A) (x : DT) (n : ℤ) (hx : IsDT (Cal.init A) x n)
    (a : DTArgs) (h1 : OwnDate a.d x.d) (h2 : OwnTime a.t x) : (Cal.init A).replaceDT x a = .ok x := by
  have hok := newDT_ok hE hx
  obtain ⟨t1, t2, t3, t4, t5, t6⟩ := h2
  have hday := hx.day
  unfold Cal.replaceDT
  obtain ⟨dd, b1, b2, b3, b4, tz, fo⟩ := x
  simp only at t1 t2 t3 t4 t5 t6 h1 hday
  cases dd with
  | short y m d =>
    obtain ⟨k1, k2, k3, k4, k5⟩ := h1
    simp only
    rw [k1, k2, getD_own k3, getD_own k4, getD_own k5, getD_own t1, getD_own t2, getD_own t3, getD_own t4, getD_own t5,
      getD_own t6]
    exact hok
  | long k v w m d =>
    obtain ⟨k1, k2, k3, k4, k5⟩ := h1
    obtain ⟨y, ⟨-, -, w0, w1, -⟩, -⟩ := hday
    simp only
    rw [getD_own k1, getD_own k2, getD_own k3, getD_own k4, getD_own k5, getD_own t1, getD_own t2, getD_own t3,
      getD_own t4, getD_own t5, getD_own t6, if_neg]
    · exact hok
    · simp only [List.mem_cons, List.not_mem_nil, or_false] at k3
      rcases k3 with k3 | k3
      · rw [k3]; simp
      · rw [k3]; simp; omega

example : IsDT (Cal.init newYearSun) (witnessLong none) 739676 ∧ OwnDate { y := some 11 } (witnessLong none).d ∧
    OwnTime { h := some 23, tz := some none } (witnessLong none) := by
  refine ⟨witnessLong_is _, ?_, ?_⟩ <;> simp [OwnDate, OwnTime, witnessLong]

/-- C23 for datetimes. Replacing the zone, the clock and the fold gives exactly the datetime with these changed,
when the clock is valid, and AssertionError when it is not. -/
theorem C23_datetime_clock (A : Astro) (hE : TehranEvening A) (x y : DT) (n : ℤ) (hx : IsDT (Cal.init A) x n)
    (a : TimeArgs) (hd : y.d = x.d) (ht : TimeReplaced a x.timetz y.timetz) :
    (ValidTime y.timetz → (Cal.init A).replaceDT x { t := a } = .ok y) ∧
    (¬ ValidTime y.timetz → (Cal.init A).replaceDT x { t := a } = .error .assertion) := by
  have hr : (Cal.init A).replaceDT x { t := a } = (Cal.init A).newDT y := by
    obtain ⟨h1, h2, h3, h4, h5, h6⟩ := ht
    unfold DT.timetz at h1 h2 h3 h4 h5 h6
    unfold Cal.replaceDT
    obtain ⟨dd, b1, b2, b3, b4, tz, fo⟩ := x
    obtain ⟨dd', c1, c2, c3, c4, tz', fo'⟩ := y
    simp only at h1 h2 h3 h4 h5 h6 hd
    subst hd
    simp only [← h1, ← h2, ← h3, ← h4, ← h5, ← h6]
    cases dd' with
    | short y m d => rfl
    | long k v w m d => rfl
  rw [hr]
  have hday : IsDay (Cal.init A) y.d n := hd ▸ hx.day
  constructor
  · intro hv
    exact newDT_ok hE ⟨hday, hv⟩
  · intro hv
    unfold Cal.newDT
    rw [newDate_ok hE hday, pyOk_bind, checkTimeFields_err, pyErr_bind]
    rintro ⟨p1, p2, p3, p4, p5⟩
    apply hv
    unfold DT.timetz
    exact ⟨p1.1, by simp only; omega, p2.1, by simp only; omega, p3.1, by simp only; omega, p4.1,
        by simp only; omega, p5⟩

example : TimeReplaced { mi := some 60 } (witnessDT none 0).timetz (DT.timetz { witnessDT none 0 with mi := 60 }) ∧
    ¬ ValidTime (DT.timetz { witnessDT none 0 with mi := 60 }) :=
  ⟨⟨rfl, rfl, rfl, rfl, rfl, rfl⟩, fun h => absurd h.mi1 (by decide)⟩

/-- C23 for datetimes. A later replacement that names every field an earlier one named overrides it. -/
theorem C23_datetime_override (A : Astro) (x y : DT) (a b : DTArgs) (hf : a.d.fits x.d)
    (h : (Cal.init A).replaceDT x a = .ok y)
    (hk : a.d.k ≠ none → b.d.k ≠ none) (hv : a.d.v ≠ none → b.d.v ≠ none) (hy : a.d.y ≠ none → b.d.y ≠ none)
    (hm : a.d.m ≠ none → b.d.m ≠ none) (hd : a.d.d ≠ none → b.d.d ≠ none)
    (h1 : a.t.h ≠ none → b.t.h ≠ none) (h2 : a.t.mi ≠ none → b.t.mi ≠ none) (h3 : a.t.s ≠ none → b.t.s ≠ none)
    (h4 : a.t.us ≠ none → b.t.us ≠ none) (h5 : a.t.tz ≠ none → b.t.tz ≠ none)
    (h6 : a.t.fold ≠ none → b.t.fold ≠ none) :
    (Cal.init A).replaceDT y b = (Cal.init A).replaceDT x b := by
  have g : ∀ {α : Type} (x z : Option α) (y : α), (x ≠ none → z ≠ none) → z.getD (x.getD y) = z.getD y := by
    intro α x z y hx
    cases x with
    | none => rfl
    | some x =>
      cases z with
      | none => exact absurd rfl (hx (by simp))
      | some z => rfl
  obtain ⟨⟨r1, t1, t2, t3, t4, t5, t6⟩, -, -⟩ := C23_datetime_fields_partial A x y a hf h
  obtain ⟨dd, b1, b2, b3, b4, tz, fo⟩ := x
  obtain ⟨dd', c1, c2, c3, c4, tz', fo'⟩ := y
  unfold DT.timetz at t1 t2 t3 t4 t5 t6
  simp only at t1 t2 t3 t4 t5 t6 r1
  subst t1 t2 t3 t4 t5 t6
  cases dd with
  | short y m d =>
    cases dd' with
    | long => exact r1.elim
    | short y' m' d' =>
      obtain ⟨rfl, rfl, rfl⟩ := r1
      unfold Cal.replaceDT
      simp only
      rw [g _ _ _ hy, g _ _ _ hm, g _ _ _ hd, g _ _ _ h1, g _ _ _ h2, g _ _ _ h3, g _ _ _ h4, g _ _ _ h5, g _ _ _ h6]
  | long k v w m d =>
    cases dd' with
    | short => exact r1.elim
    | long k' v' w' m' d' =>
      obtain ⟨rfl, rfl, rfl, rfl, rfl⟩ := r1
      unfold Cal.replaceDT
      simp only
      rw [g _ _ _ hk, g _ _ _ hv, g _ _ _ hy, g _ _ _ hm, g _ _ _ hd, g _ _ _ h1, g _ _ _ h2, g _ _ _ h3, g _ _ _ h4,
        g _ _ _ h5, g _ _ _ h6]

example : ∃ y, (Cal.init newYearSun).replaceDT (witnessLong none) { d := { d := some 1 }, t := { h := some 23 } } = .ok y :=
  ⟨_, C23_datetime_identity newYearSun newYearSun_tehran _ _ (witnessLong_is none) _ (by simp [OwnDate, witnessLong])
    (by simp [OwnTime, witnessLong])⟩

/-- C23 is false for a zero Kull-i-Shay or Váḥid on a short form datetime: other values raise ValueError, zero is
silently ignored. -/
theorem C23_datetime_zero_negation (A : Astro) (hE : TehranEvening A) (x : DT) (n : ℤ) (hx : IsDT (Cal.init A) x n)
    (hs : x.d.isShort = true) :
    (Cal.init A).replaceDT x { d := { k := some 0, v := some 0 } } = .ok x ∧
    ∀ k, k ≠ 0 → (Cal.init A).replaceDT x { d := { k := some k } } = .error .value := by
  have hok := newDT_ok hE hx
  obtain ⟨dd, b1, b2, b3, b4, tz, fo⟩ := x
  cases dd with
  | long => simp [DateObj.isShort] at hs
  | short y m d =>
    refine ⟨hok, fun k hk => ?_⟩
    unfold Cal.replaceDT
    simp [pyTruthy, hk]

example : (witnessDT none 0).d.isShort = true := rfl

/-! ## C15: hashing -/

theorem dtHash_eq {A : Astro} (hE : TehranEvening A) (H : PyHash) {x : DT} {n : ℤ} (hx : IsDT (Cal.init A) x n)
    (hz : ∀ z, x.tz = some z → ValidOff z.off) :
    (Cal.init A).dtHash H x = match x.tz with
      | none => (dtState { x with fold := 0 } 3).map H.bytes
      | some z => (Cal.init A).ymd2ord x.d.ymd.1 x.d.ymd.2.1 x.d.ymd.2.2 >>= fun days =>
        .ok (H.delta (days * usPerDay + x.tod - z.off)) := by
  have hr : (Cal.init A).replaceDT x { t := { fold := some 0 } } = .ok { x with fold := 0 } := by
    refine (C23_datetime_clock A hE x { x with fold := 0 } n hx { fold := some 0 } rfl
      ⟨rfl, rfl, rfl, rfl, rfl, rfl⟩).1 ?_
    obtain ⟨-, ⟨a0, a1, a2, a3, a4, a5, a6, a7, -⟩⟩ := hx
    exact ⟨a0, a1, a2, a3, a4, a5, a6, a7, Or.inl rfl⟩
  have ht : (Cal.init A).dtNoFold x = .ok { x with fold := 0 } := by
    unfold Cal.dtNoFold
    by_cases hf : x.fold ≠ 0
    · rw [if_pos hf, hr]
    · rw [if_neg hf]
      have : x.fold = 0 := by simpa using hf
      cases x
      simp only at this
      rw [this]
  unfold Cal.dtHash
  rw [ht, pyOk_bind]
  simp only
  rw [utcOffset_valid hz, pyOk_bind]
  cases x.tz <;> rfl

/-- C15, hashability of datetimes, from the first day of MINYEAR on. -/
theorem C15_datetime_hashable (A : Astro) (hE : TehranEvening A) (hO : NewYearOrder (Cal.init A)) (H : PyHash)
    (x : DT) (n a : ℤ) (hx : IsDT (Cal.init A) x n)
    (hz : ∀ z, x.tz = some z → ValidOff z.off)
    (ha : (Cal.init A).yearStart (-1842) = some a) (hn : a ≤ n) : ∃ v, (Cal.init A).dtHash H x = .ok v := by
  rw [init_yearStart hE, if_pos (by omega), ysInt_m1842] at ha
  obtain rfl := Option.some.inj ha
  rw [dtHash_eq hE H hx hz]
  have h0 : IsDT (Cal.init A) { x with fold := 0, tz := none } n := by
    obtain ⟨hd, ⟨a0, a1, a2, a3, a4, a5, a6, a7, -⟩⟩ := hx
    exact ⟨hd, ⟨a0, a1, a2, a3, a4, a5, a6, a7, Or.inl rfl⟩⟩
  cases htz : x.tz with
  | none =>
    simp only
    rw [dtState_ok hE h0 hn 3 rfl]
    exact ⟨_, rfl⟩
  | some z =>
    simp only
    have hd := hx.day
    cases hxd : x.d with
    | short y m d =>
      rw [hxd] at hd
      simp only [DateObj.ymd]
      rw [ord_ok hE hO hd, pyOk_bind]
      exact ⟨_, rfl⟩
    | long k v w m d =>
      rw [hxd] at hd
      obtain ⟨y, ⟨-, -, w0, w1, -⟩, hd⟩ := hd
      obtain ⟨-, -, hv, -⟩ := (dayNumber_iff hE).mp hd
      simp only [DateObj.ymd]
      have hv' : ValidMD (leapOf w) m 1 := by
        rcases hv with hv | hv
        · exact Or.inl ⟨hv.1, hv.2.1, by omega, by omega⟩
        · exact Or.inr ⟨hv.1, by omega, by split_ifs <;> omega⟩
      unfold Cal.ymd2ord
      rw [daysBeforeYear_ok hE hO (by omega) (by omega), pyOk_bind,
        daysBeforeMonth_ok (init_isLeap hE (by omega) (by omega)) hv', pyOk_bind, pyOk_bind]
      exact ⟨_, rfl⟩

example : IsDT (Cal.init newYearSun) (witnessDT (some ⟨1, 12600000000⟩) 1) 739675 := witnessDT_is _ (Or.inr rfl)

/-- C15 for short form datetimes: equal datetimes, with or without zones, have equal hashes. Missing from the
full property: the long form, see the `_negation` theorems. -/
theorem C15_datetime_partial (A : Astro) (hE : TehranEvening A) (hO : NewYearOrder (Cal.init A)) (H : PyHash)
    (x y : DT) (n m : ℤ) (hx : IsDT (Cal.init A) x n) (hy : IsDT (Cal.init A) y m) (sx : x.d.isShort = true)
    (sy : y.d.isShort = true) (hz : ∀ z, x.tz = some z → ValidOff z.off) (hw : ∀ z, y.tz = some z → ValidOff z.off)
    (h : (Cal.init A).dtEq x y = .ok true) : (Cal.init A).dtHash H x = (Cal.init A).dtHash H y := by
  have hashS : ∀ {x : DT} {n : ℤ} {z : Tz}, IsDT (Cal.init A) x n → x.d.isShort = true → x.tz = some z →
      ValidOff z.off → (Cal.init A).dtHash H x = .ok (H.delta (localMicro x n - z.off)) := by
    intro x n z hx sx htz hz
    rw [dtHash_eq hE H hx (fun w hw => by rw [htz] at hw; injection hw with hw; rw [← hw]; exact hz), htz]
    have hd := hx.day
    cases hxd : x.d with
    | long => rw [hxd] at sx; simp [DateObj.isShort] at sx
    | short y m d =>
      rw [hxd] at hd
      simp only [DateObj.ymd]
      rw [ord_ok hE hO hd, pyOk_bind, tod_eq]
  have hday : SameFields x y → n = m := fun hf => isDay_day hE (hf.1 ▸ hx.day) hy.day
  cases htx : x.tz with
  | none =>
    cases hty : y.tz with
    | none =>
      obtain ⟨b, e, hb⟩ := C25_short_partial (Cal.init A) x y (by rw [htx, hty]; trivial) sx sy
      rw [e] at h
      injection h with h
      obtain ⟨f1, f2, f3, f4, f5⟩ := hb.mp h
      rw [dtHash_eq hE H hx hz, dtHash_eq hE H hy hw, htx, hty]
      simp only
      congr 2
      cases x; cases y
      simp only at f1 f2 f3 f4 f5 htx hty
      simp [f1, f2, f3, f4, f5]
    | some w =>
      rw [(C52_mixed A hE hO x y n m hx hy w (hw w hty) (Or.inr ⟨htx, hty⟩)).1] at h
      cases h
  | some z =>
    cases hty : y.tz with
    | none =>
      rw [(C52_mixed A hE hO x y n m hx hy z (hz z htx) (Or.inl ⟨htx, hty⟩)).1] at h
      cases h
    | some w =>
      rw [hashS hx sx htx (hz z htx), hashS hy sy hty (hw w hty)]
      by_cases ho : z.off = w.off
      · obtain ⟨b, e, hb⟩ := C25_short_partial (Cal.init A) x y (by rw [htx, hty]; exact ⟨ho, hz z htx⟩) sx sy
        rw [e] at h
        injection h with h
        have hf := hb.mp h
        have := hday hf
        obtain ⟨f1, f2, f3, f4, f5⟩ := hf
        have hl : localMicro x n = localMicro y m := by
          unfold localMicro; rw [f2, f3, f4, f5, this]
        rw [hl, ho]
      · rw [(C52_instants A hE hO x y n m z w hx hy htx hty (hz z htx) (hw w hty) ho).1] at h
        injection h with h
        rw [of_decide_eq_true h]

example : IsDT (Cal.init newYearSun) (witnessDT (some ⟨1, 12600000000⟩) 1) 739675 ∧
    (Cal.init newYearSun).dtEq (witnessDT (some ⟨1, 12600000000⟩) 1) (witnessDT (some ⟨2, 12600000000⟩) 0) = .ok true :=
  ⟨witnessDT_is _ (Or.inr rfl), by decide⟩

/-- C15 is false for long form datetimes without zones: those that differ only in Kull-i-Shay or Váḥid are
equal, and every injective hash of the bytes tells them apart. -/
theorem C15_datetime_long_negation (A : Astro) (hE : TehranEvening A) (H : PyHash)
    (hinj : Function.Injective H.bytes) (x y : DT) (n m k v k' v' w mo d : ℤ) (hx : IsDT (Cal.init A) x n)
    (hy : IsDT (Cal.init A) y m) (hn : 78 ≤ n) (hm : 78 ≤ m)
    (tx : x.tz = none) (ty : y.tz = none) (dx : x.d = .long k v w mo d) (dy : y.d = .long k' v' w mo d)
    (hc : x.h = y.h ∧ x.mi = y.mi ∧ x.s = y.s ∧ x.us = y.us) (hne : (k, v) ≠ (k', v')) :
    (Cal.init A).dtEq x y = .ok true ∧
    ∃ a b, (Cal.init A).dtHash H x = .ok a ∧ (Cal.init A).dtHash H y = .ok b ∧ a ≠ b := by
  refine ⟨(C25_long_negation (Cal.init A) x y (by rw [tx, ty]; trivial) k v k' v' w mo d dx dy hc hne).1, ?_⟩
  have h0 : ∀ {x : DT} {n : ℤ}, IsDT (Cal.init A) x n →
      IsDT (Cal.init A) { x with fold := 0, tz := none } n := by
    intro x n hx
    obtain ⟨hd, ⟨a0, a1, a2, a3, a4, a5, a6, a7, -⟩⟩ := hx
    exact ⟨hd, ⟨a0, a1, a2, a3, a4, a5, a6, a7, Or.inl rfl⟩⟩
  rw [dtHash_eq hE H hx (fun z hz => by rw [tx] at hz; cases hz),
    dtHash_eq hE H hy (fun z hz => by rw [ty] at hz; cases hz), tx, ty]
  simp only
  rw [dtState_ok hE (h0 hx) hn 3 rfl, dtState_ok hE (h0 hy) hm 3 rfl, dx, dy]
  refine ⟨_, _, rfl, rfl, fun he => hne ?_⟩
  have := hinj he
  simp only [List.cons.injEq] at this
  obtain ⟨a, b, -⟩ := this
  rw [b, show k = k' by omega]

/-- Year 182 and year 163. -/
example : ∃ n m, IsDay (Cal.init newYearSun) (.long 1 10 11 19 1) n ∧ IsDay (Cal.init newYearSun) (.long 1 9 11 19 1) m ∧
    78 ≤ n ∧ 78 ≤ m := by
  refine ⟨739676, ysInt 163 + dBefore (leapOf 163) 19 + 1 - 1, witness_days.2, ⟨163, ⟨by omega, by omega, by omega,
    by omega, by omega⟩, (dayNumber_iff newYearSun_tehran).mpr ⟨by omega, by omega, Or.inl ⟨by omega, by omega, by omega,
    by omega⟩, rfl⟩⟩, by omega, by decide +kernel⟩

/-- C15 is false for long form datetimes with zones: an hour before midnight UTC at the end of a Váḥid is equal
to an hour after midnight two hours further east, in the next Váḥid, but the hash counts the days by the year of the
Váḥid. -/
theorem C15_datetime_long_zone_negation (A : Astro) (hE : TehranEvening A) (hO : NewYearOrder (Cal.init A))
    (H : PyHash) (hinj : Function.Injective H.delta) (i j : ℕ) :
    (Cal.init A).dtEq ⟨.long 1 10 19 19 19, 23, 0, 0, 0, some ⟨i, 0⟩, 0⟩
      ⟨.long 1 11 1 1 1, 1, 0, 0, 0, some ⟨j, 7200000000⟩, 0⟩ = .ok true ∧
    ∃ a b, (Cal.init A).dtHash H ⟨.long 1 10 19 19 19, 23, 0, 0, 0, some ⟨i, 0⟩, 0⟩ = .ok a ∧
      (Cal.init A).dtHash H ⟨.long 1 11 1 1 1, 1, 0, 0, 0, some ⟨j, 7200000000⟩, 0⟩ = .ok b ∧ a ≠ b := by
  have key : ysInt 190 = 742251 ∧ leapOf 190 = false ∧ ysInt 191 = 742616 ∧ ysInt 19 + dBefore (leapOf 19) 19 + 19 - 1 = 680159 ∧
      ysInt 1 + dBefore (leapOf 1) 1 + 1 - 1 = 673220 := by decide +kernel
  have d1 : IsDay (Cal.init A) (.long 1 10 19 19 19) 742615 := by
    refine ⟨190, ⟨by omega, by omega, by omega, by omega, by omega⟩, (dayNumber_iff hE).mpr ⟨by omega, by omega,
      Or.inl ⟨by omega, by omega, by omega, by omega⟩, ?_⟩⟩
    rw [key.1, key.2.1]; decide
  have d2 : IsDay (Cal.init A) (.long 1 11 1 1 1) 742616 := by
    refine ⟨191, ⟨by omega, by omega, by omega, by omega, by omega⟩, (dayNumber_iff hE).mpr ⟨by omega, by omega,
      Or.inl ⟨by omega, by omega, by omega, by omega⟩, ?_⟩⟩
    rw [key.2.2.1]; simp [dBefore]
  have x1 : IsDT (Cal.init A) ⟨.long 1 10 19 19 19, 23, 0, 0, 0, some ⟨i, 0⟩, 0⟩ 742615 :=
    ⟨d1, ⟨by simp [DT.timetz], by simp [DT.timetz], by simp [DT.timetz], by simp [DT.timetz], by simp [DT.timetz],
      by simp [DT.timetz], by simp [DT.timetz], by simp [DT.timetz], Or.inl rfl⟩⟩
  have x2 : IsDT (Cal.init A) ⟨.long 1 11 1 1 1, 1, 0, 0, 0, some ⟨j, 7200000000⟩, 0⟩ 742616 :=
    ⟨d2, ⟨by simp [DT.timetz], by simp [DT.timetz], by simp [DT.timetz], by simp [DT.timetz], by simp [DT.timetz],
      by simp [DT.timetz], by simp [DT.timetz], by simp [DT.timetz], Or.inl rfl⟩⟩
  have o1 : ValidOff (Tz.mk i 0).off := ⟨by norm_num, by norm_num⟩
  have o2 : ValidOff (Tz.mk j 7200000000).off := ⟨by norm_num, by norm_num⟩
  constructor
  · rw [(C52_instants A hE hO _ _ _ _ _ _ x1 x2 rfl rfl o1 o2 (by simp)).1]
    unfold localMicro
    simp
  · rw [dtHash_eq hE H x1 (fun z hz => by injection hz with hz; rw [← hz]; exact o1),
      dtHash_eq hE H x2 (fun z hz => by injection hz with hz; rw [← hz]; exact o2)]
    simp only [DateObj.ymd]
    have n1 : DayNumber (Cal.init A) 19 19 19 (ysInt 19 + dBefore (leapOf 19) 19 + 19 - 1) :=
      (dayNumber_iff hE).mpr ⟨by omega, by omega, Or.inl ⟨by omega, by omega, by omega, by omega⟩, rfl⟩
    have n2 : DayNumber (Cal.init A) 1 1 1 (ysInt 1 + dBefore (leapOf 1) 1 + 1 - 1) :=
      (dayNumber_iff hE).mpr ⟨by omega, by omega, Or.inl ⟨by omega, by omega, by omega, by omega⟩, rfl⟩
    rw [ord_ok hE hO n1, ord_ok hE hO n2, pyOk_bind, pyOk_bind, key.2.2.2.1, key.2.2.2.2]
    refine ⟨_, _, rfl, rfl, fun he => ?_⟩
    have := hinj he
    unfold usPerDay DT.tod at this
    simp at this

example : TehranEvening newYearSun ∧ NewYearOrder (Cal.init newYearSun) := ⟨newYearSun_tehran, newYearSun_order⟩

end Verif
