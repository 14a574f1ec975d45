import Verif.Model.AnyZone
import Verif.Props.DateTimeObj
import Verif.Spec.Witness

/-!
# Property C107: datetimes with any `tzinfo`
-/

namespace Verif

/-- The offset of the zone at `x` is `a`, and legal. -/
def HasOffset (p : AnyZone) (x : DT) (a : ℤ) : Prop := p.off x = .ok (some a) ∧ ValidOff a

/-- The object with the other `fold`. -/
def DT.otherFold (x : DT) : DT := { x with fold := if x.fold = 0 then 1 else 0 }

theorem anyOffset_has {p : AnyZone} {x : DT} {a : ℤ} (h : HasOffset p x a) : anyOffset (some p) x = .ok (some a) := by
  unfold anyOffset
  simp only [h.1, pyOk_bind]
  have : checkOffset a = .ok () := by unfold checkOffset usPerDay; exact if_pos ⟨h.2.1, h.2.2⟩
  rw [this, pyOk_bind]

theorem sameZone_ne {p q : AnyZone} (h : p.id ≠ q.id) : sameZone (some p) (some q) = false := by
  simp [sameZone, h]

theorem flipFold_ok {A : Astro} (hE : TehranEvening A) {x : DT} {n : ℤ} (hx : IsDT (Cal.init A) x n) :
    (Cal.init A).flipFold x = .ok x.otherFold := by
  unfold Cal.flipFold
  refine (C23_datetime_clock A hE x x.otherFold n hx { fold := some (if x.fold = 0 then 1 else 0) } rfl
    ⟨rfl, rfl, rfl, rfl, rfl, rfl⟩).1 ?_
  obtain ⟨-, ⟨a0, a1, a2, a3, a4, a5, a6, a7, -⟩⟩ := hx
  refine ⟨a0, a1, a2, a3, a4, a5, a6, a7, ?_⟩
  show (if x.fold = 0 then (1 : ℤ) else 0) = 0 ∨ (if x.fold = 0 then (1 : ℤ) else 0) = 1
  split_ifs <;> simp

theorem anySub_eq {A : Astro} (hE : TehranEvening A) (hO : NewYearOrder (Cal.init A)) {x y : DT} {n m : ℤ}
    (hx : IsDT (Cal.init A) x n) (hy : IsDT (Cal.init A) y m) (p q : Option AnyZone) :
    (Cal.init A).anySub x p y q = anySubOff x p y q (localMicro x n - localMicro y m) := by
  unfold Cal.anySub
  rw [toOrdinal_ok hE hO hx.day, pyOk_bind, toOrdinal_ok hE hO hy.day, pyOk_bind]
  have : (n - m) * usPerDay + (x.s + x.mi * 60 + x.h * 3600 - (y.s + y.mi * 60 + y.h * 3600)) * 1000000
      + (x.us - y.us) = localMicro x n - localMicro y m := by
    unfold usPerDay localMicro; ring
  simp only [this]

/-! ## C107 -/

/-- C107, two zone objects: the difference is the time between the two instants, each with the offset its zone has at
that object, and if the two offsets differ the order is that of the instants. Missing from the full property:
comparisons with equal offsets compare the fields (C12, C13, C25), equality is below, and within one zone it is false
(below). -/
theorem C107_instants_partial (A : Astro) (hE : TehranEvening A) (hO : NewYearOrder (Cal.init A)) (x y : DT)
    (n m : ℤ) (hx : IsDT (Cal.init A) x n) (hy : IsDT (Cal.init A) y m) (p q : AnyZone) (hpq : p.id ≠ q.id) (a b : ℤ)
    (ha : HasOffset p x a) (hb : HasOffset q y b) :
    (Cal.init A).anySub x (some p) y (some q) = .ok ((localMicro x n - a) - (localMicro y m - b)) ∧
    (a ≠ b →
      (Cal.init A).anyLt x (some p) y (some q) = .ok (decide (localMicro x n - a < localMicro y m - b)) ∧
      (Cal.init A).anyLe x (some p) y (some q) = .ok (decide (localMicro x n - a ≤ localMicro y m - b)) ∧
      (Cal.init A).anyGt x (some p) y (some q) = .ok (decide (localMicro x n - a > localMicro y m - b)) ∧
      (Cal.init A).anyGe x (some p) y (some q) = .ok (decide (localMicro x n - a ≥ localMicro y m - b))) := by
  have hs : (Cal.init A).anySub x (some p) y (some q) = .ok ((localMicro x n - a) - (localMicro y m - b)) := by
    rw [anySub_eq hE hO hx hy]
    unfold anySubOff
    rw [sameZone_ne hpq]
    simp only [Bool.false_eq_true, if_false, anyOffset_has ha, anyOffset_has hb, pyOk_bind]
    split_ifs with h
    · injection h with h
      rw [h]
      congr 1
      ring
    · congr 1
      ring
  refine ⟨hs, fun hne => ?_⟩
  have hc : (Cal.init A).anyCmp x (some p) y (some q) false =
      .ok (if (localMicro x n - a) - (localMicro y m - b) < 0 then -1
        else if (localMicro x n - a) - (localMicro y m - b) = 0 then 0 else 1) := by
    unfold Cal.anyCmp
    rw [sameZone_ne hpq]
    simp only [Bool.false_eq_true, if_false, anyOffset_has ha, anyOffset_has hb, pyOk_bind]
    unfold Cal.anyCmpOff
    rw [if_neg (fun e => hne (by injection e))]
    simp only [hs, pyOk_bind]
    have : ((localMicro x n - a) - (localMicro y m - b)) / usPerDay < 0 ↔
        (localMicro x n - a) - (localMicro y m - b) < 0 := by
      unfold usPerDay; omega
    simp only [this]
  unfold Cal.anyLt Cal.anyLe Cal.anyGt Cal.anyGe
  simp only [hc]
  by_cases c1 : (localMicro x n - a) - (localMicro y m - b) < 0
  · simp only [if_pos c1, Except.map]
    refine ⟨?_, ?_, ?_, ?_⟩ <;> congr 1 <;> simp <;> omega
  · by_cases c2 : (localMicro x n - a) - (localMicro y m - b) = 0
    · simp only [if_neg c1, if_pos c2, Except.map]
      refine ⟨?_, ?_, ?_, ?_⟩ <;> congr 1 <;> simp <;> omega
    · simp only [if_neg c1, if_neg c2, Except.map]
      refine ⟨?_, ?_, ?_, ?_⟩ <;> congr 1 <;> simp <;> omega

/-- A zone four hours west of UTC in summer and five in winter, asked at the change: `fold` decides. -/
def autumnZone : AnyZone := ⟨5, fun x => .ok (some (if x.fold = 0 then -14400000000 else -18000000000))⟩
/-- UTC. -/
def plainUtc : AnyZone := ⟨7, fun _ => .ok (some 0)⟩

theorem autumn_offset (x : DT) : HasOffset autumnZone x (if x.fold = 0 then -14400000000 else -18000000000) := by
  refine ⟨rfl, ?_⟩
  split_ifs <;> exact ⟨by norm_num, by norm_num⟩

theorem utc_offset (x : DT) : HasOffset plainUtc x 0 := ⟨rfl, by norm_num, by norm_num⟩

example : IsDT (Cal.init newYearSun) (witnessDT none 0) 739675 ∧ autumnZone.id ≠ plainUtc.id ∧
    HasOffset autumnZone (witnessDT none 0) (-14400000000) ∧ HasOffset plainUtc (witnessDT none 0) 0 :=
  ⟨witnessDT_is none (Or.inl rfl), by decide, autumn_offset _, utc_offset _⟩

theorem anyEq_flip {A : Astro} (hE : TehranEvening A) {x y : DT} {n m : ℤ} (hx : IsDT (Cal.init A) x n)
    (hy : IsDT (Cal.init A) y m) {p q : AnyZone} (hpq : p.id ≠ q.id) {a b a' b' : ℤ} (ha : HasOffset p x a)
    (hb : HasOffset q y b) (ha' : HasOffset p x.otherFold a') (hb' : HasOffset q y.otherFold b') :
    (Cal.init A).anyEq x (some p) y (some q) = if a ≠ a' ∨ b ≠ b' then .ok false
      else ((Cal.init A).anyCmpOff x (some p) y (some q) true (some a) (some b)).map (· == 0) := by
  unfold Cal.anyEq Cal.anyCmp
  rw [sameZone_ne hpq]
  simp only [Bool.false_eq_true, if_false, if_true, anyOffset_has ha, anyOffset_has hb, pyOk_bind]
  unfold Cal.foldMatters
  simp only [flipFold_ok hE hx, flipFold_ok hE hy, anyOffset_has ha', anyOffset_has hb', pyOk_bind]
  by_cases h1 : a = a'
  · subst h1
    by_cases h2 : b = b'
    · subst h2
      simp [pyOk_bind]
    · simp [h2, pyOk_bind, Except.map]
  · simp [h1, pyOk_bind, Except.map]

/-- C107, equality of two zone objects: objects whose offset depends on `fold` are unequal to all others. -/
theorem C107_fold_unequal (A : Astro) (hE : TehranEvening A) (x y : DT) (n m : ℤ) (hx : IsDT (Cal.init A) x n)
    (hy : IsDT (Cal.init A) y m) (p q : AnyZone) (hpq : p.id ≠ q.id) (a b a' b' : ℤ) (ha : HasOffset p x a)
    (hb : HasOffset q y b) (ha' : HasOffset p x.otherFold a') (hb' : HasOffset q y.otherFold b') (h : a ≠ a') :
    (Cal.init A).anyEq x (some p) y (some q) = .ok false ∧ (Cal.init A).anyEq y (some q) x (some p) = .ok false := by
  rw [anyEq_flip hE hx hy hpq ha hb ha' hb', anyEq_flip hE hy hx (Ne.symm hpq) hb ha hb' ha', if_pos (Or.inl h),
    if_pos (Or.inr h)]
  exact ⟨rfl, rfl⟩

example : HasOffset autumnZone (witnessDT none 0).otherFold (-18000000000) ∧ (-14400000000 : ℤ) ≠ -18000000000 :=
  ⟨autumn_offset _, by decide⟩

/-- C107, equality of two zone objects when `fold` does not matter: equal are the objects of the same instant. With
equal offsets, in the short form, these are the objects with the same fields. -/
theorem C107_equal_partial (A : Astro) (hE : TehranEvening A) (hO : NewYearOrder (Cal.init A)) (x y : DT) (n m : ℤ)
    (hx : IsDT (Cal.init A) x n) (hy : IsDT (Cal.init A) y m) (p q : AnyZone) (hpq : p.id ≠ q.id) (a b : ℤ)
    (ha : HasOffset p x a) (hb : HasOffset q y b) (ha' : HasOffset p x.otherFold a)
    (hb' : HasOffset q y.otherFold b) :
    (a ≠ b → (Cal.init A).anyEq x (some p) y (some q)
      = .ok (decide (localMicro x n - a = localMicro y m - b))) ∧
    (a = b → x.d.isShort = true → y.d.isShort = true →
      ∃ e, (Cal.init A).anyEq x (some p) y (some q) = .ok e ∧ (e = true ↔ SameFields x y)) := by
  rw [anyEq_flip hE hx hy hpq ha hb ha' hb', if_neg (by simp)]
  unfold Cal.anyCmpOff
  constructor
  · intro hne
    rw [if_neg (fun e => hne (by injection e))]
    simp only [(C107_instants_partial A hE hO x y n m hx hy p q hpq a b ha hb).1, pyOk_bind]
    have : ((localMicro x n - a) - (localMicro y m - b)) / usPerDay < 0 ↔
        (localMicro x n - a) - (localMicro y m - b) < 0 := by
      unfold usPerDay; omega
    simp only [this, Except.map]
    congr 1
    by_cases c1 : (localMicro x n - a) - (localMicro y m - b) < 0
    · simp only [if_pos c1]; simp; omega
    · by_cases c2 : (localMicro x n - a) - (localMicro y m - b) = 0
      · simp only [if_neg c1, if_pos c2]; simp; omega
      · simp only [if_neg c1, if_neg c2]; simp; omega
  · rintro rfl sx sy
    rw [if_pos rfl]
    obtain ⟨b, e, hb⟩ := C25_short_partial (Cal.init A) { x with tz := none } { y with tz := none } trivial sx sy
    refine ⟨b, ?_, hb⟩
    rw [← e]
    unfold Cal.dtEq
    rw [dtCmp_same (x := { x with tz := none }) (y := { y with tz := none }) trivial]
    rfl

example : HasOffset plainUtc (witnessDT none 0).otherFold 0 := utc_offset _

/-- C107, one zone object: the offsets are not asked for. The difference is that of the local times, and in the short
form equal are the objects with the same fields, whatever their `fold`. -/
theorem C107_one_zone (A : Astro) (hE : TehranEvening A) (hO : NewYearOrder (Cal.init A)) (x y : DT) (n m : ℤ)
    (hx : IsDT (Cal.init A) x n) (hy : IsDT (Cal.init A) y m) (p : Option AnyZone) (sx : x.d.isShort = true)
    (sy : y.d.isShort = true) :
    (Cal.init A).anySub x p y p = .ok (localMicro x n - localMicro y m) ∧
    ∃ e, (Cal.init A).anyEq x p y p = .ok e ∧ (e = true ↔ SameFields x y) := by
  have hs : sameZone p p = true := by cases p <;> simp [sameZone]
  refine ⟨by rw [anySub_eq hE hO hx hy]; unfold anySubOff; rw [hs, if_pos rfl], ?_⟩
  obtain ⟨b, e, hb⟩ := C25_short_partial (Cal.init A) { x with tz := none } { y with tz := none } trivial sx sy
  refine ⟨b, ?_, hb⟩
  rw [← e]
  unfold Cal.dtEq Cal.anyEq Cal.anyCmp
  rw [dtCmp_same (x := { x with tz := none }) (y := { y with tz := none }) trivial, hs, if_pos rfl]
  rfl

example : (witnessDT none 1).d.isShort = true := rfl

/-- What `hash` takes for an object of the short form, from the offset with `fold` 0. -/
theorem anyHash_eq {A : Astro} (hE : TehranEvening A) (hO : NewYearOrder (Cal.init A)) (H : PyHash) {x : DT} {n : ℤ}
    (hx : IsDT (Cal.init A) x n) (sx : x.d.isShort = true) (p : Option AnyZone) :
    (Cal.init A).anyHash H x p = anyOffset p { x with fold := 0 } >>= fun off =>
      match off with
      | none => (dtState { x with fold := 0 } 3).map H.bytes
      | some z => .ok (H.delta (localMicro x n - z)) := by
  have hr : (Cal.init A).replaceDT x { t := { fold := some 0 } } = .ok { x with fold := 0 } := by
    refine (C23_datetime_clock A hE x { x with fold := 0 } n hx { fold := some 0 } rfl
      ⟨rfl, rfl, rfl, rfl, rfl, rfl⟩).1 ?_
    obtain ⟨-, ⟨a0, a1, a2, a3, a4, a5, a6, a7, -⟩⟩ := hx
    exact ⟨a0, a1, a2, a3, a4, a5, a6, a7, Or.inl rfl⟩
  have ht : (Cal.init A).dtNoFold x = .ok { x with fold := 0 } := by
    unfold Cal.dtNoFold
    by_cases hf : x.fold = 0
    · rw [if_neg (by simpa using hf)]
      cases x
      simp only at hf
      rw [hf]
    · rw [if_pos hf, hr]
  unfold Cal.anyHash
  rw [ht, pyOk_bind]
  congr 1
  funext off
  cases off with
  | none => rfl
  | some z =>
    have hd := hx.day
    cases hxd : x.d with
    | long => rw [hxd] at sx; simp [DateObj.isShort] at sx
    | short y m d =>
      rw [hxd] at hd
      simp only [DateObj.ymd]
      rw [ord_ok hE hO hd, pyOk_bind, tod_eq]

/-- C107, hashes: objects of the short form that are equal have equal hashes, with one zone or two. -/
theorem C107_hash (A : Astro) (hE : TehranEvening A) (hO : NewYearOrder (Cal.init A)) (H : PyHash) (x y : DT)
    (n m : ℤ) (hx : IsDT (Cal.init A) x n) (hy : IsDT (Cal.init A) y m) (sx : x.d.isShort = true)
    (sy : y.d.isShort = true) (tx : x.tz = none) (ty : y.tz = none) (p q : AnyZone) (hid : p.id = q.id → p = q)
    (a b a' b' : ℤ) (ha : HasOffset p x a) (hb : HasOffset q y b) (ha' : HasOffset p x.otherFold a')
    (hb' : HasOffset q y.otherFold b') (h : (Cal.init A).anyEq x (some p) y (some q) = .ok true) :
    (Cal.init A).anyHash H x (some p) = (Cal.init A).anyHash H y (some q) := by
  rw [anyHash_eq hE hO H hx sx, anyHash_eq hE hO H hy sy]
  have same : SameFields x y → n = m ∧ ({ x with fold := 0 } : DT) = { y with fold := 0 } := by
    intro hf
    refine ⟨isDay_day hE (hf.1 ▸ hx.day) hy.day, ?_⟩
    obtain ⟨f1, f2, f3, f4, f5⟩ := hf
    cases x; cases y
    simp only at f1 f2 f3 f4 f5 tx ty
    simp [f1, f2, f3, f4, f5, tx, ty]
  have loc : ∀ u : ℤ, n = m → SameFields x y → localMicro x n - u = localMicro y m - u := by
    rintro u rfl ⟨-, f2, f3, f4, f5⟩
    unfold localMicro
    rw [f2, f3, f4, f5]
  by_cases hpq : p.id = q.id
  · obtain rfl := hid hpq
    obtain ⟨-, e, he, hf⟩ := C107_one_zone A hE hO x y n m hx hy (some p) sx sy
    rw [he] at h
    injection h with h
    have hf := hf.mp h
    obtain ⟨e1, e2⟩ := same hf
    rw [e2]
    congr 1
    funext off
    cases off with
    | none => rfl
    | some z => simp only [loc z e1 hf]
  · have key := anyEq_flip hE hx hy hpq ha hb ha' hb'
    rw [h] at key
    split_ifs at key with hc
    · cases key
    · obtain ⟨h1, h2⟩ := not_or.mp hc
      obtain rfl := not_not.mp h1
      obtain rfl := not_not.mp h2
      have zero : ∀ {x : DT} {n a : ℤ} {p : AnyZone}, IsDT (Cal.init A) x n → HasOffset p x a →
          HasOffset p x.otherFold a → HasOffset p { x with fold := 0 } a := by
        intro x n a p hx ha ha'
        by_cases hf : x.fold = 0
        · have : ({ x with fold := 0 } : DT) = x := by cases x; simp only at hf; rw [hf]
          rw [this]; exact ha
        · have : ({ x with fold := 0 } : DT) = x.otherFold := by unfold DT.otherFold; rw [if_neg hf]
          rw [this]; exact ha'
      rw [anyOffset_has (zero hx ha ha'), anyOffset_has (zero hy hb hb')]
      obtain ⟨g1, g2⟩ := C107_equal_partial A hE hO x y n m hx hy p q hpq a b ha hb ha' hb'
      simp only [pyOk_bind]
      by_cases hab : a = b
      · obtain ⟨e, he, hf⟩ := g2 hab sx sy
        rw [he] at h
        injection h with h
        have hf := hf.mp h
        rw [← hab, loc a (same hf).1 hf]
      · rw [g1 hab] at h
        injection h with h
        rw [of_decide_eq_true h]

/-- Noon in UTC and the same moment in the other zone outside of the change. -/
example : ∃ x y : DT, x.tz = none ∧ y.tz = none ∧ x.d.isShort = true ∧ y.d.isShort = true ∧
    (Cal.init newYearSun).anyEq x (some ⟨3, fun _ => .ok (some 3600000000)⟩) y (some plainUtc) = .ok true :=
  ⟨⟨.short 182 5 7, 13, 0, 0, 0, none, 1⟩, ⟨.short 182 5 7, 12, 0, 0, 0, none, 0⟩, rfl, rfl, rfl, rfl, by decide +kernel⟩

/-- C107 is false within one zone: on every date the first and the second half past one of the night on which summer time
ends are equal and their difference is zero, though an hour lies between them: the first is before six o'clock UTC by
half an hour and the second is after it by half an hour. -/
theorem C107_one_zone_negation (A : Astro) (hE : TehranEvening A) (hO : NewYearOrder (Cal.init A)) (y m d n : ℤ)
    (hd : DayNumber (Cal.init A) y m d n) :
    let x0 : DT := ⟨.short y m d, 1, 30, 0, 0, none, 0⟩
    let x1 : DT := ⟨.short y m d, 1, 30, 0, 0, none, 1⟩
    let u : DT := ⟨.short y m d, 6, 0, 0, 0, none, 0⟩
    (Cal.init A).anyEq x0 (some autumnZone) x1 (some autumnZone) = .ok true ∧
    (Cal.init A).anySub x1 (some autumnZone) x0 (some autumnZone) = .ok 0 ∧
    (Cal.init A).anyLt x0 (some autumnZone) u (some plainUtc) = .ok true ∧
    (Cal.init A).anyLt u (some plainUtc) x1 (some autumnZone) = .ok true ∧
    (Cal.init A).anySub u (some plainUtc) x0 (some autumnZone) = .ok 1800000000 ∧
    (Cal.init A).anySub x1 (some autumnZone) u (some plainUtc) = .ok 1800000000 := by
  intro x0 x1 u
  have h0 : IsDT (Cal.init A) x0 n := ⟨hd, by constructor <;> simp [x0, DT.timetz]⟩
  have h1 : IsDT (Cal.init A) x1 n := ⟨hd, by constructor <;> simp [x1, DT.timetz]⟩
  have hu : IsDT (Cal.init A) u n := ⟨hd, by constructor <;> simp [u, DT.timetz]⟩
  obtain ⟨-, e, he, hf⟩ := C107_one_zone A hE hO x0 x1 n n h0 h1 (some autumnZone) rfl rfl
  obtain ⟨hs, -⟩ := C107_one_zone A hE hO x1 x0 n n h1 h0 (some autumnZone) rfl rfl
  obtain ⟨-, a1⟩ := C107_instants_partial A hE hO x0 u n n h0 hu autumnZone plainUtc (by decide) _ _ (autumn_offset x0)
    (utc_offset u)
  obtain ⟨b0, b1⟩ := C107_instants_partial A hE hO u x1 n n hu h1 plainUtc autumnZone (by decide) _ _ (utc_offset u)
    (autumn_offset x1)
  obtain ⟨c0, -⟩ := C107_instants_partial A hE hO u x0 n n hu h0 plainUtc autumnZone (by decide) _ _ (utc_offset u)
    (autumn_offset x0)
  obtain ⟨d0, -⟩ := C107_instants_partial A hE hO x1 u n n h1 hu autumnZone plainUtc (by decide) _ _ (autumn_offset x1)
    (utc_offset u)
  refine ⟨?_, ?_, ?_, ?_, ?_, ?_⟩
  · rw [he, hf.mpr ⟨rfl, rfl, rfl, rfl, rfl⟩]
  · rw [hs]; congr 1; simp [localMicro, x0, x1]
  · rw [(a1 (by simp [x0])).1]; congr 1; simp [localMicro, x0, u]; omega
  · rw [(b1 (by simp [x1])).1]; congr 1; simp [localMicro, x1, u]; omega
  · rw [c0]; congr 1; simp [localMicro, x0, u]; omega
  · rw [d0]; congr 1; simp [localMicro, x1, u]; omega

example : ∃ n, DayNumber (Cal.init sixPm) 182 12 9 n :=
  ⟨_, (dayNumber_iff sixPm_tehran).mpr ⟨by omega, by omega, Or.inl ⟨by omega, by omega, by omega, by omega⟩, rfl⟩⟩

/-- C107 is false of zones that do not answer for this `datetime`, the `timezone` of the standard library among them:
even `==` raises their exception. -/
theorem C107_refusing_negation (C : Cal) (x y : DT) (p : AnyZone) (q : Option AnyZone) (e : PyErr)
    (hp : p.off x = .error e) (hq : ∀ q', q = some q' → p.id ≠ q'.id) :
    C.anyEq x (some p) y q = .error e ∧ C.anyLt x (some p) y q = .error e := by
  have hs : sameZone (some p) q = false := by
    cases q with
    | none => rfl
    | some q' => exact sameZone_ne (hq q' rfl)
  unfold Cal.anyEq Cal.anyLt Cal.anyCmp
  rw [hs]
  have : anyOffset (some p) x = .error e := by
    unfold anyOffset
    simp only [hp, pyErr_bind]
  simp only [this, pyErr_bind, Bool.false_eq_true, if_false]
  exact ⟨rfl, rfl⟩

example : (AnyZone.mk 9 fun _ => .error .type).off (witnessDT none 0) = .error .type := rfl

/-- C107 is false of `astimezone` to a zone that inherits `fromutc`: when the date in UTC can be reached, it always raises
TypeError. -/
theorem C107_astimezone_negation (A : Astro) (hE : TehranEvening A) (hO : NewYearOrder (Cal.init A)) (x : DT) (n o : ℤ)
    (hx : IsDT (Cal.init A) x n) (p w : AnyZone) (hpw : p.id ≠ w.id)
    (hr : Reachable (Cal.init A) ((localMicro x n - o) / 86400000000)) :
    (Cal.init A).anyAstimezone x p w o = .error .type := by
  obtain ⟨u, k, e, hu, -⟩ := C26_add_partial A hE hO x n (-o) hx (by rwa [← sub_eq_add_neg])
  unfold Cal.anyAstimezone Cal.dtSubDelta
  rw [if_neg hpw, e, pyOk_bind]
  have := (C23_datetime_clock A hE u u k hu {} rfl ⟨rfl, rfl, rfl, rfl, rfl, rfl⟩).1 hu.time
  rw [show ({} : DTArgs) = { t := {} } from rfl, this, pyOk_bind]

example : Reachable (Cal.init newYearSun) ((localMicro (witnessDT none 0) 739675 - 0) / 86400000000) := by
  have : (localMicro (witnessDT none 0) 739675 - 0) / 86400000000 = 739675 := by decide
  rw [this]
  exact reachable_modern newYearSun_tehran (by omega) (by omega)

/-- The zones of the library are a special case: the comparisons of this model are those of the model with fixed
offsets. -/
theorem C107_fixed (A : Astro) (hE : TehranEvening A) (hO : NewYearOrder (Cal.init A)) (x y : DT) (n m : ℤ) (z w : Tz)
    (hx : IsDT (Cal.init A) x n) (hy : IsDT (Cal.init A) y m) (hz : x.tz = some z) (hw : y.tz = some w)
    (oz : ValidOff z.off) (ow : ValidOff w.off) (hid : z.id = w.id → z = w) :
    (Cal.init A).anyEq x (some (.ofTz z)) y (some (.ofTz w)) = (Cal.init A).dtEq x y ∧
    (Cal.init A).anyLt x (some (.ofTz z)) y (some (.ofTz w)) = (Cal.init A).dtLt x y := by
  have hz' : ∀ x, HasOffset (.ofTz z) x z.off := fun x => ⟨rfl, oz⟩
  have hw' : ∀ x, HasOffset (.ofTz w) x w.off := fun x => ⟨rfl, ow⟩
  by_cases h : z.id = w.id
  · obtain rfl := hid h
    have hs : sameZone (some (.ofTz z)) (some (.ofTz z)) = true := by simp [sameZone]
    unfold Cal.anyEq Cal.anyLt Cal.dtEq Cal.dtLt Cal.anyCmp Cal.dtCmp
    simp only [hs, if_true, hz, hw]
    exact ⟨trivial, trivial⟩
  · have hpq : (AnyZone.ofTz z).id ≠ (AnyZone.ofTz w).id := h
    by_cases ho : z.off = w.off
    · have hso : SameOffset x.tz y.tz := by rw [hz, hw]; exact ⟨ho, oz⟩
      constructor
      · rw [anyEq_flip hE hx hy hpq (hz' _) (hw' _) (hz' _) (hw' _), if_neg (by simp)]
        unfold Cal.dtEq Cal.anyCmpOff
        rw [dtCmp_same hso, if_pos (by rw [ho])]
      · unfold Cal.anyLt Cal.dtLt Cal.anyCmp
        rw [dtCmp_same hso, sameZone_ne hpq]
        simp only [Bool.false_eq_true, if_false, anyOffset_has (hz' _), anyOffset_has (hw' _), pyOk_bind]
        unfold Cal.anyCmpOff
        rw [if_pos (by rw [ho])]
    · obtain ⟨e1, e2, -⟩ := C52_instants A hE hO x y n m z w hx hy hz hw oz ow ho
      rw [e1, e2, (C107_equal_partial A hE hO x y n m hx hy _ _ hpq _ _ (hz' _) (hw' _) (hz' _) (hw' _)).1 ho,
        ((C107_instants_partial A hE hO x y n m hx hy _ _ hpq _ _ (hz' _) (hw' _)).2 ho).1]
      exact ⟨rfl, rfl⟩

example : ValidOff 12600000000 ∧ IsDT (Cal.init newYearSun) (witnessDT (some ⟨1, 12600000000⟩) 1) 739675 :=
  ⟨⟨by norm_num, by norm_num⟩, witnessDT_is _ (Or.inr rfl)⟩

end Verif
