import Verif.Model.FracTime
import Verif.Props.Time

/-!
# Property C108: times given by fractions
-/

namespace Verif

/-- The values that the documentation of the constructor allows. -/
structure FracTime.Valid (t : FracTime) : Prop where
  h : 0 ≤ t.h.val ∧ t.h.val < 25
  mi : 0 ≤ t.mi.val ∧ t.mi.val < 60
  s : 0 ≤ t.s.val ∧ t.s.val < 61
  us : 0 ≤ t.us.val ∧ t.us.val < 1000000
  fold : t.fold = 0 ∨ t.fold = 1

/-- The time of day in seconds. -/
def FracTime.seconds (t : FracTime) : ℚ := 3600 * t.h.val + 60 * t.mi.val + t.s.val + t.us.val / 1000000

/-- All fields are of the type `int`. -/
def FracTime.AllInt (t : FracTime) : Prop :=
  ∃ h mi s us : ℤ, t.h = .int h ∧ t.mi = .int mi ∧ t.s = .int s ∧ t.us = .int us

/-- The hour and the minute are whole numbers, of whatever type, and the second is less than 60. -/
structure FracTime.Whole (t : FracTime) : Prop where
  h : ∃ n : ℤ, t.h.val = n
  mi : ∃ n : ℤ, t.mi.val = n
  s : t.s.val < 60

/-! ## Lemmas -/

theorem numCmp_range (l r : List ℚ) : numCmp l r = -1 ∨ numCmp l r = 0 ∨ numCmp l r = 1 := by
  induction l generalizing r with
  | nil => cases r <;> simp [numCmp]
  | cons a l ih =>
    cases r with
    | nil => simp [numCmp]
    | cons b r =>
      unfold numCmp
      split_ifs
      · exact ih r
      · simp
      · simp

theorem numCmp_zero {l r : List ℚ} : numCmp l r = 0 ↔ l = r := by
  induction l generalizing r with
  | nil => cases r <;> simp [numCmp]
  | cons a l ih =>
    cases r with
    | nil => simp [numCmp]
    | cons b r =>
      unfold numCmp
      split_ifs with h1 h2
      · simp [ih, h1]
      · simp [h1]
      · simp [h1]

theorem numCmp_swap (l r : List ℚ) : numCmp r l = -numCmp l r := by
  induction l generalizing r with
  | nil => cases r <;> simp [numCmp]
  | cons a l ih =>
    cases r with
    | nil => simp [numCmp]
    | cons b r =>
      unfold numCmp
      rcases lt_trichotomy a b with h | h | h
      · rw [if_neg h.ne', if_pos h, if_neg h.ne, if_neg h.not_gt]; rfl
      · rw [if_pos h.symm, if_pos h, ih]
      · rw [if_neg h.ne, if_neg h.not_gt, if_neg h.ne', if_pos h]

theorem numCmp_lt {a b : ℚ} {l r : List ℚ} : numCmp (a :: l) (b :: r) < 0 ↔ a < b ∨ a = b ∧ numCmp l r < 0 := by
  have e : numCmp (a :: l) (b :: r) = if a = b then numCmp l r else if b < a then 1 else -1 := rfl
  rw [e]
  rcases lt_trichotomy a b with h | h | h
  · rw [if_neg h.ne, if_neg h.not_gt]; simp [h]
  · rw [if_pos h]; simp [h]
  · rw [if_neg h.ne', if_pos h]
    constructor
    · intro h; omega
    · rintro (h' | ⟨h', -⟩)
      · exact absurd h' h.not_gt
      · exact absurd h' h.ne'

theorem numCmp_trans {l r s : List ℚ} (h1 : numCmp l r < 0) (h2 : numCmp r s < 0) : numCmp l s < 0 := by
  induction l generalizing r s with
  | nil => cases r <;> cases s <;> simp_all [numCmp]
  | cons a l ih =>
    cases r with
    | nil => simp [numCmp] at h1
    | cons b r =>
      cases s with
      | nil => simp [numCmp] at h2
      | cons c s =>
        rw [numCmp_lt] at h1 h2 ⊢
        rcases h1 with h1 | ⟨rfl, h1⟩ <;> rcases h2 with h2 | ⟨rfl, h2⟩
        · exact Or.inl (h1.trans h2)
        · exact Or.inl h1
        · exact Or.inl h2
        · exact Or.inr ⟨rfl, ih h1 h2⟩

theorem numCmp_ints (l r : List ℤ) : numCmp (l.map (fun n : ℤ => (n : ℚ))) (r.map (fun n : ℤ => (n : ℚ))) = tupleCmp l r := by
  induction l generalizing r with
  | nil => cases r <;> simp [numCmp, tupleCmp]
  | cons a l ih =>
    cases r with
    | nil => simp [numCmp, tupleCmp]
    | cons b r =>
      simp only [List.map_cons, numCmp, tupleCmp, Int.cast_inj, Int.cast_lt, ih]

/-! ## C108 -/

/-- C108: the constructor accepts exactly the values in their ranges, integers or not, and keeps them as they are. -/
theorem C108_accepts (t : FracTime) :
    (t.Valid → newFracTime t = .ok t) ∧ (¬ t.Valid → newFracTime t = .error .assertion) := by
  have e : ∀ p : Prop, ∀ [Decidable p], ¬ p → pyAssert p = .error .assertion := fun p _ h => by
    unfold pyAssert; exact if_neg (by simpa using h)
  unfold newFracTime
  constructor
  · rintro ⟨h1, h2, h3, h4, h5⟩
    rw [pyAssert_true (by simpa using h1), pyOk_bind, pyAssert_true (by simpa using h2), pyOk_bind, pyAssert_true (by simpa using h3),
      pyOk_bind, pyAssert_true (by simpa using h4), pyOk_bind, pyAssert_true (by simpa using h5), pyOk_bind]
  · intro h
    by_cases h1 : 0 ≤ t.h.val ∧ t.h.val < 25
    swap
    · rw [e _ h1, pyErr_bind]
    by_cases h2 : 0 ≤ t.mi.val ∧ t.mi.val < 60
    swap
    · rw [pyAssert_true (by simpa using h1), pyOk_bind, e _ h2, pyErr_bind]
    by_cases h3 : 0 ≤ t.s.val ∧ t.s.val < 61
    swap
    · rw [pyAssert_true (by simpa using h1), pyOk_bind, pyAssert_true (by simpa using h2), pyOk_bind, e _ h3, pyErr_bind]
    by_cases h4 : 0 ≤ t.us.val ∧ t.us.val < 1000000
    swap
    · rw [pyAssert_true (by simpa using h1), pyOk_bind, pyAssert_true (by simpa using h2), pyOk_bind,
        pyAssert_true (by simpa using h3), pyOk_bind, e _ h4, pyErr_bind]
    rw [pyAssert_true (by simpa using h1), pyOk_bind, pyAssert_true (by simpa using h2), pyOk_bind,
      pyAssert_true (by simpa using h3), pyOk_bind, pyAssert_true (by simpa using h4), pyOk_bind,
      e _ (fun h5 => h ⟨h1, h2, h3, h4, h5⟩), pyErr_bind]

example : FracTime.Valid ⟨.float (3 / 2), .int 0, .float (1 / 4), .int 0, 1⟩ ∧
    ¬ FracTime.Valid ⟨.float 25, .int 0, .int 0, .int 0, 0⟩ :=
  ⟨⟨by norm_num [Num.val], by norm_num [Num.val], by norm_num [Num.val], by norm_num [Num.val], Or.inr rfl⟩,
    fun h => absurd h.h.2 (by norm_num [Num.val])⟩

theorem fracHash_eq (H : PyHash) {t : FracTime} (v : t.Valid) :
    fracHash H t = (fracState { t with fold := 0 } 3).map H.bytes := by
  obtain ⟨h, mi, s, us, f⟩ := t
  obtain ⟨v1, v2, v3, v4, v5⟩ := v
  have v : FracTime.Valid ⟨h, mi, s, us, 0⟩ := ⟨v1, v2, v3, v4, Or.inl rfl⟩
  simp only at v5
  rcases v5 with rfl | rfl
  · rfl
  · have : fracHash H ⟨h, mi, s, us, 1⟩ =
        (newFracTime ⟨h, mi, s, us, 0⟩ >>= fun t0 => (fracState t0 3).map H.bytes) := rfl
    rw [this, (C108_accepts _).1 v, pyOk_bind]

/-- C108: of any two times, with or without fractions, one is earlier or they are equal; the order is transitive and `==`
means the same numbers. -/
theorem C108_total (a b c : FracTime) :
    (fracLt a b = true ∨ fracEq a b = true ∨ fracLt b a = true) ∧
    (fracLt a b = true → fracLt b a = false ∧ fracEq a b = false) ∧
    (fracLe a b = (fracLt a b || fracEq a b)) ∧
    (fracLt a b = true → fracLt b c = true → fracLt a c = true) ∧
    (fracEq a b = true ↔ a.h.val = b.h.val ∧ a.mi.val = b.mi.val ∧ a.s.val = b.s.val ∧ a.us.val = b.us.val) := by
  have sw : fracCmp b a = -fracCmp a b := numCmp_swap _ _
  have rg : fracCmp a b = -1 ∨ fracCmp a b = 0 ∨ fracCmp a b = 1 := numCmp_range _ _
  refine ⟨?_, ?_, ?_, ?_, ?_⟩
  · unfold fracLt fracEq
    rw [sw]
    simp only [decide_eq_true_eq, beq_iff_eq]
    omega
  · unfold fracLt fracEq
    rw [sw]
    simp only [decide_eq_true_eq, decide_eq_false_iff_not, beq_eq_false_iff_ne, ne_eq]
    omega
  · unfold fracLe fracLt fracEq
    rcases rg with h | h | h <;> rw [h] <;> rfl
  · unfold fracLt
    simp only [decide_eq_true_eq]
    exact numCmp_trans
  · unfold fracEq fracCmp
    rw [beq_iff_eq, numCmp_zero]
    simp

/-- C108: on objects with integer fields all of this is what `Model/Time.lean` says, and the properties C15, C17, C24 and
C51 hold for them. -/
theorem C108_integers (H : PyHash) (a b : TimeObj) (ha : a.tz = none) (hb : b.tz = none) (va : ValidTime a) (protocol : ℕ) :
    timeEq a b = .ok (fracEq a.frac b.frac) ∧ timeLt a b = .ok (fracLt a.frac b.frac) ∧
    timeLe a b = .ok (fracLe a.frac b.frac) ∧ fracHash H a.frac = timeHash H a ∧
    fracPickle a.frac protocol = timePickle a protocol := by
  have k : fracCmp a.frac b.frac = tupleCmp [a.h, a.mi, a.s, a.us] [b.h, b.mi, b.s, b.us] :=
    numCmp_ints [a.h, a.mi, a.s, a.us] [b.h, b.mi, b.s, b.us]
  have e : ∀ m, timeCmp a b m = .ok (fracCmp a.frac b.frac) := by
    intro m
    unfold timeCmp
    rw [if_pos (by rw [ha, hb]), k]
  refine ⟨?_, ?_, ?_, ?_, ?_⟩
  · unfold timeEq fracEq; rw [e]; rfl
  · unfold timeLt fracLt; rw [e]; rfl
  · unfold timeLe fracLe; rw [e]; rfl
  · obtain ⟨h, mi, s, us, tz, fold⟩ := a
    simp only at ha
    subst ha
    obtain ⟨h0, h1, m0, m1, s0, s1, u0, u1, f⟩ := va
    simp only at h0 h1 m0 m1 s0 s1 u0 u1 f
    have v : FracTime.Valid ⟨.int h, .int mi, .int s, .int us, fold⟩ := by
      refine ⟨?_, ?_, ?_, ?_, f⟩ <;> simp only [Num.val] <;> constructor <;> norm_cast <;> omega
    have v' : ValidTime ⟨h, mi, s, us, none, 0⟩ := ⟨h0, h1, m0, m1, s0, s1, u0, u1, Or.inl rfl⟩
    refine (fracHash_eq H v).trans ?_
    rcases f with rfl | rfl
    · rfl
    · have : timeHash H ⟨h, mi, s, us, none, 1⟩ =
          (newTime ⟨h, mi, s, us, none, 0⟩ >>= fun t0 => utcOffset t0.tz >>= fun off => match off with
            | none => timeHashBytes H t0
            | some z => if z = 0 then timeHashBytes H t0 else timeHashOff H ⟨h, mi, s, us, none, 1⟩ z) := rfl
      rw [this, (C51_time_accepts _).1 v', pyOk_bind]
      rfl
  · unfold fracPickle timePickle
    rw [ha]
    rfl

example : ValidTime ⟨10, 30, 60, 5, none, 1⟩ := by constructor <;> norm_num

/-- C108, hashing and pickling: both work exactly if all four fields are of the type `int`; a `float` in any of them is a
TypeError, also `10.0`. Two objects that are equal and can be hashed have the same hash. -/
theorem C108_hash (H : PyHash) (a b : FracTime) (va : a.Valid) (protocol : ℕ) :
    (a.AllInt → (∃ x, fracHash H a = .ok x) ∧ ∃ x, fracState a protocol = .ok x) ∧
    (¬ a.AllInt → fracHash H a = .error .type ∧ fracPickle a protocol = .error .type) ∧
    (b.Valid → ∀ x y, fracEq a b = true → fracHash H a = .ok x → fracHash H b = .ok y → x = y) := by
  have st : ∀ t : FracTime, ¬ t.AllInt → ∀ p, fracState t p = .error .type := by
    rintro ⟨h, mi, s, us, f⟩ ht p
    unfold fracState
    rcases h with h | h
    swap
    · rfl
    rcases mi with mi | mi
    swap
    · rfl
    rcases s with s | s
    swap
    · rfl
    rcases us with us | us
    swap
    · rfl
    exact absurd ⟨h, mi, s, us, rfl, rfl, rfl, rfl⟩ ht
  have hh := fun t : FracTime => fracHash_eq H (t := t)
  have ok : ∀ t : FracTime, t.Valid → t.AllInt → ∀ p, ∃ x, fracState t p = .ok x := by
    rintro ⟨h, mi, s, us, f⟩ ⟨v1, v2, v3, v4, v5⟩ ⟨h', mi', s', us', rfl, rfl, rfl, rfl⟩ p
    simp only [Num.val] at v1 v2 v3 v4
    norm_cast at v1 v2 v3 v4
    refine ⟨_, if_pos ?_⟩
    have : 0 ≤ us' / 256 / 256 ∧ us' / 256 / 256 < 256 := by omega
    simp only [List.forall_mem_cons, List.not_mem_nil, false_imp_iff, implies_true, and_true]
    refine ⟨?_, by omega, by omega, by omega, by omega, by omega⟩
    split_ifs <;> omega
  refine ⟨fun hi => ⟨?_, ok a va hi protocol⟩, fun hi => ⟨?_, ?_⟩, ?_⟩
  · obtain ⟨x, hx⟩ := ok { a with fold := 0 } ⟨va.h, va.mi, va.s, va.us, Or.inl rfl⟩ hi 3
    exact ⟨_, by rw [hh a va, hx]; rfl⟩
  · rw [hh a va, st { a with fold := 0 } hi]
    rfl
  · unfold fracPickle
    rw [st a hi, pyErr_bind]
  · intro vb x y he hx hy
    have ia : a.AllInt := by
      by_contra hn
      rw [hh a va, st { a with fold := 0 } hn] at hx
      cases hx
    have ib : b.AllInt := by
      by_contra hn
      rw [hh b vb, st { b with fold := 0 } hn] at hy
      cases hy
    obtain ⟨e1, e2, e3, e4⟩ := (C108_total a b b).2.2.2.2.mp he
    have key : fracHash H a = fracHash H b := by
      rw [hh a va, hh b vb]
      obtain ⟨h, mi, s, us, f⟩ := a
      obtain ⟨h', mi', s', us', f'⟩ := b
      obtain ⟨i1, i2, i3, i4, rfl, rfl, rfl, rfl⟩ := ia
      obtain ⟨j1, j2, j3, j4, rfl, rfl, rfl, rfl⟩ := ib
      simp only [Num.val, Int.cast_inj] at e1 e2 e3 e4
      rw [e1, e2, e3, e4]
    rw [key, hy] at hx
    injection hx with hx
    exact hx.symm

example : FracTime.Valid ⟨.int 10, .int 30, .int 0, .int 0, 1⟩ ∧ FracTime.AllInt ⟨.int 10, .int 30, .int 0, .int 0, 1⟩ ∧
    FracTime.Valid ⟨.float 10, .int 30, .int 0, .int 0, 0⟩ ∧ ¬ FracTime.AllInt ⟨.float 10, .int 30, .int 0, .int 0, 0⟩ := by
  refine ⟨⟨?_, ?_, ?_, ?_, Or.inr rfl⟩, ⟨_, _, _, _, rfl, rfl, rfl, rfl⟩, ⟨?_, ?_, ?_, ?_, Or.inl rfl⟩, ?_⟩
  case refine_9 => rintro ⟨h, mi, s, us, e, -⟩; cases e
  all_goals norm_num [Num.val]

/-- C108, hashing: an object equal to one with integer fields, made of the same hour as a `float`, cannot be hashed or
pickled. -/
theorem C108_hash_negation (H : PyHash) : ∃ a b : FracTime, newFracTime a = .ok a ∧ newFracTime b = .ok b ∧
    fracEq a b = true ∧ (∃ x, fracHash H a = .ok x) ∧ fracHash H b = .error .type ∧ ∀ p, fracPickle b p = .error .type :=
  ⟨⟨.int 10, .int 0, .int 0, .int 0, 0⟩, ⟨.float 10, .int 0, .int 0, .int 0, 0⟩,
    (C108_accepts _).1 ⟨by norm_num [Num.val], by norm_num [Num.val], by norm_num [Num.val], by norm_num [Num.val], Or.inl rfl⟩,
    (C108_accepts _).1 ⟨by norm_num [Num.val], by norm_num [Num.val], by norm_num [Num.val], by norm_num [Num.val], Or.inl rfl⟩,
    by decide +kernel, ⟨_, rfl⟩, rfl, fun _ => rfl⟩

theorem lex_seconds {i i' m m' : ℤ} {r r' : ℚ} (m0 : 0 ≤ m) (m1 : m < 60) (m0' : 0 ≤ m') (m1' : m' < 60) (r0 : 0 ≤ r)
    (r1 : r < 60) (r0' : 0 ≤ r') (r1' : r' < 60) :
    (i < i' ∨ i = i' ∧ (m < m' ∨ m = m' ∧ r < r')) ↔ 3600 * (i : ℚ) + 60 * m + r < 3600 * i' + 60 * m' + r' := by
  rcases lt_trichotomy (60 * i + m) (60 * i' + m') with h | h | h
  · have q : ((60 * i + m + 1 : ℤ) : ℚ) ≤ ((60 * i' + m' : ℤ) : ℚ) := by exact_mod_cast h
    push_cast at q
    constructor
    · intro _; linarith
    · intro _; omega
  · have e1 : i = i' := by omega
    have e2 : m = m' := by omega
    subst e1 e2
    simp
  · have q : ((60 * i' + m' + 1 : ℤ) : ℚ) ≤ ((60 * i + m : ℤ) : ℚ) := by exact_mod_cast h
    push_cast at q
    constructor
    · intro _; omega
    · intro _; linarith

/-- C108, the order of times is that of the seconds since the start of the day, and `==` means the same second, if the
hours and minutes are whole and the seconds less than 60, and either no microseconds are given or the seconds are
whole. Missing from the full property: other fractions, for which it is false (below). -/
theorem C108_order_partial (a b : FracTime) (va : a.Valid) (vb : b.Valid) (wa : a.Whole) (wb : b.Whole)
    (hs : (a.us.val = 0 ∧ b.us.val = 0) ∨ ((∃ n : ℤ, a.s.val = n) ∧ ∃ n : ℤ, b.s.val = n)) :
    fracLt a b = decide (a.seconds < b.seconds) ∧ fracEq a b = decide (a.seconds = b.seconds) ∧
      fracLe a b = decide (a.seconds ≤ b.seconds) := by
  have lt : ∀ a b : FracTime, a.Valid → b.Valid → a.Whole → b.Whole →
      ((a.us.val = 0 ∧ b.us.val = 0) ∨ ((∃ n : ℤ, a.s.val = n) ∧ ∃ n : ℤ, b.s.val = n)) →
      (fracLt a b = true ↔ a.seconds < b.seconds) := by
    intro a b va vb wa wb hs
    obtain ⟨i, hi⟩ := wa.h
    obtain ⟨m, hm⟩ := wa.mi
    obtain ⟨i', hi'⟩ := wb.h
    obtain ⟨m', hm'⟩ := wb.mi
    have m0 := va.mi
    have m0' := vb.mi
    rw [hm] at m0
    rw [hm'] at m0'
    norm_cast at m0 m0'
    obtain ⟨s0, -⟩ := va.s
    obtain ⟨s0', -⟩ := vb.s
    obtain ⟨u0, u1⟩ := va.us
    obtain ⟨u0', u1'⟩ := vb.us
    have sub : a.s.val + a.us.val / 1000000 < 60 ∧ b.s.val + b.us.val / 1000000 < 60 ∧
        ((a.s.val < b.s.val ∨ a.s.val = b.s.val ∧ a.us.val < b.us.val) ↔
          a.s.val + a.us.val / 1000000 < b.s.val + b.us.val / 1000000) := by
      have t := wa.s
      have t' := wb.s
      rcases hs with ⟨e, e'⟩ | ⟨⟨n, e⟩, n', e'⟩
      · rw [e, e']
        refine ⟨by linarith, by linarith, ?_⟩
        simp
      · rw [e] at t ⊢
        rw [e'] at t' ⊢
        have t1 : n ≤ 59 := by have : n < 60 := by exact_mod_cast t
                               omega
        have t1' : n' ≤ 59 := by have : n' < 60 := by exact_mod_cast t'
                                 omega
        have t2 : (n : ℚ) ≤ 59 := by exact_mod_cast t1
        have t2' : (n' : ℚ) ≤ 59 := by exact_mod_cast t1'
        refine ⟨by linarith, by linarith, ?_⟩
        rcases lt_trichotomy n n' with h | h | h
        · have q : ((n + 1 : ℤ) : ℚ) ≤ (n' : ℚ) := by exact_mod_cast h
          push_cast at q
          constructor
          · intro _; linarith
          · intro _; left; linarith
        · subst h
          simp only [lt_irrefl, true_and, false_or]
          constructor <;> intro _ <;> linarith
        · have q : ((n' + 1 : ℤ) : ℚ) ≤ (n : ℚ) := by exact_mod_cast h
          push_cast at q
          constructor
          · rintro (h | ⟨h, -⟩) <;> linarith
          · intro _; exfalso; linarith
    obtain ⟨r1, r1', sub⟩ := sub
    have L := lex_seconds (i := i) (i' := i') m0.1 m0.2 m0'.1 m0'.2 (r := a.s.val + a.us.val / 1000000)
      (r' := b.s.val + b.us.val / 1000000) (by positivity) r1 (by positivity) r1'
    unfold fracLt fracCmp FracTime.seconds
    rw [decide_eq_true_eq, numCmp_lt, numCmp_lt, numCmp_lt, numCmp_lt, hi, hi', hm, hm', Int.cast_lt, Int.cast_inj, Int.cast_lt,
      Int.cast_inj]
    simp only [numCmp, lt_irrefl, and_false, or_false]
    rw [sub, L, add_assoc _ a.s.val, add_assoc _ b.s.val]
  have l1 := lt a b va vb wa wb hs
  have l2 := lt b a vb va wb wa (by rcases hs with h | h; exact Or.inl ⟨h.2, h.1⟩; exact Or.inr ⟨h.2, h.1⟩)
  obtain ⟨p1, p2, p3, -, -⟩ := C108_total a b b
  obtain ⟨-, p4, -, -, -⟩ := C108_total b a a
  have q1 : fracLt a b = decide (a.seconds < b.seconds) := by
    rw [Bool.eq_iff_iff, decide_eq_true_eq]; exact l1
  have q2 : fracEq a b = decide (a.seconds = b.seconds) := by
    have sy : fracEq b a = fracEq a b := by
      unfold fracEq
      rw [show fracCmp b a = -fracCmp a b from numCmp_swap _ _, Bool.eq_iff_iff, beq_iff_eq, beq_iff_eq]
      omega
    rw [Bool.eq_iff_iff, decide_eq_true_eq]
    constructor
    · intro h
      rcases lt_trichotomy a.seconds b.seconds with g | g | g
      · have := (p2 (l1.mpr g)).2
        rw [h] at this
        cases this
      · exact g
      · have := (p4 (l2.mpr g)).2
        rw [sy, h] at this
        cases this
    · intro h
      rcases p1 with g | g | g
      · exact absurd (l1.mp g) (by rw [h]; exact lt_irrefl _)
      · exact g
      · exact absurd (l2.mp g) (by rw [h]; exact lt_irrefl _)
  refine ⟨q1, q2, ?_⟩
  rw [p3, q1, q2, Bool.eq_iff_iff]
  simp only [Bool.or_eq_true, decide_eq_true_eq]
  exact le_iff_lt_or_eq.symm

example : FracTime.Whole ⟨.float 10, .int 30, .float (3 / 2), .int 0, 0⟩ ∧
    FracTime.Valid ⟨.float 10, .int 30, .float (3 / 2), .int 0, 0⟩ := by
  refine ⟨⟨⟨10, ?_⟩, ⟨30, ?_⟩, ?_⟩, ⟨?_, ?_, ?_, ?_, Or.inl rfl⟩⟩ <;> norm_num [Num.val]

/-- C108, the order: half past one, given as the hour 1.5, is later than 1:40, and unequal to 1:30; and 1.5 seconds are
later than 1 second and 600000 microseconds. -/
theorem C108_order_negation : ∃ a b c d e : FracTime,
    (newFracTime a = .ok a ∧ newFracTime b = .ok b ∧ newFracTime c = .ok c ∧ newFracTime d = .ok d ∧ newFracTime e = .ok e) ∧
    (a.seconds < b.seconds ∧ fracLt b a = true) ∧ (a.seconds = c.seconds ∧ fracEq a c = false) ∧
    (d.seconds < e.seconds ∧ fracLt e d = true) := by
  refine ⟨⟨.float (3 / 2), .int 0, .int 0, .int 0, 0⟩, ⟨.int 1, .int 40, .int 0, .int 0, 0⟩, ⟨.int 1, .int 30, .int 0, .int 0, 0⟩,
    ⟨.int 1, .int 0, .float (3 / 2), .int 0, 0⟩, ⟨.int 1, .int 0, .int 1, .int 600000, 0⟩, ⟨?_, ?_, ?_, ?_, ?_⟩, ⟨?_, by decide +kernel⟩,
    ⟨?_, by decide +kernel⟩, ⟨?_, by decide +kernel⟩⟩
  iterate 5
    exact (C108_accepts _).1 ⟨by norm_num [Num.val], by norm_num [Num.val], by norm_num [Num.val], by norm_num [Num.val], Or.inl rfl⟩
  all_goals norm_num [FracTime.seconds, Num.val]

end Verif
