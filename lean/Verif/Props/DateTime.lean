import Verif.Lemmas.DateTime

/-!
# Properties C25, C26, C27 and C52 for `datetime` objects
-/

namespace Verif

/-- Half past eleven in the evening of the last day of Ayyám-i-Há of year 182. -/
def witnessDT (tz : Option Tz) (fold : ℤ) : DT := ⟨.short 182 0 5, 23, 30, 0, 250000, tz, fold⟩

theorem witnessDT_is (tz : Option Tz) {fold : ℤ} (h : fold = 0 ∨ fold = 1) :
    IsDT (Cal.init newYearSun) (witnessDT tz fold) 739675 := by
  refine ⟨witness_days.1, ?_⟩
  unfold DT.timetz witnessDT
  exact ⟨by norm_num, by norm_num, by norm_num, by norm_num, by norm_num, by norm_num, by norm_num, by norm_num, h⟩

/-- The same clock on the next day, in the long form. -/
def witnessLong (tz : Option Tz) : DT := ⟨.long 1 10 11 19 1, 23, 30, 0, 250000, tz, 0⟩

theorem witnessLong_is (tz : Option Tz) : IsDT (Cal.init newYearSun) (witnessLong tz) 739676 := by
  refine ⟨witness_days.2, ?_⟩
  unfold DT.timetz witnessLong
  exact ⟨by norm_num, by norm_num, by norm_num, by norm_num, by norm_num, by norm_num, by norm_num, by norm_num,
    Or.inl rfl⟩

/-! ## C26: arithmetic -/

/-- C26. Adding a timedelta moves along the time line by exactly that much, keeps zone and form, and gives a
clock below 24:00:00. Missing from the full property: sums on lost days or after the first day of year 1161, see
`C26_gap_negation`. -/
theorem C26_add_partial (A : Astro) (hE : TehranEvening A) (hO : NewYearOrder (Cal.init A)) (x : DT) (n t : ℤ)
    (hx : IsDT (Cal.init A) x n) (hr : Reachable (Cal.init A) ((localMicro x n + t) / 86400000000)) :
    ∃ y m, (Cal.init A).dtAdd x t = .ok y ∧ IsDT (Cal.init A) y m ∧ localMicro y m = localMicro x n + t ∧
      OrdinaryClock y ∧ y.tz = x.tz ∧ y.d.isShort = x.d.isShort := by
  obtain ⟨y, e, h⟩ := dtAdd_ok hE hO hx hr
  exact ⟨y, _, e, h.dt, h.micro, h.clock, h.tz, h.form⟩

/-- One and a half days later. -/
example : IsDT (Cal.init newYearSun) (witnessDT none 1) 739675 ∧
    Reachable (Cal.init newYearSun) ((localMicro (witnessDT none 1) 739675 + 129600000000) / 86400000000) :=
  ⟨witnessDT_is _ (Or.inr rfl), by
    have : (localMicro (witnessDT none 1) 739675 + 129600000000) / 86400000000 = 739677 := by decide
    rw [this]
    exact reachable_modern newYearSun_tehran (by omega) (by omega)⟩

/-- C26. `(x + t) - x == t`, and the zone is preserved, whenever `x + t` exists. -/
theorem C26_add_sub (A : Astro) (hE : TehranEvening A) (hO : NewYearOrder (Cal.init A)) (x y : DT) (n t : ℤ)
    (hx : IsDT (Cal.init A) x n) (h : (Cal.init A).dtAdd x t = .ok y) :
    (Cal.init A).dtSub y x = .ok t ∧ y.tz = x.tz := by
  obtain ⟨hs, -⟩ := dtAdd_inv hE hO hx h
  refine ⟨?_, hs.tz⟩
  rw [dtSubBase hE hO hs.dt hx, hs.micro]
  unfold dtSubOff
  rw [if_pos hs.tz]
  congr 1
  ring

theorem witness_add (tz : Option Tz) {t : ℤ} (h0 : 0 ≤ t) (h1 : t ≤ 129600000000) :
    ∃ y, (Cal.init newYearSun).dtAdd (witnessDT tz 0) t = .ok y := by
  obtain ⟨y, m, e, -⟩ := C26_add_partial newYearSun newYearSun_tehran newYearSun_order (witnessDT tz 0) 739675 t
    (witnessDT_is tz (Or.inl rfl)) (by
      apply reachable_modern newYearSun_tehran
      · unfold localMicro witnessDT; simp only; omega
      · unfold localMicro witnessDT; simp only; omega)
  exact ⟨y, e⟩

example : ∃ y, (Cal.init newYearSun).dtAdd (witnessDT none 0) 1800000000 = .ok y := witness_add _ (by omega) (by omega)

/-- C26. `(x + t) + u == x + (t + u)`, whenever the left side exists. -/
theorem C26_assoc (A : Astro) (hE : TehranEvening A) (hO : NewYearOrder (Cal.init A)) (x y z : DT) (n t u : ℤ)
    (hx : IsDT (Cal.init A) x n) (h1 : (Cal.init A).dtAdd x t = .ok y) (h2 : (Cal.init A).dtAdd y u = .ok z) :
    (Cal.init A).dtAdd x (t + u) = .ok z := by
  obtain ⟨s1, -⟩ := dtAdd_inv hE hO hx h1
  obtain ⟨s2, r2⟩ := dtAdd_inv hE hO s1.dt h2
  rw [s1.micro, show localMicro x n + t + u = localMicro x n + (t + u) by ring] at s2 r2
  obtain ⟨w, e, s3⟩ := dtAdd_ok hE hO hx r2
  obtain ⟨-, f1, f2, f3, f4, f5⟩ := localMicro_unique hE s3.dt s2.dt s3.clock s2.clock
    (by rw [s3.form, s2.form, s1.form]) (by rw [s3.micro, s2.micro])
  have t1 : w.tz = z.tz := by rw [s3.tz, s2.tz, s1.tz]
  have t2 : w.fold = z.fold := by rw [s3.fold, s2.fold]
  rw [e]
  cases w
  cases z
  simp only at f1 f2 f3 f4 f5 t1 t2
  rw [f1, f2, f3, f4, f5, t1, t2]

example : ∃ y z, (Cal.init newYearSun).dtAdd (witnessDT none 0) 1800000000 = .ok y ∧
    (Cal.init newYearSun).dtAdd y (-1) = .ok z := by
  obtain ⟨y, e⟩ := witness_add none (t := 1800000000) (by omega) (by omega)
  obtain ⟨s, -⟩ := dtAdd_inv newYearSun_tehran newYearSun_order (witnessDT_is none (Or.inl rfl)) e
  obtain ⟨z, f, -⟩ := dtAdd_ok newYearSun_tehran newYearSun_order s.dt (t := -1) (by
    rw [s.micro]
    apply reachable_modern newYearSun_tehran
    · unfold localMicro witnessDT; simp only; omega
    · unfold localMicro witnessDT; simp only; omega)
  exact ⟨y, z, e, f⟩

/-- C26. `x + (y - x) == y` in the same zone and form. Missing from the full property: hour 24 and second 60
(`C26_hour_24_negation`) and `y` on a lost day or late in year 1161 (`C26_gap_negation`). -/
theorem C26_sub_add_partial (A : Astro) (hE : TehranEvening A) (hO : NewYearOrder (Cal.init A)) (x y : DT) (n m : ℤ)
    (hx : IsDT (Cal.init A) x n) (hy : IsDT (Cal.init A) y m) (hz : x.tz = y.tz) (hf : x.d.isShort = y.d.isShort)
    (hc : OrdinaryClock y) (hr : Reachable (Cal.init A) m) :
    ∃ t z, (Cal.init A).dtSub y x = .ok t ∧ (Cal.init A).dtAdd x t = .ok z ∧ SameFields z y ∧ z.tz = y.tz ∧
      (Cal.init A).dtEq z y = .ok true := by
  have hs : (Cal.init A).dtSub y x = .ok (localMicro y m - localMicro x n) := by
    rw [dtSubBase hE hO hy hx]
    unfold dtSubOff
    rw [if_pos hz.symm]
  have hL : localMicro x n + (localMicro y m - localMicro x n) = localMicro y m := by ring
  have hm : localMicro y m / 86400000000 = m := by
    obtain ⟨-, ⟨b0, b1, b2, b3, b4, b5, b6, b7, -⟩⟩ := hy
    obtain ⟨e1, e2⟩ := hc
    unfold DT.timetz at b0 b1 b2 b3 b4 b5 b6 b7
    simp only at b0 b1 b2 b3 b4 b5 b6 b7
    unfold localMicro
    omega
  obtain ⟨z, e, s⟩ := dtAdd_ok hE hO hx (t := localMicro y m - localMicro x n) (by rw [hL, hm]; exact hr)
  rw [hL] at s
  obtain ⟨-, h1, h2, h3, h4, h5⟩ := localMicro_unique hE s.dt hy s.clock hc (by rw [s.form, hf]) s.micro
  have ht : z.tz = y.tz := by rw [s.tz, hz]
  refine ⟨_, z, hs, e, ⟨h1, h2, h3, h4, h5⟩, ht, ?_⟩
  unfold Cal.dtEq Cal.dtCmp
  rw [if_pos ht]
  unfold DT.cmpFields
  rw [h1, h2, h3, h4, h5, tupleCmp_self]
  rfl

example : IsDT (Cal.init newYearSun) (witnessDT none 0) 739675 ∧ OrdinaryClock (witnessDT none 0) ∧
    Reachable (Cal.init newYearSun) 739675 :=
  ⟨witnessDT_is _ (Or.inl rfl), ⟨by decide, by decide⟩, reachable_modern newYearSun_tehran (by omega) (by omega)⟩

/-- C26. For datetimes with zones `x + (y - x)` is the same instant as `y`, in the zone of `x`. -/
theorem C26_sub_add_zones_partial (A : Astro) (hE : TehranEvening A) (hO : NewYearOrder (Cal.init A)) (x y : DT)
    (n m : ℤ) (z w : Tz) (hx : IsDT (Cal.init A) x n) (hy : IsDT (Cal.init A) y m) (hz : x.tz = some z)
    (hw : y.tz = some w) (oz : ValidOff z.off) (ow : ValidOff w.off)
    (hr : Reachable (Cal.init A) ((localMicro y m - w.off + z.off) / 86400000000)) :
    ∃ t v, (Cal.init A).dtSub y x = .ok t ∧ (Cal.init A).dtAdd x t = .ok v ∧ v.tz = x.tz ∧
      (Cal.init A).dtSub v y = .ok 0 := by
  have hs : (Cal.init A).dtSub y x = .ok (localMicro y m - localMicro x n + z.off - w.off) := by
    rw [dtSubBase hE hO hy hx]
    exact dtSubOff_tz hw hz ow oz
  have hL : localMicro x n + (localMicro y m - localMicro x n + z.off - w.off) = localMicro y m - w.off + z.off := by ring
  obtain ⟨v, e, s⟩ := dtAdd_ok hE hO hx (t := localMicro y m - localMicro x n + z.off - w.off) (by rw [hL]; exact hr)
  rw [hL] at s
  refine ⟨_, v, hs, e, s.tz, ?_⟩
  rw [dtSubBase hE hO s.dt hy, dtSubOff_tz (s.tz.trans hz) hw oz ow, s.micro]
  congr 1
  ring

example : IsDT (Cal.init newYearSun) (witnessDT (some ⟨1, 12600000000⟩) 0) 739675 ∧
    IsDT (Cal.init newYearSun) (witnessLong (some ⟨2, -3600000000⟩)) 739676 ∧ ValidOff 12600000000 ∧ ValidOff (-3600000000) ∧
    Reachable (Cal.init newYearSun)
      ((localMicro (witnessLong (some ⟨2, -3600000000⟩)) 739676 - (-3600000000) + 12600000000) / 86400000000) :=
  ⟨witnessDT_is _ (Or.inl rfl), witnessLong_is _, ⟨by norm_num, by norm_num⟩, ⟨by norm_num, by norm_num⟩, by
    apply reachable_modern newYearSun_tehran
    · unfold localMicro witnessLong; simp only; omega
    · unfold localMicro witnessLong; simp only; omega⟩

/-- C26 is false for hour 24 and second 60: `x + (y - x)` is then another reading of the clock, and unequal to
`y`. -/
theorem C26_hour_24_negation (A : Astro) (hE : TehranEvening A) (hO : NewYearOrder (Cal.init A)) (x y z : DT)
    (n t : ℤ) (hx : IsDT (Cal.init A) x n) (hz : x.tz = y.tz) (hc : ¬ OrdinaryClock y)
    (h : (Cal.init A).dtAdd x t = .ok z) : ¬ SameFields z y ∧ (Cal.init A).dtEq z y = .ok false := by
  obtain ⟨s, -⟩ := dtAdd_inv hE hO hx h
  have hne : ¬ (z.h = y.h ∧ z.s = y.s) := by
    rintro ⟨h1, h2⟩
    exact hc ⟨h1 ▸ s.clock.1, h2 ▸ s.clock.2⟩
  refine ⟨fun hh => hne ⟨hh.2.1, hh.2.2.2.1⟩, ?_⟩
  unfold Cal.dtEq Cal.dtCmp
  rw [if_pos (s.tz.trans hz)]
  have : tupleCmp z.cmpFields y.cmpFields ≠ 0 := by
    intro h0
    have := tupleCmp_eq_zero.mp h0
    unfold DT.cmpFields at this
    simp only [List.cons.injEq] at this
    exact hne ⟨this.2.2.2.1, this.2.2.2.2.2.1⟩
  have hb : (tupleCmp z.cmpFields y.cmpFields == 0) = false := by simp [this]
  change Except.ok (tupleCmp z.cmpFields y.cmpFields == 0) = _
  rw [hb]

example : ¬ OrdinaryClock ⟨.short 182 0 5, 24, 0, 0, 0, none, 0⟩ ∧ ValidTime ⟨24, 0, 0, 0, none, 0⟩ :=
  ⟨fun h => absurd h.1 (by decide), by constructor <;> decide⟩

/-- C26. A sum outside the documented ordinals (78 to 1097267) raises OverflowError. -/
theorem C26_overflow (A : Astro) (hE : TehranEvening A) (hO : NewYearOrder (Cal.init A)) (x : DT) (n t a b : ℤ)
    (hx : IsDT (Cal.init A) x n) (ha : (Cal.init A).yearStart (-1842) = some a)
    (hb : (Cal.init A).yearStart 1162 = some b)
    (h : localMicro x n + t < a * 86400000000 ∨ b * 86400000000 ≤ localMicro x n + t) :
    (Cal.init A).dtAdd x t = .error .overflow := by
  rw [init_yearStart hE, if_pos (by omega), ysInt_m1842] at ha
  rw [init_yearStart hE, if_pos (by omega), ysInt_1162] at hb
  obtain rfl := Option.some.inj ha
  obtain rfl := Option.some.inj hb
  rw [dtAdd_eq hE hO hx, if_neg (by omega)]

example : ∃ a b, (Cal.init newYearSun).yearStart (-1842) = some a ∧ (Cal.init newYearSun).yearStart 1162 = some b ∧
    b * 86400000000 ≤ localMicro (witnessDT none 0) 739675 + 31536000000000000 :=
  ⟨78, 1097268, by rw [init_yearStart newYearSun_tehran, if_pos (by omega), ysInt_m1842],
    by rw [init_yearStart newYearSun_tehran, if_pos (by omega), ysInt_1162], by decide⟩

/-- C26 is false on the lost days and after the first day of year 1161: sums within the documented range raise
ValueError or AssertionError. -/
theorem C26_gap_negation (A : Astro) (hE : TehranEvening A) (hO : NewYearOrder (Cal.init A)) (x : DT) (n t : ℤ)
    (hx : IsDT (Cal.init A) x n) :
    (lostDays (Cal.init A) ((localMicro x n + t) / 86400000000) → 78 ≤ (localMicro x n + t) / 86400000000 →
      (localMicro x n + t) / 86400000000 ≤ 1097267 → (Cal.init A).dtAdd x t = .error .value) ∧
    (∀ a b, (Cal.init A).yearStart 1161 = some a → (Cal.init A).yearStart 1162 = some b →
      a < (localMicro x n + t) / 86400000000 → (localMicro x n + t) / 86400000000 < b →
      (Cal.init A).dtAdd x t = .error .assertion) := by
  constructor
  · intro hl h0 h1
    rw [dtAdd_eq hE hO hx, if_pos (by omega), fromOrdinal_lost hE hl, pyErr_bind]
  · intro a b ha hb h0 h1
    rw [init_yearStart hE, if_pos (by omega), ysInt_1161] at ha
    rw [init_yearStart hE, if_pos (by omega), ysInt_1162] at hb
    obtain rfl := Option.some.inj ha
    obtain rfl := Option.some.inj hb
    rw [dtAdd_eq hE hO hx, if_pos (by omega), fromOrdinal_late hE h0 (by omega), pyErr_bind]

example : (1096902 : ℤ) < (localMicro (witnessDT none 0) 739675 + 30870000000000000) / 86400000000 ∧
    (localMicro (witnessDT none 0) 739675 + 30870000000000000) / 86400000000 < 1097268 := by decide

/-! ## C25 and C52: comparison -/

theorem dtCmp_same {C : Cal} {x y : DT} {mixed : Bool} (h : SameOffset x.tz y.tz) :
    C.dtCmp x y mixed = .ok (tupleCmp x.cmpFields y.cmpFields) := by
  unfold Cal.dtCmp
  by_cases hz : x.tz = y.tz
  · rw [if_pos hz]
  · rw [if_neg hz]
    revert h hz
    cases x.tz with
    | none => cases y.tz with
      | none => intro _ h; exact absurd rfl h
      | some w => intro h; exact h.elim
    | some z => cases y.tz with
      | none => intro h; exact h.elim
      | some w =>
        rintro ⟨h1, h2⟩ -
        rw [utcOffset_some h2, pyOk_bind, utcOffset_some (h1 ▸ h2), pyOk_bind]
        unfold Cal.dtCmpOff
        rw [h1, if_pos rfl]

theorem dtEq_same {C : Cal} {x y : DT} (h : SameOffset x.tz y.tz) :
    ∃ b, C.dtEq x y = .ok b ∧ (b = true ↔ x.cmpFields = y.cmpFields) := by
  refine ⟨tupleCmp x.cmpFields y.cmpFields == 0, ?_, ?_⟩
  · unfold Cal.dtEq
    rw [dtCmp_same h]
    rfl
  · rw [← tupleCmp_eq_zero]
    simp

/-- C25 for the short form: without zones, or with equal offsets, datetimes are equal exactly when date and
clock agree. Missing from the full property: the long form, where it is false. -/
theorem C25_short_partial (C : Cal) (x y : DT) (h : SameOffset x.tz y.tz) (hx : x.d.isShort = true)
    (hy : y.d.isShort = true) : ∃ b, C.dtEq x y = .ok b ∧ (b = true ↔ SameFields x y) := by
  obtain ⟨b, e, hb⟩ := dtEq_same (C := C) h
  refine ⟨b, e, hb.trans ?_⟩
  obtain ⟨d, a1, a2, a3, a4, tz, f⟩ := x
  obtain ⟨d', b1, b2, b3, b4, tz', f'⟩ := y
  unfold DT.cmpFields SameFields
  cases d with
  | long => simp [DateObj.isShort] at hx
  | short y m d =>
    cases d' with
    | long => simp [DateObj.isShort] at hy
    | short y' m' d' =>
      simp [DateObj.ymd]
      tauto

example : SameOffset (witnessDT none 0).tz (witnessDT none 1).tz := trivial

/-- C25 for the long form, when Kull-i-Shay and Váḥid agree. -/
theorem C25_long_partial (C : Cal) (x y : DT) (h : SameOffset x.tz y.tz) (k v w m d w' m' d' : ℤ)
    (hx : x.d = .long k v w m d) (hy : y.d = .long k v w' m' d') :
    ∃ b, C.dtEq x y = .ok b ∧ (b = true ↔ SameFields x y) := by
  obtain ⟨b, e, hb⟩ := dtEq_same (C := C) h
  refine ⟨b, e, hb.trans ?_⟩
  unfold DT.cmpFields SameFields
  rw [hx, hy]
  simp [DateObj.ymd]
  tauto

example : (witnessLong none).d = .long 1 10 11 19 1 := rfl

/-- C25 is false for the long form: Kull-i-Shay and Váḥid are not compared. Datetimes in different Váḥids, which
are years apart, are equal. -/
theorem C25_long_negation (C : Cal) (x y : DT) (h : SameOffset x.tz y.tz) (k v k' v' w m d : ℤ)
    (hx : x.d = .long k v w m d) (hy : y.d = .long k' v' w m d)
    (hc : x.h = y.h ∧ x.mi = y.mi ∧ x.s = y.s ∧ x.us = y.us) (hne : (k, v) ≠ (k', v')) :
    C.dtEq x y = .ok true ∧ ¬ SameFields x y := by
  constructor
  · obtain ⟨b, e, hb⟩ := dtEq_same (C := C) h
    rw [e, hb.mpr]
    unfold DT.cmpFields
    rw [hx, hy, hc.1, hc.2.1, hc.2.2.1, hc.2.2.2]
    rfl
  · rintro ⟨hd, -⟩
    rw [hx, hy] at hd
    injection hd with a b
    exact hne (by rw [a, b])

example : ((1 : ℤ), (10 : ℤ)) ≠ ((1 : ℤ), (9 : ℤ)) := by decide

/-- C52. Datetimes with zones of different offsets compare as the instants they denote, and all operators
agree. -/
theorem C52_instants (A : Astro) (hE : TehranEvening A) (hO : NewYearOrder (Cal.init A)) (x y : DT) (n m : ℤ)
    (z w : Tz) (hx : IsDT (Cal.init A) x n) (hy : IsDT (Cal.init A) y m) (hz : x.tz = some z) (hw : y.tz = some w)
    (oz : ValidOff z.off) (ow : ValidOff w.off) (hne : z.off ≠ w.off) :
    (Cal.init A).dtEq x y = .ok (decide (localMicro x n - z.off = localMicro y m - w.off)) ∧
    (Cal.init A).dtLt x y = .ok (decide (localMicro x n - z.off < localMicro y m - w.off)) ∧
    (Cal.init A).dtLe x y = .ok (decide (localMicro x n - z.off ≤ localMicro y m - w.off)) ∧
    (Cal.init A).dtGt x y = .ok (decide (localMicro x n - z.off > localMicro y m - w.off)) ∧
    (Cal.init A).dtGe x y = .ok (decide (localMicro x n - z.off ≥ localMicro y m - w.off)) := by
  have hc : ∀ mixed, (Cal.init A).dtCmp x y mixed =
      .ok (if localMicro x n - localMicro y m + w.off - z.off < 0 then -1
        else if localMicro x n - localMicro y m + w.off - z.off = 0 then 0 else 1) := by
    intro mixed
    unfold Cal.dtCmp
    rw [hz, hw, if_neg (fun e => hne (by injection e with e; rw [e])), utcOffset_some oz, pyOk_bind, utcOffset_some ow,
      pyOk_bind]
    unfold Cal.dtCmpOff
    rw [if_neg (fun e => hne (by injection e))]
    simp only
    rw [dtSubBase hE hO hx hy, dtSubOff_tz hz hw oz ow, pyOk_bind]
    have : (localMicro x n - localMicro y m + w.off - z.off) / usPerDay < 0 ↔
        localMicro x n - localMicro y m + w.off - z.off < 0 := by
      unfold usPerDay; omega
    simp only [this]
  unfold Cal.dtEq Cal.dtLt Cal.dtLe Cal.dtGt Cal.dtGe
  simp only [hc]
  by_cases c1 : localMicro x n - localMicro y m + w.off - z.off < 0
  · simp only [if_pos c1, Except.map]
    refine ⟨?_, ?_, ?_, ?_, ?_⟩ <;> congr 1 <;> simp <;> omega
  · by_cases c2 : localMicro x n - localMicro y m + w.off - z.off = 0
    · simp only [if_neg c1, if_pos c2, Except.map]
      refine ⟨?_, ?_, ?_, ?_, ?_⟩ <;> congr 1 <;> simp <;> omega
    · simp only [if_neg c1, if_neg c2, Except.map]
      refine ⟨?_, ?_, ?_, ?_, ?_⟩ <;> congr 1 <;> simp <;> omega

example : ValidOff 12600000000 ∧ ValidOff (-3600000000) ∧ (12600000000 : ℤ) ≠ -3600000000 :=
  ⟨⟨by norm_num, by norm_num⟩, ⟨by norm_num, by norm_num⟩, by norm_num⟩

/-- C52. A datetime without a zone is unequal to one with a zone, and every ordering of the two raises
TypeError, as does their difference. -/
theorem C52_mixed (A : Astro) (hE : TehranEvening A) (hO : NewYearOrder (Cal.init A)) (x y : DT) (n m : ℤ)
    (hx : IsDT (Cal.init A) x n) (hy : IsDT (Cal.init A) y m) (z : Tz) (hz : ValidOff z.off)
    (h : x.tz = some z ∧ y.tz = none ∨ x.tz = none ∧ y.tz = some z) :
    (Cal.init A).dtEq x y = .ok false ∧ (Cal.init A).dtLt x y = .error .type ∧ (Cal.init A).dtLe x y = .error .type ∧
    (Cal.init A).dtGt x y = .error .type ∧ (Cal.init A).dtGe x y = .error .type ∧
    (Cal.init A).dtSub x y = .error .type := by
  have hc : ∀ mixed : Bool, (Cal.init A).dtCmp x y mixed = if mixed then .ok 2 else .error .type := by
    intro mixed
    rcases h with ⟨h1, h2⟩ | ⟨h1, h2⟩
    all_goals
      unfold Cal.dtCmp
      rw [h1, h2, if_neg (by simp), utcOffset_some hz]
      unfold utcOffset
      simp only [pyOk_bind]
      unfold Cal.dtCmpOff
      rw [if_neg (by simp)]
  have hs : (Cal.init A).dtSub x y = .error .type := by
    rw [dtSubBase hE hO hx hy]
    rcases h with ⟨h1, h2⟩ | ⟨h1, h2⟩
    all_goals
      unfold dtSubOff
      rw [h1, h2, if_neg (by simp), utcOffset_some hz]
      unfold utcOffset
      simp only [pyOk_bind]
  unfold Cal.dtEq Cal.dtLt Cal.dtLe Cal.dtGt Cal.dtGe
  simp only [hc]
  exact ⟨rfl, rfl, rfl, rfl, rfl, hs⟩

example : ValidOff (-3600000000) := ⟨by norm_num, by norm_num⟩

/-! ## C27: conversion between zones -/

theorem replaceDT_tz {A : Astro} (hE : TehranEvening A) {x : DT} {n : ℤ} (h : IsDT (Cal.init A) x n) (z : Tz) :
    (Cal.init A).replaceDT x { t := { tz := some (some z) } } = .ok { x with tz := some z } := by
  have h' : IsDT (Cal.init A) { x with tz := some z } n :=
    ⟨h.day, ⟨h.time.h0, h.time.h1, h.time.mi0, h.time.mi1, h.time.s0, h.time.s1, h.time.us0, h.time.us1, h.time.fold⟩⟩
  have hn := newDT_ok hE h'
  unfold Cal.replaceDT
  obtain ⟨d, a1, a2, a3, a4, tz, f⟩ := x
  cases d with
  | short y m d => exact hn
  | long k v w m d => exact hn

theorem localMicro_tz (x : DT) (n : ℤ) (tz : Option Tz) : localMicro { x with tz := tz } n = localMicro x n := rfl

/-- The steps of `astimezone`. -/
theorem asTimezone_eq {A : Astro} (hE : TehranEvening A) (hO : NewYearOrder (Cal.init A)) {x : DT} {n : ℤ} {z0 z : Tz}
    (hx : IsDT (Cal.init A) x n) (hne : z ≠ z0)
    (hu : Reachable (Cal.init A) ((localMicro x n - z0.off) / 86400000000))
    (hv : Reachable (Cal.init A) ((localMicro x n - z0.off + z.off) / 86400000000)) :
    ∃ y, (Cal.init A).asTimezone x z0 z = .ok y ∧
      Sum A { x with tz := some z } y (localMicro x n - z0.off + z.off) := by
  unfold Cal.asTimezone Cal.dtSubDelta
  rw [if_pos hne]
  obtain ⟨u, e, s⟩ := dtAdd_ok hE hO hx (t := -z0.off) (by rw [← sub_eq_add_neg]; exact hu)
  rw [e, pyOk_bind, replaceDT_tz hE s.dt, pyOk_bind]
  unfold Cal.fromUtc
  simp only [if_true]
  have s' : IsDT (Cal.init A) { u with tz := some z } ((localMicro x n + -z0.off) / 86400000000) :=
    ⟨s.dt.day, ⟨s.dt.time.h0, s.dt.time.h1, s.dt.time.mi0, s.dt.time.mi1, s.dt.time.s0, s.dt.time.s1, s.dt.time.us0,
      s.dt.time.us1, s.dt.time.fold⟩⟩
  have hL : localMicro { u with tz := some z } ((localMicro x n + -z0.off) / 86400000000) =
      localMicro x n - z0.off := by
    rw [localMicro_tz, s.micro, sub_eq_add_neg]
  obtain ⟨y, e', s2⟩ := dtAdd_ok hE hO s' (t := z.off) (by rw [hL]; exact hv)
  rw [hL] at s2
  exact ⟨y, e', ⟨s2.dt, s2.micro, s2.clock, s2.tz, s2.form.trans s.form, s2.fold⟩⟩

/-- C27. `x.astimezone(z)` is the same instant as `x` and carries the zone `z`; converting it back gives the
fields of `x` again. Missing from the full property: days that the library cannot produce
(`C27_gap_negation`), and hour 24 and second 60 for the way back (`C27_hour_24_negation`). -/
theorem C27_astimezone_partial (A : Astro) (hE : TehranEvening A) (hO : NewYearOrder (Cal.init A)) (x : DT) (n : ℤ)
    (z0 z : Tz) (hx : IsDT (Cal.init A) x n) (hz0 : x.tz = some z0) (o0 : ValidOff z0.off) (o1 : ValidOff z.off)
    (hu : Reachable (Cal.init A) ((localMicro x n - z0.off) / 86400000000))
    (hv : Reachable (Cal.init A) ((localMicro x n - z0.off + z.off) / 86400000000)) (hn : Reachable (Cal.init A) n) :
    ∃ y, (Cal.init A).asTimezone x z0 z = .ok y ∧ y.tz = some z ∧ (Cal.init A).dtSub y x = .ok 0 ∧
      (OrdinaryClock x → ∃ x', (Cal.init A).asTimezone y z z0 = .ok x' ∧ SameFields x' x ∧ x'.tz = x.tz) := by
  by_cases hne : z = z0
  · subst hne
    have he : (Cal.init A).asTimezone x z z = .ok x := by
      unfold Cal.asTimezone
      rw [if_neg (by simp)]
    refine ⟨x, he, hz0, ?_, fun _ => ⟨x, he, ⟨rfl, rfl, rfl, rfl, rfl⟩, rfl⟩⟩
    rw [dtSubBase hE hO hx hx, dtSubOff_tz hz0 hz0 o0 o0]
    congr 1
    ring
  · obtain ⟨y, e, s⟩ := asTimezone_eq hE hO hx hne hu hv
    refine ⟨y, e, s.tz, ?_, fun hc => ?_⟩
    · rw [dtSubBase hE hO s.dt hx, dtSubOff_tz s.tz hz0 o1 o0, s.micro]
      congr 1
      ring
    · have hm : localMicro x n / 86400000000 = n := by
        obtain ⟨-, ⟨b0, b1, b2, b3, b4, b5, b6, b7, -⟩⟩ := hx
        obtain ⟨e1, e2⟩ := hc
        unfold DT.timetz at b0 b1 b2 b3 b4 b5 b6 b7
        simp only at b0 b1 b2 b3 b4 b5 b6 b7
        unfold localMicro
        omega
      obtain ⟨x', e', s'⟩ := asTimezone_eq hE hO (z0 := z) (z := z0) s.dt (Ne.symm hne)
        (by rw [s.micro, add_sub_cancel_right]; exact hu)
        (by rw [s.micro, add_sub_cancel_right, sub_add_cancel, hm]; exact hn)
      have hL : localMicro y ((localMicro x n - z0.off + z.off) / 86400000000) - z.off + z0.off = localMicro x n := by
        rw [s.micro]; ring
      rw [hL] at s'
      refine ⟨x', e', ?_, s'.tz.trans hz0.symm⟩
      exact (localMicro_unique hE s'.dt hx s'.clock hc (s'.form.trans s.form) s'.micro).2

example : IsDT (Cal.init newYearSun) (witnessDT (some ⟨1, 12600000000⟩) 0) 739675 ∧ OrdinaryClock (witnessDT none 0) ∧
    (localMicro (witnessDT (some ⟨1, 12600000000⟩) 0) 739675 - 12600000000) / 86400000000 = 739675 ∧
    (localMicro (witnessDT (some ⟨1, 12600000000⟩) 0) 739675 - 12600000000 + 36000000000) / 86400000000 = 739676 ∧
    Reachable (Cal.init newYearSun) 739675 ∧ Reachable (Cal.init newYearSun) 739676 :=
  ⟨witnessDT_is _ (Or.inl rfl), ⟨by decide, by decide⟩, by decide, by decide,
    reachable_modern newYearSun_tehran (by omega) (by omega), reachable_modern newYearSun_tehran (by omega) (by omega)⟩

/-- C27 is false for hour 24 and second 60: after a conversion to another zone and back the fields differ. -/
theorem C27_hour_24_negation (A : Astro) (hE : TehranEvening A) (hO : NewYearOrder (Cal.init A)) (x y x' : DT)
    (m : ℤ) (z0 z : Tz) (hy : IsDT (Cal.init A) y m) (hne : z ≠ z0) (hc : ¬ OrdinaryClock x)
    (h : (Cal.init A).asTimezone y z z0 = .ok x') : ¬ SameFields x' x := by
  intro hs
  apply hc
  unfold Cal.asTimezone Cal.dtSubDelta at h
  rw [if_pos (Ne.symm hne)] at h
  cases e : (Cal.init A).dtAdd y (-z.off) with
  | error e' => rw [e, pyErr_bind] at h; cases h
  | ok u =>
    obtain ⟨s, -⟩ := dtAdd_inv hE hO hy e
    rw [e, pyOk_bind, replaceDT_tz hE s.dt, pyOk_bind] at h
    unfold Cal.fromUtc at h
    simp only [if_true] at h
    have s' : IsDT (Cal.init A) { u with tz := some z0 } ((localMicro y m + -z.off) / 86400000000) :=
      ⟨s.dt.day, ⟨s.dt.time.h0, s.dt.time.h1, s.dt.time.mi0, s.dt.time.mi1, s.dt.time.s0, s.dt.time.s1, s.dt.time.us0,
        s.dt.time.us1, s.dt.time.fold⟩⟩
    obtain ⟨s2, -⟩ := dtAdd_inv hE hO s' h
    exact ⟨hs.2.1 ▸ s2.clock.1, hs.2.2.2.1 ▸ s2.clock.2⟩

example : ¬ OrdinaryClock ⟨.short 182 0 5, 12, 0, 60, 0, none, 0⟩ := fun h => absurd h.2 (by decide)

/-- C27 is false where the UTC day is one the library cannot produce: the conversion raises. -/
theorem C27_gap_negation (A : Astro) (hE : TehranEvening A) (hO : NewYearOrder (Cal.init A)) (x y : DT) (n : ℤ)
    (z0 z : Tz) (hx : IsDT (Cal.init A) x n) (hne : z ≠ z0)
    (hu : ¬ Reachable (Cal.init A) ((localMicro x n - z0.off) / 86400000000)) :
    (Cal.init A).asTimezone x z0 z ≠ .ok y := by
  intro h
  unfold Cal.asTimezone Cal.dtSubDelta at h
  rw [if_pos hne] at h
  cases e : (Cal.init A).dtAdd x (-z0.off) with
  | error e' => rw [e, pyErr_bind] at h; cases h
  | ok u =>
    obtain ⟨-, hr⟩ := dtAdd_inv hE hO hx e
    rw [← sub_eq_add_neg] at hr
    exact hu hr

/-- Half past eleven on the first day of year 1161, one hour behind UTC. -/
example : ∃ n, IsDT (Cal.init newYearSun) ⟨.short 1161 1 1, 23, 30, 0, 0, some ⟨1, -3600000000⟩, 0⟩ n ∧
    ¬ Reachable (Cal.init newYearSun)
      ((localMicro ⟨.short 1161 1 1, 23, 30, 0, 0, some ⟨1, -3600000000⟩, 0⟩ n - (-3600000000)) / 86400000000) := by
  refine ⟨1096902, ⟨(dayNumber_iff newYearSun_tehran).mpr ⟨by omega, by omega, Or.inl ⟨by omega, by omega, by omega,
    by omega⟩, ?_⟩, ?_⟩, fun h => ?_⟩
  · rw [ysInt_1161]; simp [dBefore]
  · unfold DT.timetz
    exact ⟨by norm_num, by norm_num, by norm_num, by norm_num, by norm_num, by norm_num, by norm_num, by norm_num,
      Or.inl rfl⟩
  · obtain ⟨-, h1, -⟩ := convertible_inv newYearSun_tehran h.2
    unfold localMicro at h1
    simp only at h1
    omega

end Verif
