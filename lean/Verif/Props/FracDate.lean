import Verif.Model.FracDate
import Verif.Props.FracTime
import Verif.Props.Ordinal
import Verif.Props.Date

/-!
# Property C109: dates with a part of a day
-/

namespace Verif

/-- The date denotes the part `fr` of day number `n`. -/
def FracDate.At (C : Cal) (f : FracDate) (n : ℤ) (fr : ℚ) : Prop :=
  ∃ D : ℤ, DayNumber C f.y f.m D n ∧ f.d.val = D + fr ∧ 0 ≤ fr ∧ fr < 1

/-! ## Lemmas -/

theorem checkTail_num {C : Cal} {y m : ℤ} {q : ℚ} {leap : Bool} (hl : C.isLeapYear y = .ok leap) :
    (ValidMD leap m ⌊q⌋ → C.checkTail y m q [] = .ok ()) ∧
    (¬ ValidMD leap m ⌊q⌋ → C.checkTail y m q [] = .error .assertion) := by
  have k : ∀ c : ℤ, (1 ≤ q ∧ q < c) ↔ (1 ≤ ⌊q⌋ ∧ ⌊q⌋ < c) := by
    intro c
    rw [Int.le_floor, Int.floor_lt]; norm_num
  by_cases hm : 0 ≤ m ∧ m < 20
  · obtain ⟨c, hc, hv⟩ : ∃ c : ℤ, C.cycleOf y m = .ok c ∧ (ValidMD leap m ⌊q⌋ ↔ (1 ≤ ⌊q⌋ ∧ ⌊q⌋ < c)) := by
      by_cases h0 : m = 0
      · subst h0
        refine ⟨5 + if leap then 1 else 0, ?_, ?_⟩
        · unfold Cal.cycleOf; rw [if_pos rfl, hl, pyOk_bind]
        · unfold ValidMD
          cases leap <;> simp <;> omega
      · refine ⟨20, ?_, ?_⟩
        · unfold Cal.cycleOf; rw [if_neg h0]
        · unfold ValidMD; omega
    unfold Cal.checkTail
    simp only [getHms, List.getD_nil]
    rw [pyAssert_true hm, pyOk_bind, hc, pyOk_bind]
    constructor
    · intro h
      rw [pyAssert_true ((k c).mpr (hv.mp h)), pyOk_bind]
      simp [checkValidBadiTime, pyAssert, bind, Except.bind, checkFractions]
    · intro h
      rw [pyAssert_false (fun e => h (hv.mpr ((k c).mp e))), pyErr_bind]
  · refine ⟨fun h => ?_, fun _ => checkTail_bad hm⟩
    unfold ValidMD at h; omega

/-- The number of the ordinal. -/
theorem fracOrd_eq {A : Astro} (hE : TehranEvening A) (hO : NewYearOrder (Cal.init A)) {f : FracDate} {n : ℤ} {fr : ℚ}
    (h : f.At (Cal.init A) n fr) :
    ∃ o, (Cal.init A).fracOrd f = .ok o ∧
      ((∃ d, f.d = .int d) → fr = 0 ∧ o = .int n) ∧
      ((∃ q, f.d = .float q) → ∃ x, o = .float x ∧ |x - (n + fr)| ≤ 1 / 1000000000) := by
  obtain ⟨D, hd, e, f0, f1⟩ := h
  obtain ⟨h0, h1, hv, hn⟩ := (dayNumber_iff hE).mp hd
  have hl := init_isLeap hE h0 h1
  have ho := ord_ok hE hO hd
  unfold Cal.ymd2ord at ho
  unfold Cal.fracOrd
  have a1 := daysBeforeYear_ok hE hO h0 (by omega)
  have a2 := daysBeforeMonth_ok hl hv
  rw [a1, pyOk_bind, a2, pyOk_bind] at ho ⊢
  generalize ysInt f.y - 78 - fudge f.y + dBefore (ysInt (f.y + 1) - ysInt f.y == 366) f.m = a at ho ⊢
  injection ho with ho
  refine ⟨_, rfl, ?_, ?_⟩
  · rintro ⟨d, hdd⟩
    rw [hdd] at e ⊢
    change (d : ℚ) = D + fr at e
    have : d = D := by
      have u : (D : ℚ) ≤ d := by linarith
      have v : (d : ℚ) < D + 1 := by linarith
      have u' : D ≤ d := by exact_mod_cast u
      have v' : d < D + 1 := by exact_mod_cast v
      omega
    subst this
    refine ⟨by linarith, ?_⟩
    simp only [Num.addInt]
    congr 1
    omega
  · rintro ⟨q, hq⟩
    rw [hq] at e ⊢
    change q = D + fr at e
    refine ⟨_, rfl, ?_⟩
    obtain ⟨-, -, p0, p1⟩ := dayNumber_year hE hd
    have y0 := ysInt_mono (a := -1843) (b := f.y) (by omega) (by omega) (by omega)
    have y1 := ysInt_mono (a := f.y + 1) (b := 1162) (by omega) (by omega) (by omega)
    rw [ysInt_m1843] at y0
    rw [ysInt_1162] at y1
    have hD : 1 ≤ D ∧ D ≤ 19 := by
      rcases hv with ⟨-, -, u, v⟩ | ⟨-, u, v⟩
      · exact ⟨u, v⟩
      · split_ifs at v <;> omega
    have b0 : 0 ≤ fudge f.y ∧ fudge f.y ≤ 1 := by unfold fudge; split_ifs <;> omega
    have b1 : daysBefore1stYear = 77 := rfl
    have hoq : (a : ℚ) + D + fudge f.y + daysBefore1stYear = n := by exact_mod_cast ho
    have na : ((-1000 : ℤ) : ℚ) ≤ a := by exact_mod_cast (by omega : -1000 ≤ a)
    have nb : (a : ℚ) ≤ ((1100000 : ℤ) : ℚ) := by exact_mod_cast (by omega : a ≤ 1100000)
    have d0 : (1 : ℚ) ≤ D := by exact_mod_cast hD.1
    have d1 : (D : ℚ) ≤ 19 := by exact_mod_cast hD.2
    have g0 : (0 : ℚ) ≤ fudge f.y := by exact_mod_cast b0.1
    have g1 : (fudge f.y : ℚ) ≤ 1 := by exact_mod_cast b0.2
    have g2 : (daysBefore1stYear : ℚ) = 77 := by rw [b1]; norm_num
    push_cast at na nb
    have r1 := abs_le.mp (fl_err_le (x := (a : ℚ) + q) (B := 2097152) (by rw [abs_le]; constructor <;> linarith))
    have r2 := abs_le.mp (fl_err_le (x := (fudge f.y : ℚ) + fl ((a : ℚ) + q)) (B := 2097152)
      (by rw [abs_le]; constructor <;> linarith))
    have r3 := abs_le.mp (fl_err_le (x := (daysBefore1stYear : ℚ) + fl ((fudge f.y : ℚ) + fl ((a : ℚ) + q))) (B := 2097152)
      (by rw [abs_le]; constructor <;> linarith))
    rw [abs_le]
    constructor <;> linarith

/-- The day that `fromordinal` finds for a fraction. -/
theorem ordJdFloat_eq {x : ℚ} {k : ℤ} (h0 : -2000 ≤ k) (h1 : k ≤ 1500000) (u : k + 1 / 200000 ≤ x + 260417 / 1000000)
    (v : x + 260417 / 1000000 ≤ k + 1 - 1 / 200000) : ordJdFloat x = ordJd k := by
  have c : fl (fl (ordinal1stYearEpoch - 1) - daysBefore1stYear) - 1721423.260417 ≤ 1 / 100000000 ∧
    -1 / 100000000 ≤ fl (fl (ordinal1stYearEpoch - 1) - daysBefore1stYear) - 1721423.260417 := by decide +kernel
  norm_num at c
  rw [ordJd_eq (by omega) (by omega)]
  unfold ordJdFloat
  simp only
  set b := fl (fl (ordinal1stYearEpoch - 1) - daysBefore1stYear)
  have n0 : (-2000 : ℚ) ≤ k := by exact_mod_cast h0
  have n1 : (k : ℚ) ≤ 1500000 := by exact_mod_cast h1
  have e := abs_le.mp (fl_err_le (x := b + x) (B := 4194304) (by rw [abs_le]; constructor <;> linarith))
  have hf : ⌊fl (b + x)⌋ = k + 1721423 := by
    rw [Int.floor_eq_iff]; push_cast; constructor <;> linarith
  rw [hf, show ((k + 1721423 : ℤ) : ℚ) + 1 / 2 = ((2 * (k + 1721423) + 1 : ℤ) : ℚ) / 2 by push_cast; ring,
    fl_half _ (by rw [abs_le]; constructor <;> norm_num <;> omega)]
  push_cast
  ring

theorem at_bounds {A : Astro} (hE : TehranEvening A) {f : FracDate} {n : ℤ} {fr : ℚ} (h : f.At (Cal.init A) n fr) :
    -1000 ≤ n ∧ n ≤ 1100000 := by
  obtain ⟨D, hd, e, f0, f1⟩ := h
  obtain ⟨h0, h1, -, -⟩ := (dayNumber_iff hE).mp hd
  obtain ⟨-, -, p0, p1⟩ := dayNumber_year hE hd
  have y0 := ysInt_mono (a := -1843) (b := f.y) (by omega) (by omega) (by omega)
  have y1 := ysInt_mono (a := f.y + 1) (b := 1162) (by omega) (by omega) (by omega)
  rw [ysInt_m1843] at y0
  rw [ysInt_1162] at y1
  omega

/-- The whole day `k` that addition finds. -/
theorem fracAdd_day {A : Astro} (hE : TehranEvening A) (hO : NewYearOrder (Cal.init A)) {f : FracDate} {n k : ℤ} {fr : ℚ}
    (h : f.At (Cal.init A) n fr) (t : TimeDelta) (hc : Reachable (Cal.init A) k)
    (u : k + 1 / 100000 ≤ n + t.days + fr + 260417 / 1000000)
    (v : n + t.days + fr + 260417 / 1000000 ≤ k + 1 - 1 / 100000) (w : k = n + t.days ∨ (k = n + t.days + 1 ∧ ∃ q, f.d = .float q)) :
    (Cal.init A).fracAdd f t = (Cal.init A).fromOrdinal k true := by
  obtain ⟨b0, b1⟩ := at_bounds hE h
  have k0 := reachable_lo hE hc
  obtain ⟨-, k1, -⟩ := convertible_inv hE hc.2
  obtain ⟨o, e, ei, ef⟩ := fracOrd_eq hE hO h
  have f0 : 0 ≤ fr := by obtain ⟨D, -, -, f0, -⟩ := h; exact f0
  unfold Cal.fracAdd
  rw [e, pyOk_bind]
  simp only
  have m0 : (78 : ℚ) ≤ k := by exact_mod_cast k0
  have m1 : (k : ℚ) ≤ 1096902 := by exact_mod_cast k1
  have c1 : (daysBefore1stYear : ℚ) = 77 := by norm_num [daysBefore1stYear]
  have c2 : (maxOrdinal : ℚ) = 1097267 := by norm_num [maxOrdinal]
  rcases hd : f.d with d | q
  · obtain ⟨rfl, rfl⟩ := ei ⟨d, hd⟩
    have hk : k = n + t.days := by
      rcases w with w | ⟨-, q, hq⟩
      · exact w
      · rw [hd] at hq; cases hq
    have hkq : (k : ℚ) = n + t.days := by exact_mod_cast hk
    have hc : (daysBefore1stYear : ℚ) < ((t.days + n : ℤ) : ℚ) ∧ ((t.days + n : ℤ) : ℚ) ≤ maxOrdinal := by
      rw [c1, c2]; push_cast; constructor <;> linarith
    rw [if_pos (show (daysBefore1stYear : ℚ) < (Num.addInt t.days (.int n)).val ∧
      (Num.addInt t.days (.int n)).val ≤ maxOrdinal from hc)]
    change (Cal.init A).fromOrdinal (t.days + n) true = _
    rw [hk, add_comm]
  · obtain ⟨x, rfl, hx⟩ := ef ⟨q, hd⟩
    have hx := abs_le.mp hx
    have hkq : (k : ℚ) - 1 ≤ n + t.days := by
      rcases w with w | ⟨w, -⟩
      · have : (k : ℚ) = n + t.days := by exact_mod_cast w
        linarith
      · have : (k : ℚ) = n + t.days + 1 := by exact_mod_cast w
        linarith
    have hu : (77 : ℚ) + 1 / 5 ≤ n + t.days + fr := by
      rcases w with w | ⟨w, -⟩
      · have : (k : ℚ) = n + t.days := by exact_mod_cast w
        linarith
      · have : (k : ℚ) = n + t.days + 1 := by exact_mod_cast w
        linarith
    have er := abs_le.mp (fl_err_le (x := (t.days : ℚ) + x) (B := 2097152) (by rw [abs_le]; constructor <;> linarith))
    have hc : (daysBefore1stYear : ℚ) < fl ((t.days : ℚ) + x) ∧ fl ((t.days : ℚ) + x) ≤ maxOrdinal := by
      rw [c1, c2]; constructor <;> linarith
    rw [if_pos (show (daysBefore1stYear : ℚ) < (Num.addInt t.days (.float x)).val ∧
      (Num.addInt t.days (.float x)).val ≤ maxOrdinal from hc)]
    change ((Cal.init A).badiDateFromJd (ordJdFloat (fl ((t.days : ℚ) + x))) tehranLat tehranLon
      { short := true, trim := true, rtd := true } >>= _) = _
    rw [ordJdFloat_eq (k := k) (by omega) (by omega) (by linarith) (by linarith)]
    rfl

/-! ## C109 -/

/-- C109. In the years of the table the constructor accepts a day with a fraction exactly when its whole part is a day of
the month. -/
theorem C109_accepts (A : Astro) (hE : TehranEvening A) (f : FracDate) (h0 : -1843 ≤ f.y) (h1 : f.y ≤ 1161) :
    ((∃ n fr, f.At (Cal.init A) n fr) → (Cal.init A).newFracDate f = .ok f) ∧
    ((¬ ∃ n fr, f.At (Cal.init A) n fr) → (Cal.init A).newFracDate f = .error .assertion) := by
  have hl := init_isLeap hE h0 h1
  have e : (Cal.init A).newFracDate f = ((Cal.init A).checkTail f.y f.m f.d.val [] >>= fun _ => .ok f) := by
    unfold Cal.newFracDate Cal.checkShort
    simp only
    rw [pyAssert_true (by simp [minYear, maxYear]; omega), pyOk_bind]
  obtain ⟨e1, e2⟩ := checkTail_num (C := Cal.init A) (m := f.m) (q := f.d.val) hl
  have k : (∃ n fr, f.At (Cal.init A) n fr) ↔ ValidMD (leapOf f.y) f.m ⌊f.d.val⌋ := by
    constructor
    · rintro ⟨n, fr, D, hd, e, f0, f1⟩
      have : ⌊f.d.val⌋ = D := by
        rw [Int.floor_eq_iff]; constructor <;> linarith
      rw [this]
      exact ((dayNumber_iff hE).mp hd).2.2.1
    · intro hv
      refine ⟨_, Int.fract f.d.val, ⌊f.d.val⌋, (dayNumber_iff hE).mpr ⟨h0, h1, hv, rfl⟩, ?_, Int.fract_nonneg _, Int.fract_lt_one _⟩
      exact (Int.floor_add_fract _).symm
  rw [e, k]
  exact ⟨fun h => by rw [e1 h]; rfl, fun h => by rw [e2 h]; rfl⟩

/-- C109. Dates with integer days are those of `Model/Date.lean`. -/
theorem C109_integers (A : Astro) (hE : TehranEvening A) (hO : NewYearOrder (Cal.init A)) (y m d n : ℤ)
    (hd : DayNumber (Cal.init A) y m d n) (h : List ℤ → ℤ) (t : TimeDelta) (hc : Reachable (Cal.init A) (n + t.days)) :
    (Cal.init A).fracOrd ⟨y, m, .int d⟩ = .ok (.int n) ∧
    (Cal.init A).fracWeekday ⟨y, m, .int d⟩ = ((Cal.init A).weekday (.short y m d)).map Num.int ∧
    (Cal.init A).fracAdd ⟨y, m, .int d⟩ t = (Cal.init A).addDelta (.short y m d) t ∧
    (-1842 ≤ y → fracDateHash h ⟨y, m, .int d⟩ = dateHash h (.short y m d)) := by
  have hat : FracDate.At (Cal.init A) ⟨y, m, .int d⟩ n 0 := ⟨d, hd, by simp [Num.val], le_refl _, by norm_num⟩
  obtain ⟨o, e, ei, -⟩ := fracOrd_eq hE hO hat
  obtain ⟨-, rfl⟩ := ei ⟨d, rfl⟩
  refine ⟨e, ?_, ?_, ?_⟩
  · unfold Cal.fracWeekday Cal.weekday Cal.dayOfWeek
    rw [e, pyOk_bind, show (Cal.init A).dateShort (.short y m d) = .ok (y, m, d) from rfl, pyOk_bind]
    simp only
    rw [ord_ok hE hO hd, pyOk_bind]
    simp only [Num.addInt, Num.mod7, Except.map]
    congr 2
    omega
  · have hd' : IsDay (Cal.init A) (.short y m d) n := hd
    have k0 := reachable_lo hE hc
    obtain ⟨-, k1, -⟩ := convertible_inv hE hc.2
    rw [addDelta_eq hE hO hd' t k0 (by omega), fracAdd_day hE hO hat t hc (by push_cast; linarith) (by push_cast; linarith) (Or.inl rfl)]
    rfl
  · intro hy
    unfold fracDateHash fracDateState dateHash
    obtain ⟨h0, h1, hv, hn⟩ := (dayNumber_iff hE).mp hd
    have hm : 0 ≤ m ∧ m ≤ 19 := by rcases hv with ⟨a, b, -⟩ | ⟨a, -⟩ <;> omega
    have : pyBytes [(y - minYear) / 256, (y - minYear) % 256, m]
        = .ok [(y - minYear) / 256, (y - minYear) % 256, m] := by
      unfold pyBytes
      have e : minYear = -1842 := rfl
      rw [if_pos]
      intro x hx
      simp only [List.mem_cons, List.not_mem_nil, or_false] at hx
      rcases hx with rfl | rfl | rfl <;> omega
    simp only
    rw [this, pyOk_bind]
    rfl

example : DayNumber (Cal.init newYearSun) 182 0 5 739675 ∧
    Reachable (Cal.init newYearSun) (739675 + (TimeDelta.ofDays 30).days) :=
  ⟨witness_days.1,
    reachable_modern newYearSun_tehran (by rw [days_ofDays]; norm_num) (by rw [days_ofDays]; norm_num)⟩

/-- C109, the order. Missing from the full property: pairs of a day of Ayyám-i-Há and another day of the same year,
where it is false already for whole days (`C13_ayyam_i_ha_negation`). -/
theorem C109_order_partial (A : Astro) (hE : TehranEvening A) (a b : FracDate) (n n' : ℤ) (fr fr' : ℚ)
    (ha : a.At (Cal.init A) n fr) (hb : b.At (Cal.init A) n' fr') (hm : (a.m = 0 ↔ b.m = 0) ∨ a.y ≠ b.y) :
    (fracDateCmp a b < 0 ↔ (n : ℚ) + fr < n' + fr') ∧ (fracDateCmp a b = 0 ↔ (n : ℚ) + fr = n' + fr') := by
  obtain ⟨D, hd, e, f0, f1⟩ := ha
  obtain ⟨D', hd', e', f0', f1'⟩ := hb
  obtain ⟨-, -, p0, p1⟩ := dayNumber_year hE hd
  obtain ⟨-, -, q0, q1⟩ := dayNumber_year hE hd'
  obtain ⟨y0, y1, hv, hn⟩ := (dayNumber_iff hE).mp hd
  obtain ⟨y0', y1', hv', hn'⟩ := (dayNumber_iff hE).mp hd'
  have less : n < n' → (n : ℚ) + fr < n' + fr' := by
    intro h
    have : (n : ℚ) + 1 ≤ n' := by exact_mod_cast h
    linarith
  have more : n' < n → (n' : ℚ) + fr' < n + fr := by
    intro h
    have : (n' : ℚ) + 1 ≤ n := by exact_mod_cast h
    linarith
  have c1 : fracDateCmp a b = if (a.y : ℚ) = b.y then (if (a.m : ℚ) = b.m then (if a.d.val = b.d.val then 0 else
      if b.d.val < a.d.val then 1 else -1) else if (b.m : ℚ) < a.m then 1 else -1)
      else if (b.y : ℚ) < a.y then 1 else -1 := rfl
  have fin : ∀ c : ℤ, (c = -1 ∧ (n : ℚ) + fr < n' + fr') ∨ (c = 1 ∧ (n' : ℚ) + fr' < n + fr) ∨
      (c = 0 ∧ (n : ℚ) + fr = n' + fr') → (c < 0 ↔ (n : ℚ) + fr < n' + fr') ∧ (c = 0 ↔ (n : ℚ) + fr = n' + fr') := by
    rintro c (⟨rfl, h⟩ | ⟨rfl, h⟩ | ⟨rfl, h⟩)
    · exact ⟨⟨fun _ => h, fun _ => by norm_num⟩, ⟨fun h => by norm_num at h, fun h' => by linarith⟩⟩
    · exact ⟨⟨fun h => by norm_num at h, fun h' => by linarith⟩, ⟨fun h => by norm_num at h, fun h' => by linarith⟩⟩
    · exact ⟨⟨fun h => by norm_num at h, fun h' => by linarith⟩, ⟨fun _ => h, fun _ => rfl⟩⟩
  apply fin
  rw [c1]
  rcases lt_trichotomy a.y b.y with c | c | c
  · have := ysInt_mono (a := a.y + 1) (b := b.y) (by omega) (by omega) (by omega)
    have cq : (a.y : ℚ) < b.y := by exact_mod_cast c
    rw [if_neg (by linarith), if_neg (by linarith)]
    exact Or.inl ⟨rfl, less (by omega)⟩
  · rw [if_pos (by rw [c])]
    have hm := hm.resolve_right (fun h => h c)
    rw [← c] at hn' hv'
    have hb : ∀ m m' : ℤ, 1 ≤ m → m < m' → m' ≤ 19 → dBefore (leapOf a.y) m + 19 ≤ dBefore (leapOf a.y) m' := by
      intro m m' h0 h1 h2
      unfold dBefore
      split_ifs <;> omega
    have hD : D ≤ 19 ∧ 1 ≤ D := by
      rcases hv with ⟨-, -, u, v⟩ | ⟨-, u, v⟩
      · exact ⟨v, u⟩
      · split_ifs at v <;> omega
    have hD' : D' ≤ 19 ∧ 1 ≤ D' := by
      rcases hv' with ⟨-, -, u, v⟩ | ⟨-, u, v⟩
      · exact ⟨v, u⟩
      · split_ifs at v <;> omega
    have m0 : a.m = 0 ∨ (1 ≤ a.m ∧ a.m ≤ 19) := by rcases hv with ⟨u, v, -⟩ | ⟨u, -⟩ <;> omega
    have m0' : b.m = 0 ∨ (1 ≤ b.m ∧ b.m ≤ 19) := by rcases hv' with ⟨u, v, -⟩ | ⟨u, -⟩ <;> omega
    rcases lt_trichotomy a.m b.m with k | k | k
    · have kq : (a.m : ℚ) < b.m := by exact_mod_cast k
      rw [if_neg (by linarith), if_neg (by linarith)]
      have := hb a.m b.m (by omega) k (by omega)
      exact Or.inl ⟨rfl, less (by omega)⟩
    · rw [if_pos (by rw [k]), e, e']
      rw [← k] at hn'
      have hnq : (n : ℚ) - D = n' - D' := by exact_mod_cast (by omega : n - D = n' - D')
      split_ifs with g1 g2
      · exact Or.inr (Or.inr ⟨rfl, by linarith⟩)
      · exact Or.inr (Or.inl ⟨rfl, by linarith⟩)
      · refine Or.inl ⟨rfl, ?_⟩
        have : (D : ℚ) + fr < D' + fr' := lt_of_le_of_ne (not_lt.mp g2) g1
        linarith
    · have kq : (b.m : ℚ) < a.m := by exact_mod_cast k
      rw [if_neg (by linarith), if_pos (by linarith)]
      have := hb b.m a.m (by omega) k (by omega)
      exact Or.inr (Or.inl ⟨rfl, more (by omega)⟩)
  · have := ysInt_mono (a := b.y + 1) (b := a.y) (by omega) (by omega) (by omega)
    have cq : (b.y : ℚ) < a.y := by exact_mod_cast c
    rw [if_neg (by linarith), if_pos (by linarith)]
    exact Or.inr (Or.inl ⟨rfl, more (by omega)⟩)

/-- Day 5 of Ayyám-i-Há of year 182, at three quarters. -/
theorem witness_frac : FracDate.At (Cal.init newYearSun) ⟨182, 0, .float 5.75⟩ 739675 (3 / 4) :=
  ⟨5, witness_days.1, by norm_num [Num.val], by norm_num, by norm_num⟩

example : ∃ n fr, FracDate.At (Cal.init newYearSun) ⟨182, 0, .float 5.75⟩ n fr := ⟨_, _, witness_frac⟩

example : FracDate.At (Cal.init newYearSun) ⟨182, 0, .float 5.5⟩ 739675 (1 / 2) :=
  ⟨5, witness_days.1, by norm_num [Num.val], by norm_num, by norm_num⟩

/-- C109. The difference of two dates is the time between the two moments, to a quarter of a millisecond. -/
theorem C109_subtract (A : Astro) (hE : TehranEvening A) (hO : NewYearOrder (Cal.init A)) (a b : FracDate) (n n' : ℤ)
    (fr fr' : ℚ) (ha : a.At (Cal.init A) n fr) (hb : b.At (Cal.init A) n' fr') :
    ∃ t, (Cal.init A).fracSubDate a b = .ok t ∧
      |(t.us : ℚ) - ((n + fr) - (n' + fr')) * 86400000000| ≤ 250 := by
  obtain ⟨i, e, ei, ef⟩ := fracOrd_eq hE hO ha
  obtain ⟨j, e', ei', ef'⟩ := fracOrd_eq hE hO hb
  obtain ⟨b0, b1⟩ := at_bounds hE ha
  obtain ⟨b0', b1'⟩ := at_bounds hE hb
  unfold Cal.fracSubDate
  rw [e, pyOk_bind, e', pyOk_bind]
  refine ⟨_, rfl, ?_⟩
  have n0 : (-1000 : ℚ) ≤ n := by exact_mod_cast b0
  have n1 : (n : ℚ) ≤ 1100000 := by exact_mod_cast b1
  have n0' : (-1000 : ℚ) ≤ n' := by exact_mod_cast b0'
  have n1' : (n' : ℚ) ≤ 1100000 := by exact_mod_cast b1'
  have f0 : 0 ≤ fr ∧ fr < 1 := by obtain ⟨D, -, -, f⟩ := ha; exact f
  have f0' : 0 ≤ fr' ∧ fr' < 1 := by obtain ⟨D, -, -, f⟩ := hb; exact f
  have vi : |i.val - (n + fr)| ≤ 1 / 1000000000 := by
    rcases hd : a.d with d | q
    · obtain ⟨rfl, rfl⟩ := ei ⟨d, hd⟩
      simp [Num.val]
    · obtain ⟨x, rfl, hx⟩ := ef ⟨q, hd⟩
      exact hx
  have vj : |j.val - (n' + fr')| ≤ 1 / 1000000000 := by
    rcases hd : b.d with d | q
    · obtain ⟨rfl, rfl⟩ := ei' ⟨d, hd⟩
      simp [Num.val]
    · obtain ⟨x, rfl, hx⟩ := ef' ⟨q, hd⟩
      exact hx
  have vi := abs_le.mp vi
  have vj := abs_le.mp vj
  have er := abs_le.mp (fl_err_le (x := i.val - j.val) (B := 2097152) (by rw [abs_le]; constructor <;> linarith))
  have key : ∀ q : ℚ, q = fl (i.val - j.val) →
      |((Num.asDays (.float q)).us : ℚ) - ((n + fr) - (n' + fr')) * 86400000000| ≤ 250 := by
    intro q hq
    have hw : ∃ w : ℤ, (if 0 ≤ q then ⌊q⌋ else ⌈q⌉) = w ∧ |q - w| ≤ 1 := by
      refine ⟨_, rfl, ?_⟩
      split_ifs
      · have := Int.floor_le q
        have := Int.lt_floor_add_one q
        rw [abs_le]; constructor <;> linarith
      · have := Int.le_ceil q
        have := Int.ceil_lt_add_one q
        rw [abs_le]; constructor <;> linarith
    obtain ⟨w, hw, hq1⟩ := hw
    have hq1 := abs_le.mp hq1
    unfold Num.asDays
    simp only [hw]
    have r1 := abs_le.mp (fl_err_le (x := 86400000000 * (q - w)) (B := 86400000000)
      (by rw [abs_le]; constructor <;> linarith))
    have r2 := abs_le.mp (roundHalfEven_err (fl (86400000000 * (q - w))))
    push_cast
    rw [← hq] at er
    rw [abs_le]
    constructor <;> linarith
  rcases i with i | i <;> rcases j with j | j
  · change |(((i - j) * 86400000000 : ℤ) : ℚ) - _| ≤ _
    simp only [Num.val] at vi vj
    push_cast
    rw [abs_le]
    constructor <;> linarith
  · exact key _ rfl
  · exact key _ rfl
  · exact key _ rfl

example : FracDate.At (Cal.init newYearSun) ⟨182, 0, .float 5.75⟩ 739675 (3 / 4) ∧
    FracDate.At (Cal.init newYearSun) ⟨182, 0, .int 5⟩ 739675 0 :=
  ⟨witness_frac, 5, witness_days.1, by norm_num [Num.val], by norm_num, by norm_num⟩

/-- C109, addition: up to 0.7395 of a day the date of the day so many days later, without the part of the day. Missing from the full
property: the part of the day, which is lost, and the end of the day, see `C109_add_negation`. -/
theorem C109_add_partial (A : Astro) (hE : TehranEvening A) (hO : NewYearOrder (Cal.init A)) (f : FracDate) (n : ℤ) (fr : ℚ)
    (h : f.At (Cal.init A) n fr) (hf : fr ≤ 0.7395) (t : TimeDelta) (hc : Reachable (Cal.init A) (n + t.days)) :
    ∃ p, (Cal.init A).fracAdd f t = .ok p ∧ IsDay (Cal.init A) p (n + t.days) ∧ p.isShort = true := by
  have f0 : 0 ≤ fr := by obtain ⟨D, -, -, f0, -⟩ := h; exact f0
  norm_num at hf
  rw [fracAdd_day hE hO h t hc (by push_cast; linarith) (by push_cast; linarith) (Or.inl rfl)]
  exact fromOrdinal_ok hE hc.2 true

example : FracDate.At (Cal.init newYearSun) ⟨182, 0, .float 5.5⟩ 739675 (1 / 2) ∧ (1 / 2 : ℚ) ≤ 0.7395 ∧
    Reachable (Cal.init newYearSun) (739675 + (TimeDelta.ofDays 30).days) :=
  ⟨⟨5, witness_days.1, by norm_num [Num.val], by norm_num, by norm_num⟩, by norm_num,
    reachable_modern newYearSun_tehran (by rw [days_ofDays]; norm_num) (by rw [days_ofDays]; norm_num)⟩

/-- C109 is false for addition: after 0.7396 of a day the result is a day late, even for a `timedelta` of zero. -/
theorem C109_add_negation (A : Astro) (hE : TehranEvening A) (hO : NewYearOrder (Cal.init A)) (f : FracDate) (n : ℤ) (fr : ℚ)
    (h : f.At (Cal.init A) n fr) (hf : 0.7396 ≤ fr) (t : TimeDelta) (hc : Reachable (Cal.init A) (n + t.days + 1)) :
    ∃ p, (Cal.init A).fracAdd f t = .ok p ∧ IsDay (Cal.init A) p (n + t.days + 1) := by
  have f1 : fr < 1 := by obtain ⟨D, -, -, -, f1⟩ := h; exact f1
  norm_num at hf
  have hq : ∃ q, f.d = .float q := by
    rcases hd : f.d with d | q
    · obtain ⟨o, -, ei, -⟩ := fracOrd_eq hE hO h
      obtain ⟨rfl, -⟩ := ei ⟨d, hd⟩
      norm_num at hf
    · exact ⟨q, rfl⟩
  rw [fracAdd_day hE hO h t hc (by push_cast; linarith) (by push_cast; linarith) (Or.inr ⟨rfl, hq⟩)]
  obtain ⟨p, e, hp, -⟩ := fromOrdinal_ok hE hc.2 true
  exact ⟨p, e, hp⟩

example : FracDate.At (Cal.init newYearSun) ⟨182, 0, .float 5.75⟩ 739675 (3 / 4) ∧ (0.7396 : ℚ) ≤ 3 / 4 ∧
    Reachable (Cal.init newYearSun) (739675 + (TimeDelta.ofDays 0).days + 1) :=
  ⟨witness_frac, by norm_num,
    reachable_modern newYearSun_tehran (by rw [days_ofDays]; norm_num) (by rw [days_ofDays]; norm_num)⟩

/-- C109 is false for the weekday and all texts: a date whose day is a `float` has a `float` as its weekday, which is no
weekday if the fraction is more than a billionth away from a whole day; `ctime` and `isoformat` raise, whatever the fraction is;
and such a date can neither be hashed nor pickled. -/
theorem C109_weekday_negation (A : Astro) (hE : TehranEvening A) (hO : NewYearOrder (Cal.init A)) (f : FracDate) (n : ℤ)
    (fr : ℚ) (h : f.At (Cal.init A) n fr) (q : ℚ) (hq : f.d = .float q) (hy : -1842 ≤ f.y) :
    (∃ w, (Cal.init A).fracWeekday f = .ok (.float w) ∧
      (2 / 1000000000 < fr → fr < 1 - 2 / 1000000000 → ¬ ∃ k : ℤ, w = k)) ∧
    (Cal.init A).fracCtimeDay f = .error .type ∧ (Cal.init A).fracDateIso f = .error .value ∧
    (∀ H, fracDateHash H f = .error .type) ∧ (Cal.init A).fracDatePickle f = .error .type := by
  obtain ⟨o, e, -, ef⟩ := fracOrd_eq hE hO h
  obtain ⟨x, rfl, hx⟩ := ef ⟨q, hq⟩
  have hx := abs_le.mp hx
  obtain ⟨b0, b1⟩ := at_bounds hE h
  have f0 : 0 ≤ fr ∧ fr < 1 := by obtain ⟨D, -, -, f⟩ := h; exact f
  have hn : 78 ≤ n := by
    obtain ⟨D, hd, -⟩ := h
    obtain ⟨h0, h1, -, -⟩ := (dayNumber_iff hE).mp hd
    obtain ⟨-, -, p0, p1⟩ := dayNumber_year hE hd
    have := ysInt_mono (a := -1842) (b := f.y) (by omega) (by omega) (by omega)
    rw [ysInt_m1842] at this
    omega
  have n0 : (78 : ℚ) ≤ n := by exact_mod_cast hn
  have n1 : (n : ℚ) ≤ 1100000 := by exact_mod_cast b1
  obtain ⟨w, hw⟩ : ∃ w, w = pyModInt (fl ((7 : ℤ) + pyModInt (fl ((1 : ℤ) + x)) 7)) 7 := ⟨_, rfl⟩
  have ew : (Cal.init A).fracWeekday f = .ok (.float w) := by
    unfold Cal.fracWeekday
    rw [e, pyOk_bind, hw]
    rfl
  have st : fracDateState f = .error .type := by
    unfold fracDateState
    have hm : 0 ≤ f.m ∧ f.m ≤ 19 ∧ f.y ≤ 1161 := by
      obtain ⟨D, hd, -⟩ := h
      obtain ⟨h0, h1, hv, -⟩ := (dayNumber_iff hE).mp hd
      rcases hv with ⟨a, b, -⟩ | ⟨a, -⟩ <;> omega
    have : pyBytes [(f.y - minYear) / 256, (f.y - minYear) % 256, f.m]
        = .ok [(f.y - minYear) / 256, (f.y - minYear) % 256, f.m] := by
      unfold pyBytes
      have e : minYear = -1842 := rfl
      rw [if_pos]
      intro x hx
      simp only [List.mem_cons, List.not_mem_nil, or_false] at hx
      rcases hx with rfl | rfl | rfl <;> omega
    rw [this, pyOk_bind, hq]
    rfl
  refine ⟨⟨w, ew, ?_⟩, ?_, ?_, ?_, ?_⟩
  · rintro g0 g1 ⟨k, hk⟩
    have hx1 : (0 : ℚ) ≤ ((1 : ℤ) : ℚ) + x := by push_cast; linarith
    have er := abs_le.mp (fl_err_le (x := ((1 : ℤ) : ℚ) + x) (B := 2097152)
      (by push_cast; rw [abs_le]; constructor <;> linarith))
    push_cast at er
    have mod : ∀ z : ℚ, 0 ≤ z → ∃ c : ℤ, pyModInt z 7 = z - c := by
      intro z hz
      unfold pyModInt
      rw [if_pos hz]
      exact ⟨7 * ⌊z / (7 : ℕ)⌋, by push_cast; ring⟩
    have low : ∀ z : ℚ, 0 ≤ z → 0 ≤ pyModInt z 7 ∧ pyModInt z 7 < 7 := by
      intro z hz
      unfold pyModInt
      rw [if_pos hz]
      have a := Int.floor_le (z / (7 : ℕ))
      have b := Int.lt_floor_add_one (z / (7 : ℕ))
      push_cast at a b ⊢
      constructor <;> linarith
    have z0 : 0 ≤ fl (((1 : ℤ) : ℚ) + x) := by push_cast; linarith
    obtain ⟨c, hc⟩ := mod _ z0
    obtain ⟨l0, l1⟩ := low _ z0
    have er2 := abs_le.mp (fl_err_le (x := ((7 : ℤ) : ℚ) + pyModInt (fl (((1 : ℤ) : ℚ) + x)) 7) (B := 16)
      (by push_cast at l0 l1 ⊢; rw [abs_le]; constructor <;> linarith))
    obtain ⟨c', hc'⟩ := mod (fl (((7 : ℤ) : ℚ) + pyModInt (fl (((1 : ℤ) : ℚ) + x)) 7))
      (by push_cast at er2 l0 l1 ⊢; linarith)
    rw [hk, hc'] at hw
    rw [hc] at hw er2
    push_cast at hw er2
    have k0 : ((n : ℤ) : ℚ) < ((k + c + c' - 8 : ℤ) : ℚ) := by push_cast; linarith
    have k1 : ((k + c + c' - 8 : ℤ) : ℚ) < ((n + 1 : ℤ) : ℚ) := by push_cast; linarith
    have k0' : n < k + c + c' - 8 := by exact_mod_cast k0
    have k1' : k + c + c' - 8 < n + 1 := by exact_mod_cast k1
    omega
  · unfold Cal.fracCtimeDay
    rw [ew, pyOk_bind]
    rfl
  · unfold Cal.fracDateIso
    rw [hq]
  · intro H
    unfold fracDateHash
    rw [st]
    rfl
  · unfold Cal.fracDatePickle
    rw [st, pyErr_bind]

example : FracDate.At (Cal.init newYearSun) ⟨182, 0, .float 5.75⟩ 739675 (3 / 4) ∧ (2 / 1000000000 : ℚ) < 3 / 4 ∧
    (3 / 4 : ℚ) < 1 - 2 / 1000000000 := ⟨witness_frac, by norm_num, by norm_num⟩

end Verif
