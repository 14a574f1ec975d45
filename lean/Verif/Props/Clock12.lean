import Verif.Lemmas.Strftime
import Verif.Lemmas.Sunset
import Verif.Lemmas.Forward
import Verif.Lemmas.JdScale
import Verif.Lemmas.WitnessOrdinal

/-!
# Property C69: the 12 hour clock of `strftime`
-/

namespace Verif

theorem roundHalfEven_add_even (x : ℚ) (j : ℤ) : roundHalfEven (x + 2 * j) = roundHalfEven x + 2 * j := by
  have e : ⌊x + 2 * (j : ℚ)⌋ = ⌊x⌋ + 2 * j := by
    have := Int.floor_add_intCast x (2 * j)
    push_cast at this
    exact this
  unfold roundHalfEven
  simp only [e]
  push_cast
  rw [show x + 2 * (j : ℚ) - (⌊x⌋ + 2 * j) = x - ⌊x⌋ by ring, show (⌊x⌋ + 2 * j) % 2 = ⌊x⌋ % 2 by omega]
  split_ifs <;> ring

theorem pow2_21 : pow2 21 = 2097152 := by rw [pow2_eq]; norm_num

theorem pow2_21_52 : pow2 (21 - 52) = 1 / 2147483648 := by decide +kernel

theorem pow2_20_52 : pow2 (20 - 52) = 1 / 4294967296 := by decide +kernel

/-- `y` and `z` lie between the same two powers of two. -/
def OneBinade (y z : ℚ) : Prop := (2097152 ≤ y ∧ z < 4194304) ∨ (1048576 ≤ y ∧ z < 2097152)

theorem OneBinade.sub {y z y' z' : ℚ} (h : OneBinade y z) (h0 : y ≤ y') (h1 : z' ≤ z) : OneBinade y' z' := by
  rcases h with ⟨a, b⟩ | ⟨a, b⟩
  · exact Or.inl ⟨by linarith, by linarith⟩
  · exact Or.inr ⟨by linarith, by linarith⟩

/-- Between two powers of two, adding 1 commutes with the rounding. -/
theorem fl_add_one {y : ℚ} (h : OneBinade y (y + 1)) : fl (y + 1) = fl y + 1 := by
  rcases h with ⟨h0, h1⟩ | ⟨h0, h1⟩
  · have e1 : ilog2 y = 21 := ilog2_unique (by rw [pow2_21, abs_of_nonneg (by linarith)]; exact h0)
      (by rw [show (21 : ℤ) + 1 = 22 by norm_num, pow2_22, abs_of_nonneg (by linarith)]; linarith)
    have e2 : ilog2 (y + 1) = 21 := ilog2_unique (by rw [pow2_21, abs_of_nonneg (by linarith)]; linarith)
      (by rw [show (21 : ℤ) + 1 = 22 by norm_num, pow2_22, abs_of_nonneg (by linarith)]; exact h1)
    unfold fl
    rw [if_neg (by linarith), if_neg (by linarith), e1, e2]
    simp only [pow2_21_52]
    rw [show (y + 1) / (1 / 2147483648) = y / (1 / 2147483648) + 2 * ((1073741824 : ℤ) : ℚ) by push_cast; ring,
      roundHalfEven_add_even]
    push_cast
    ring
  · have e1 : ilog2 y = 20 := ilog2_unique (by rw [pow2_20, abs_of_nonneg (by linarith)]; exact h0)
      (by rw [show (20 : ℤ) + 1 = 21 by norm_num, pow2_21, abs_of_nonneg (by linarith)]; linarith)
    have e2 : ilog2 (y + 1) = 20 := ilog2_unique (by rw [pow2_20, abs_of_nonneg (by linarith)]; linarith)
      (by rw [show (20 : ℤ) + 1 = 21 by norm_num, pow2_21, abs_of_nonneg (by linarith)]; exact h1)
    unfold fl
    rw [if_neg (by linarith), if_neg (by linarith), e1, e2]
    simp only [pow2_20_52]
    rw [show (y + 1) / (1 / 4294967296) = y / (1 / 4294967296) + 2 * ((2147483648 : ℤ) : ℚ) by push_cast; ring,
      roundHalfEven_add_even]
    push_cast
    ring

theorem fl_add_nat {y : ℚ} (k : ℕ) (h : OneBinade y (y + k)) : fl (y + k) = fl y + k := by
  induction k with
  | zero => simp
  | succ k ih =>
    push_cast at h ⊢
    rw [show y + ((k : ℚ) + 1) = y + k + 1 by ring, fl_add_one (h.sub (by have : (0 : ℚ) ≤ k := Nat.cast_nonneg k; linarith)
      (by linarith)), ih (h.sub (le_refl _) (by linarith))]
    ring

theorem civilDay_succ {x lf : ℚ} (hl : |lf| ≤ 1 / 20000) (h : OneBinade (x - 1 / 15000) (x + 8 / 5)) :
    civilDay (x + 1) lf = civilDay x lf + 1 := by
  have ha := abs_le.mp hl
  have b : x - 1 / 15000 ≤ fl (x + lf) ∧ fl (x + lf) ≤ x + 1 / 15000 := by
    have hx : 0 ≤ x ∧ x < 4194304 := by rcases h with ⟨a, b⟩ | ⟨a, b⟩ <;> constructor <;> linarith
    have e1 := abs_le.mp (fl_err_le (x := x + lf) (B := 4194305) (abs_le.mpr ⟨by linarith, by linarith⟩))
    constructor <;> linarith
  unfold civilDay
  rw [show x + 1 + lf = x + lf + 1 by ring, fl_add_one (h.sub (by linarith) (by linarith)),
    show fl (x + lf) + 1 + 1 / 2 = fl (x + lf) + 1 / 2 + 1 by ring, fl_add_one (h.sub (by linarith) (by linarith)), Int.floor_add_one]

theorem civilDay_bounds {x lf : ℚ} (hl : |lf| ≤ 1 / 2) (h0 : 2 ≤ x) (h1 : x ≤ 4194000) :
    x - 2 ≤ civilDay x lf ∧ civilDay x lf ≤ x + 2 := by
  have ha := abs_le.mp hl
  have e1 := abs_le.mp (fl_err_le (x := x + lf) (B := 4194304) (abs_le.mpr ⟨by linarith, by linarith⟩))
  have e2 := abs_le.mp (fl_err_le (x := fl (x + lf) + 1 / 2) (B := 4194304 * 2) (abs_le.mpr ⟨by linarith, by linarith⟩))
  have f1 := Int.floor_le (fl (fl (x + lf) + 1 / 2))
  have f2 := Int.lt_floor_add_one (fl (fl (x + lf) + 1 / 2))
  unfold civilDay
  constructor <;> linarith

/-- After the reform the two scales of Julian days differ by two. -/
theorem meeus_late {x : ℚ} (h : 2299158.5 ≤ x) : meeusFromExact x = .ok (fl (x + 2)) := by
  have l : lookupDiff x meeusTable = 2 := by
    unfold meeusTable
    norm_num at h
    simp only [lookupDiff]
    repeat rw [if_neg (by norm_num; linarith)]
  unfold meeusFromExact
  rw [if_neg (by rintro ⟨-, h2⟩; linarith), l]
  norm_num

theorem iLookup_succ {N : ℤ} : ∀ {l : List (ℤ × ℤ)}, (∀ p ∈ l, N ≠ p.1) → iLookup (N + 1) l = iLookup N l
  | [], _ => rfl
  | (K, df) :: l, h => by
    have hK : N ≠ K := h (K, df) (by simp)
    unfold iLookup
    rw [iLookup_succ (l := l) fun p hp => h p (by simp [hp])]
    have : N + 1 ≤ K ↔ N ≤ K := by omega
    simp only [this]

/-- The day numbers on which the 12 hour clock is shown to work: the second year of the era is reached; the difference
between the two scales of Julian days does not change on this day or the next two; it is not one of the days of the
Gregorian reform; and it is not one of the five days on which a Julian day of one of the scales passes the power of two
2097152. -/
def ClockDay (n : ℤ) : Prop :=
  78 ≤ n ∧ (∀ c ∈ [36218, 72742, 109266, 182315, 218839, 255363, 328412, 364936, 401460, 474509, 511033, 547557],
    n ≠ c ∧ n + 1 ≠ c) ∧ (n < 577724 ∨ 577736 ≤ n) ∧ ∀ c ∈ [375719, 375720, 375721, 375727, 375728], n ≠ c

/-- On these days the two scales of Julian days differ by one and the same whole number. -/
theorem meeus_same {n : ℤ} (hn : ClockDay n) : ∃ k : ℕ, k ≤ 12 ∧ (375700 ≤ n → n ≤ 375740 → k = 8) ∧ ∀ x : ℚ, (n : ℚ) + 1721423 ≤ x → x < n + 1721423 + 5 / 2 →
    meeusFromExact x = .ok (fl (x + k)) := by
  obtain ⟨-, hc, hr, -⟩ := hn
  simp only [List.forall_mem_cons, List.not_mem_nil, false_imp_iff, implies_true, and_true] at hc
  obtain ⟨b0, b1⟩ := iMeeus_bounds (n + 1721423)
  refine ⟨(iLookup (n + 1721423) iMeeusTable).toNat, by omega, fun a b => ?_, ?_⟩
  · simp only [iMeeusTable, iLookup]
    repeat rw [if_neg (by omega)]
    rw [if_pos (by omega)]
    rfl
  have e1 : iLookup (n + 1721423 + 1) iMeeusTable = iLookup (n + 1721423) iMeeusTable := iLookup_succ (by
    simp only [iMeeusTable, List.forall_mem_cons, List.not_mem_nil, false_imp_iff, implies_true, and_true]
    omega)
  have e2 : iLookup (n + 1721423 + 1 + 1) iMeeusTable = iLookup (n + 1721423 + 1) iMeeusTable := iLookup_succ (by
    simp only [iMeeusTable, List.forall_mem_cons, List.not_mem_nil, false_imp_iff, implies_true, and_true]
    omega)
  intro x x0 x1
  have f0 : n + 1721423 ≤ ⌊x + 1 / 2⌋ := by rw [Int.le_floor]; push_cast; linarith
  have f1 : ⌊x + 1 / 2⌋ < n + 1721423 + 3 := by rw [Int.floor_lt]; push_cast; linarith
  rw [meeus_floor, if_neg (by omega)]
  have hk : iLookup ⌊x + 1 / 2⌋ iMeeusTable = iLookup (n + 1721423) iMeeusTable := by
    rcases (by omega : ⌊x + 1 / 2⌋ = n + 1721423 ∨ ⌊x + 1 / 2⌋ = n + 1721423 + 1 ∨ ⌊x + 1 / 2⌋ = n + 1721423 + 1 + 1) with e | e | e <;>
      rw [e]
    · exact e1
    · rw [e2, e1]
  rw [hk]
  have : (((iLookup (n + 1721423) iMeeusTable).toNat : ℕ) : ℚ) = ((iLookup (n + 1721423) iMeeusTable : ℤ) : ℚ) := by
    have := Int.toNat_of_nonneg b0
    exact_mod_cast this
  rw [this]

/-- The sun sets in Greenwich on every day of the era, and on successive days at times less than three minutes apart. -/
def GreenwichSteady (A : Astro) : Prop :=
  ∀ D : ℤ, eraFirst ≤ D → D ≤ eraLast → 0 ≤ sunsetTime A gmtLat gmtLon D ∧ sunsetTime A gmtLat gmtLon D ≤ 1 ∧
    |sunsetTime A gmtLat gmtLon (D + 1) - sunsetTime A gmtLat gmtLon D| ≤ 1 / 480

theorem lonG_abs : |fl (gmtLon / 360)| ≤ 1 / 2 := by decide +kernel

theorem lonG_small : |fl (gmtLon / 360)| ≤ 1 / 20000 := by decide +kernel

/-- `midday` is half the time between two successive sunsets in Greenwich. -/
theorem midday_value {C : Cal} {b : ShortT} {jd : ℚ} (hj : C.jdFromBadiDateDefault b = .ok jd)
    (hf : IsF64 jd) {k : ℕ} (hk : k ≤ 12) (j0 : 1721424 ≤ jd) (j1 : jd ≤ 2819000) (hA : OneBinade jd (jd + 1))
    (hB : OneBinade (jd + k - 1 / 10000) (jd + k + 17 / 10))
    (m0 : meeusFromExact jd = .ok (fl (jd + k))) (m1 : meeusFromExact (jd + 1) = .ok (fl (jd + 1 + k)))
    {D : ℤ} (hD : civilDay (fl (jd + k)) (fl (gmtLon / 360)) = D)
    (hs : 0 ≤ sunsetTime C.astro gmtLat gmtLon D ∧ sunsetTime C.astro gmtLat gmtLon D ≤ 1)
    (ht : 0 ≤ sunsetTime C.astro gmtLat gmtLon (D + 1) ∧ sunsetTime C.astro gmtLat gmtLon (D + 1) ≤ 1)
    (hd : |sunsetTime C.astro gmtLat gmtLon (D + 1) - sunsetTime C.astro gmtLat gmtLon D| ≤ 1 / 480) :
    ∃ mid, C.midday b = .ok mid ∧
      |mid - (1 + sunsetTime C.astro gmtLat gmtLon (D + 1) - sunsetTime C.astro gmtLat gmtLon D) / 2| ≤ 1 / 100000000 := by
  have kq : (0 : ℚ) ≤ k ∧ (k : ℚ) ≤ 12 := ⟨Nat.cast_nonneg k, by exact_mod_cast hk⟩
  have f1 : fl (jd + 1) = jd + 1 := by rw [fl_add_one hA, hf]
  have f3 : fl (jd + 1 + k) = fl (jd + k) + 1 := by
    rw [show jd + 1 + k = jd + k + 1 by ring, fl_add_one (hB.sub (by linarith) (by linarith))]
  have f4 := abs_le.mp (fl_err_le (x := jd + k) (B := 4194304) (abs_le.mpr ⟨by linarith, by linarith⟩))
  obtain ⟨c0, c1⟩ := civilDay_bounds lonG_abs (x := fl (jd + k)) (by linarith) (by linarith)
  rw [hD] at c0 c1
  have d0 : eraFirst ≤ D := by
    have : ((1721000 : ℤ) : ℚ) ≤ (D : ℚ) := by push_cast; linarith
    exact_mod_cast this
  have d1 : D + 1 ≤ eraLast := by
    have : ((D + 1 : ℤ) : ℚ) ≤ ((2820000 : ℤ) : ℚ) := by push_cast; linarith
    exact_mod_cast this
  obtain ⟨-, p⟩ := ssOf_spec lonG_abs d0 (by omega) hs
  obtain ⟨-, q⟩ := ssOf_spec lonG_abs (by omega) d1 ht
  have e2 : ∀ a b' : ℚ, a = ssOf C.astro gmtLat gmtLon D → b' = ssOf C.astro gmtLat gmtLon (D + 1) →
      C.midday b = localZoneCorrection (fl (fl (b' - a) / 2)) (some 0) none := by
    rintro a b' rfl rfl
    unfold Cal.midday
    rw [hj, pyOk_bind, m0, pyOk_bind, f1, m1, pyOk_bind, sunSetting_eq, sunSetting_eq,
      f3, civilDay_succ lonG_small (hB.sub (by linarith) (by linarith)), hD]
  replace e2 := e2 _ _ rfl rfl
  set a := ssOf C.astro gmtLat gmtLon D
  set b' := ssOf C.astro gmtLat gmtLon (D + 1)
  replace p := abs_le.mp p
  replace q := abs_le.mp q
  replace hd := abs_le.mp hd
  push_cast at q
  have g1 := abs_le.mp (fl_err_le (x := b' - a) (B := 2) (abs_le.mpr ⟨by linarith, by linarith⟩))
  have g2 := abs_le.mp (fl_err_le (x := fl (b' - a) / 2) (B := 2) (abs_le.mpr ⟨by linarith, by linarith⟩))
  set x := fl (fl (b' - a) / 2) with hx
  have x0 : 0 ≤ x := by linarith
  have x1 : x < 1 := by linarith
  have e0 : fl (x + fl (0 / 24)) = x := by
    have : fl (0 / 24) = 0 := by decide +kernel
    rw [this, add_zero, hx, fl_idem]
  have e1 : pyMod1 x = x := by
    rw [pyMod1_of_nonneg x0, Int.fract_eq_self.mpr ⟨x0, x1⟩]
  have r := abs_le.mp (pyRound_err x 12)
  rw [abs_of_nonneg x0] at r
  refine ⟨pyRound x 12, ?_, ?_⟩
  · rw [e2]
    unfold localZoneCorrection
    simp only []
    rw [pyAssert_true (by norm_num), pyOk_bind,
      show pyAssert ((some (0 : ℚ)).isSome || (none : Option ℚ).isSome) = .ok () from rfl, pyOk_bind]
    simp only [Bool.false_eq_true, if_false]
    rw [e0, e1]
  · rw [abs_le]
    constructor <;> norm_num at r ⊢ <;> linarith

theorem clockDay_binade {n : ℤ} (hn : ClockDay n) {k : ℕ} (hk : k ≤ 12) (h8 : 375700 ≤ n → n ≤ 375740 → k = 8) {x : ℚ}
    (x0 : (n : ℚ) + 1721423 ≤ x) (x1 : x ≤ n + 1721423 + 5 / 4) (x2 : x ≤ 2819000) :
    OneBinade x (x + 1) ∧ OneBinade (x + k - 1 / 10000) (x + k + 17 / 10) := by
  obtain ⟨h0, -, -, h⟩ := hn
  simp only [List.forall_mem_cons, List.not_mem_nil, false_imp_iff, implies_true, and_true] at h
  have q0 : (78 : ℚ) ≤ n := by exact_mod_cast h0
  have kq : (0 : ℚ) ≤ k ∧ (k : ℚ) ≤ 12 := ⟨Nat.cast_nonneg k, by exact_mod_cast hk⟩
  constructor
  · rcases (by omega : n ≤ 375726 ∨ 375729 ≤ n) with h | h
    · have q : (n : ℚ) ≤ 375726 := by exact_mod_cast h
      exact Or.inr ⟨by linarith, by linarith⟩
    · have q : (375729 : ℚ) ≤ n := by exact_mod_cast h
      exact Or.inl ⟨by linarith, by linarith⟩
  · rcases (by omega : n < 375700 ∨ 375740 < n ∨ (375700 ≤ n ∧ n ≤ 375740)) with h' | h' | ⟨h', h''⟩
    · have q : (n : ℚ) ≤ 375700 := by exact_mod_cast h'.le
      exact Or.inr ⟨by linarith, by linarith⟩
    · have q : (375740 : ℚ) ≤ n := by exact_mod_cast h'.le
      exact Or.inl ⟨by linarith, by linarith⟩
    · have e : (k : ℚ) = 8 := by exact_mod_cast h8 h' h''
      rw [e]
      rcases (by omega : n ≤ 375718 ∨ 375722 ≤ n) with h | h
      · have q : (n : ℚ) ≤ 375718 := by exact_mod_cast h
        exact Or.inr ⟨by linarith, by linarith⟩
      · have q : (375722 : ℚ) ≤ n := by exact_mod_cast h
        exact Or.inl ⟨by linarith, by linarith⟩

theorem midday_day {C : Cal} (hG : GreenwichSteady C.astro) {b : ShortT} {jd : ℚ} (hj : C.jdFromBadiDateDefault b = .ok jd)
    (hf : IsF64 jd) {n : ℤ} (hn : ClockDay n) (j0 : (n : ℚ) + 1721423 ≤ jd) (j1 : jd ≤ n + 1721423 + 5 / 4) (j2 : jd ≤ 2819000) :
    ∃ mid, C.midday b = .ok mid ∧ |mid - 1 / 2| ≤ 1 / 960 + 1 / 100000000 := by
  obtain ⟨k, hk, h8, hm⟩ := meeus_same hn
  obtain ⟨hA, hB⟩ := clockDay_binade hn hk h8 j0 j1 j2
  have kq : (0 : ℚ) ≤ k ∧ (k : ℚ) ≤ 12 := ⟨Nat.cast_nonneg k, by exact_mod_cast hk⟩
  have nq : (78 : ℚ) ≤ n := by exact_mod_cast hn.1
  have f4 := abs_le.mp (fl_err_le (x := jd + k) (B := 4194304) (abs_le.mpr ⟨by linarith, by linarith⟩))
  obtain ⟨c0, c1⟩ := civilDay_bounds lonG_abs (x := fl (jd + k)) (by linarith) (by linarith)
  have d0 : eraFirst ≤ civilDay (fl (jd + k)) (fl (gmtLon / 360)) := by
    have : ((1721000 : ℤ) : ℚ) ≤ (civilDay (fl (jd + k)) (fl (gmtLon / 360)) : ℚ) := by push_cast; linarith
    exact_mod_cast this
  have d1 : civilDay (fl (jd + k)) (fl (gmtLon / 360)) + 1 ≤ eraLast := by
    have : ((civilDay (fl (jd + k)) (fl (gmtLon / 360)) + 1 : ℤ) : ℚ) ≤ ((2820000 : ℤ) : ℚ) := by push_cast; linarith
    exact_mod_cast this
  obtain ⟨s0, s1, s2⟩ := hG _ d0 (by omega)
  obtain ⟨t0, t1, -⟩ := hG _ (by omega) d1
  obtain ⟨mid, e, h⟩ := midday_value hj hf hk (by linarith) j2 hA hB (hm _ j0 (by linarith))
    (hm _ (by linarith) (by linarith)) rfl ⟨s0, s1⟩ ⟨t0, t1⟩ s2
  refine ⟨mid, e, ?_⟩
  have h := abs_le.mp h
  have s2 := abs_le.mp s2
  rw [abs_le]
  constructor <;> linarith

theorem clockDay_notin {n : ℤ} (hn : ClockDay n) : n + 1721423 ∉ badDays := by
  obtain ⟨-, hc, hr, -⟩ := hn
  simp only [List.forall_mem_cons, List.not_mem_nil, false_imp_iff, implies_true, and_true] at hc
  simp only [badDays, changeDays, List.cons_append, List.nil_append, List.mem_cons, List.not_mem_nil, or_false, not_or]
  omega

/-- The Julian day of a date with a time of day. -/
theorem jd_day {A : Astro} (hE : TehranEvening A) {y m d n h mi s : ℤ} {t : List ℚ} (hd : DayNumber (Cal.init A) y m d n)
    (hn : 78 ≤ n) (hb : n + 1721423 ∉ badDays) (g : getHms t = ((h : ℚ), (mi : ℚ), (s : ℚ), 0)) (h0 : 0 ≤ h) (h1 : h ≤ 23) (mi0 : 0 ≤ mi) (mi1 : mi ≤ 59)
    (s0 : 0 ≤ s) (s1 : s ≤ 59) :
    ∃ f jd, decimalDayFromHms h mi s 0 = .ok f ∧ |f - (3600 * h + 60 * mi + s) / 86400| ≤ 1 / 100000000000000 ∧
      (Cal.init A).jdFromBadiDateDefault ⟨y, m, d, t⟩ = .ok jd ∧ IsF64 jd ∧
      |jd - (ssE A (n + 1721423) + f)| ≤ 1 / 100000000 ∧ (n : ℚ) + 1721423 ≤ jd ∧ jd ≤ n + 1721423 + 5 / 4 ∧ jd ≤ 2819000 := by
  obtain ⟨y0, y1, hv, -⟩ := (dayNumber_iff hE).mp hd
  obtain ⟨-, -, -, n1⟩ := dayNumber_year hE hd
  have n2 : n < 1097268 := by
    have := ysInt_mono (a := y + 1) (b := 1162) (by omega) (by omega) (by omega)
    rw [ysInt_1162] at this
    omega
  have g' : getHms t = getHms [(h : ℚ), (mi : ℚ), (s : ℚ), ((0 : ℤ) : ℚ)] := by rw [g]; simp [getHms]
  have hchk : (Cal.init A).checkShort ⟨y, m, d, t⟩ = .ok () := by
    have := checkShort_time (rest := []) (init_isLeap hE y0 y1) y0 (by omega) hv h0 (by omega) mi0 mi1 s0 s1 (le_refl 0) (by norm_num)
    unfold Cal.checkShort at this ⊢
    rw [← checkTail_getHms g'] at this
    exact this
  have q1 : (s : ℚ) < 60 := by exact_mod_cast (by omega : s < 60)
  have q0 : (0 : ℚ) ≤ s := by exact_mod_cast s0
  obtain ⟨f, ef, f0, f1⟩ := decimalDay_err h0 (by omega : h ≤ 24) mi0 (by omega : mi < 60) q0 q1
  have hj := date_jd_time hE hd hb hchk
  rw [g] at hj
  simp only at hj
  rw [ef, pyOk_bind] at hj
  obtain ⟨-, w0, w1⟩ := ssE_bounds hE (P := n + 1721423) (by omega) (by omega)
  push_cast at w0 w1
  have nq0 : (78 : ℚ) ≤ n := by exact_mod_cast hn
  have nq1 : (n : ℚ) ≤ 1097268 := by exact_mod_cast (by omega : n ≤ 1097268)
  have hq : (h : ℚ) ≤ 23 := by exact_mod_cast h1
  have mq : (mi : ℚ) ≤ 59 := by exact_mod_cast mi1
  have f2 := abs_le.mp f1
  have e1 := abs_le.mp (fl_err_le (x := ssE A (n + 1721423) + f) (B := 4194304) (abs_le.mpr ⟨by linarith, by linarith⟩))
  have e2 := abs_le.mp (pyRound_err (fl (ssE A (n + 1721423) + f)) 12)
  rw [abs_of_nonneg (by linarith)] at e2
  norm_num at e2
  refine ⟨f, _, ef, f1, hj, isF64_fl _, ?_, ?_, ?_, ?_⟩
  · rw [abs_le]; constructor <;> linarith
  · linarith
  · have sq : (s : ℚ) ≤ 59 := by exact_mod_cast s1
    linarith
  · linarith

theorem findMidday_ok {A : Astro} (hE : TehranEvening A) (hG : GreenwichSteady A) {d : DateObj} {n h mi s w yd : ℤ}
    (hd : IsDay (Cal.init A) d n) (hn : ClockDay n) (h0 : 0 ≤ h) (h1 : h ≤ 23) (mi0 : 0 ≤ mi) (mi1 : mi ≤ 59)
    (s0 : 0 ≤ s) (s1 : s ≤ 59) :
    ∃ f mid, decimalDayFromHms h mi s 0 = .ok f ∧ |f - (3600 * h + 60 * mi + s) / 86400| ≤ 1 / 100000000000000 ∧
      (Cal.init A).findMidday (tupOf d h mi s w yd) = .ok mid ∧ |mid - 1 / 2| ≤ 1 / 960 + 1 / 100000000 := by
  cases d with
  | short y m dd =>
    obtain ⟨f, jd, ef, hf, ej, hj, -, j0, j1, j2⟩ := jd_day (t := [(h : ℚ), (mi : ℚ), (s : ℚ)]) hE hd hn.1 (clockDay_notin hn) (by simp [getHms]) h0 h1
      mi0 mi1 s0 s1
    obtain ⟨mid, em, hm⟩ := midday_day hG ej hj hn j0 j1 j2
    exact ⟨f, mid, ef, hf, em, hm⟩
  | long k v y m dd =>
    obtain ⟨y2, hden, hd2⟩ := hd
    obtain ⟨y0, y1, hv, -⟩ := (dayNumber_iff hE).mp hd2
    obtain ⟨c, hcy, c1, c2, c3, c4⟩ := cycleOf_valid (init_isLeap hE y0 y1) hv
    have ht : (Cal.init A).checkTail y2 m dd [(h : ℚ), (mi : ℚ), (s : ℚ)] = .ok () :=
      checkTail_hms c3 c4 hcy c1 (by omega) h0 (by omega) mi0 (by omega)
        (by exact_mod_cast s0) (by exact_mod_cast (by omega : s < 60))
    have hs := shortFromLong_ok true hden y0 (by omega) ht
      (by change (h : ℚ) < 24; exact_mod_cast (by omega : h < 24))
    obtain ⟨f, jd, ef, hf, ej, hj, -, j0, j1, j2⟩ := jd_day (t := trimHms [(h : ℚ), (mi : ℚ), (s : ℚ), 0]) hE hd2 hn.1 (clockDay_notin hn)
      (by rw [getHms_trim]; simp [getHms]) h0 h1 mi0 mi1 s0 s1
    obtain ⟨mid, em, hm⟩ := midday_day hG ej hj hn j0 j1 j2
    refine ⟨f, mid, ef, hf, ?_, hm⟩
    unfold Cal.findMidday tupOf
    simp only [Bool.false_eq_true, if_false]
    rw [hs, pyOk_bind]
    simp only [if_true]
    exact em

theorem tupOf_clock (d : DateObj) (h mi s w yd : ℤ) : (tupOf d h mi s w yd).hour = h ∧ (tupOf d h mi s w yd).min = mi ∧
    (tupOf d h mi s w yd).sec = s := by
  cases d <;> simp [tupOf]

theorem halfDay {A : Astro} (hE : TehranEvening A) (hG : GreenwichSteady A) {d : DateObj} {n h mi s w yd : ℤ}
    (hd : IsDay (Cal.init A) d n) (hn : ClockDay n) (h0 : 0 ≤ h) (h1 : h ≤ 23) (mi0 : 0 ≤ mi) (mi1 : mi ≤ 59)
    (s0 : 0 ≤ s) (s1 : s ≤ 59) (hh : 3600 * h + 60 * mi + s < 43080 ∨ 43320 ≤ 3600 * h + 60 * mi + s) :
    (Cal.init A).afterMidday (tupOf d h mi s w yd) = .ok (decide (12 ≤ h)) := by
  obtain ⟨f, mid, ef, hf, em, hm⟩ := findMidday_ok (w := w) (yd := yd) hE hG hd hn h0 h1 mi0 mi1 s0 s1
  obtain ⟨t1, t2, t3⟩ := tupOf_clock d h mi s w yd
  unfold Cal.afterMidday
  rw [em, pyOk_bind, t1, t2, t3, ef, pyOk_bind]
  have hf := abs_le.mp hf
  have hm := abs_le.mp hm
  congr 1
  rw [decide_eq_decide]
  rcases hh with hh | hh
  · have q : (3600 * h + 60 * mi + s : ℚ) ≤ 43079 := by exact_mod_cast (by omega : 3600 * h + 60 * mi + s ≤ 43079)
    constructor
    · intro h; exfalso; linarith
    · intro h; omega
  · have q : (43320 : ℚ) ≤ 3600 * h + 60 * mi + s := by exact_mod_cast hh
    constructor
    · intro h; omega
    · intro h; linarith

theorem clock_text {A : Astro} (hE : TehranEvening A) (hO : NewYearOrder (Cal.init A)) (hG : GreenwichSteady A)
    (L : Locale) {x : DT} {n : ℤ} (z : Option TzInfo) (hx : IsDT (Cal.init A) x n) (hc : OrdinaryClock x)
    (hn : ClockDay n) (hh : 3600 * x.h + 60 * x.mi + x.s < 43080 ∨ 43320 ≤ 3600 * x.h + 60 * x.mi + x.s) :
    (Cal.init A).datetimeStrftime L x z "%I".toList = .ok (padInt 2 (x.h % 12)) ∧
      (Cal.init A).datetimeStrftime L x z "%p".toList = .ok (if x.h < 12 then L.am else L.pm) := by
  obtain ⟨a0, a1, a2, a3, a4, a5, a6, a7, -⟩ := hx.time
  simp only [DT.timetz] at a0 a1 a2 a3 a4 a5 a6 a7
  obtain ⟨c1, c2⟩ := hc
  have hy : YearShown x.d := by
    cases hd : x.d with
    | long k v y m d => trivial
    | short y m d =>
      have := hx.day
      rw [hd] at this
      obtain ⟨y0, -, n0, n1⟩ := dayNumber_year hE this
      change -1842 ≤ y
      by_contra hlt
      have : y = -1843 := by omega
      subst this
      have : ysInt (-1843 + 1) = 78 := ysInt_m1842
      have := hn.1
      omega
  have key : ∀ w yd, (Cal.init A).afterMidday (tupOf x.d x.h x.mi x.s w yd) = .ok (decide (12 ≤ x.h)) := fun w yd =>
    halfDay hE hG hx.day hn a0 c1 a2 a3 a4 c2 hh
  obtain ⟨w, yd, -, -, ei⟩ := datetimeStrftime_eq hE hO hx (Or.inr ⟨c1, c2⟩) hy L z ['%', 'I']
  obtain ⟨w', yd', -, -, ep⟩ := datetimeStrftime_eq hE hO hx (Or.inr ⟨c1, c2⟩) hy L z ['%', 'p']
  rw [wrap_one _ (by decide), strftimeWith_one _ (by decide)] at ei ep
  have ei' : (Cal.init A).datetimeStrftime L x z ['%', 'I'] = (Cal.init A).dirI (tupOf x.d x.h x.mi x.s w yd) 'I' none := ei
  have ep' : (Cal.init A).datetimeStrftime L x z ['%', 'p'] = (Cal.init A).dirP L (tupOf x.d x.h x.mi x.s w' yd') := ep
  have hmod : (if decide (12 ≤ x.h) = true then x.h - 12 else x.h) = x.h % 12 := by
    simp only [decide_eq_true_eq]
    split_ifs <;> omega
  refine ⟨?_, ?_⟩
  · rw [show "%I".toList = ['%', 'I'] by decide, ei']
    unfold Cal.dirI Cal.hour12
    rw [key, pyOk_bind, pyOk_bind, if_neg (by decide), if_neg (by decide), (tupOf_clock _ _ _ _ _ _).1, hmod]
  · rw [show "%p".toList = ['%', 'p'] by decide, ep']
    unfold Cal.dirP
    rw [key, pyOk_bind]
    congr 1
    simp only [decide_eq_true_eq]
    split_ifs <;> first | rfl | omega

/-- C69: on every day of `ClockDay`, `%I` and `%p` of any datetime in either form are the hour in the half of the day, and
the half, unless the clock is within two minutes of noon. Missing from the full property: the hour 12 in place of 0
and the minutes around noon, where it is false (below), and the first year and the 41 days left out by `ClockDay`. -/
theorem C69_clock_partial (A : Astro) (hE : TehranEvening A) (hO : NewYearOrder (Cal.init A)) (hG : GreenwichSteady A)
    (L : Locale) (x : DT) (n : ℤ) (z : Option TzInfo) (hx : IsDT (Cal.init A) x n) (hc : OrdinaryClock x)
    (hn : ClockDay n) (hh : 3600 * x.h + 60 * x.mi + x.s < 43080 ∨ 43320 ≤ 3600 * x.h + 60 * x.mi + x.s) :
    ∃ si, (Cal.init A).datetimeStrftime L x z "%I".toList = .ok si ∧ intOf si = .ok (x.h % 12) ∧ si.length = 2 ∧
      (Cal.init A).datetimeStrftime L x z "%p".toList = .ok (if x.h < 12 then L.am else L.pm) := by
  obtain ⟨e1, e2⟩ := clock_text hE hO hG L z hx hc hn hh
  exact ⟨_, e1, (padInt_text _ _).2.2, padInt_two (by omega) (by omega), e2⟩

theorem order_congr {A B : Astro} (hA : TehranEvening A) (hB : TehranEvening B)
    (h : ∀ j, A.setFrac j tehranLat tehranLon = B.setFrac j tehranLat tehranLon) (o : NewYearOrder (Cal.init B)) :
    NewYearOrder (Cal.init A) := by
  intro y j0 j h0 h1
  have ss : ∀ D, ssOf A tehranLat tehranLon D = ssOf B tehranLat tehranLon D := by
    intro D
    unfold ssOf
    simp only [sunsetTime, h]
  have hy : -1843 ≤ y ∧ y ≤ 1162 := by
    unfold Cal.jdFromBadiDateDefault Cal.jdFromBadiDate at h1
    cases hc : (Cal.init A).checkShort ⟨y, 1, 1, []⟩ with
    | error e => rw [hc, pyErr_bind] at h1; cases h1
    | ok u => have := checkShort_inv hc; exact ⟨this.1, this.2.1⟩
  refine o y j0 j ?_ ?_
  · rw [base_jd hA] at h0
    rw [base_jd hB, ← h0]
    unfold ssE
    rw [ss]
  · rw [nr_jd (C := Cal.init A) hA hy.1 hy.2] at h1
    rw [nr_jd (C := Cal.init B) hB hy.1 hy.2, ← h1]
    change Except.ok (nrJd B y) = Except.ok (nrJd A y)
    unfold nrJd
    rw [ss]

/-- Sunset at 18:14:24 on every day in Greenwich, and as in `newYearSun` elsewhere. -/
def greenwichSun : Astro := ⟨fun j lat lon => if lat = gmtLat then 76 / 100 else newYearSun.setFrac j lat lon⟩

theorem greenwichSun_at (j : ℚ) : greenwichSun.setFrac j tehranLat tehranLon = newYearSun.setFrac j tehranLat tehranLon := by
  have : tehranLat ≠ gmtLat := by decide +kernel
  simp [greenwichSun, this]

theorem greenwichSun_tehran : TehranEvening greenwichSun := by
  intro D h0 h1
  have := newYearSun_tehran D h0 h1
  unfold sunsetTime at this ⊢
  rw [greenwichSun_at]
  exact this

theorem greenwichSun_order : NewYearOrder (Cal.init greenwichSun) :=
  order_congr greenwichSun_tehran newYearSun_tehran greenwichSun_at newYearSun_order

theorem greenwichSun_steady : GreenwichSteady greenwichSun := by
  have all : ∀ D : ℤ, sunsetTime greenwichSun gmtLat gmtLon D = 76 / 100 := by
    intro D
    unfold sunsetTime greenwichSun
    simp
  intro D h0 h1
  rw [all, all]
  norm_num

theorem greenwichSun_day {y m d n : ℤ} (h : DayNumber (Cal.init newYearSun) y m d n) : DayNumber (Cal.init greenwichSun) y m d n :=
  (dayNumber_iff greenwichSun_tehran).mpr ((dayNumber_iff newYearSun_tehran).mp h)

theorem greenwichSun_dt (tz : Option Tz) {fold : ℤ} (h : fold = 0 ∨ fold = 1) :
    IsDT (Cal.init greenwichSun) (witnessDT tz fold) 739675 :=
  ⟨greenwichSun_day (witnessDT_is tz h).day, (witnessDT_is tz h).time⟩

/-- The evening of the last day of Ayyám-i-Há in year 182, in Tehran. -/
example : ∃ (A : Astro) (x : DT) (n : ℤ), TehranEvening A ∧ NewYearOrder (Cal.init A) ∧ GreenwichSteady A ∧
    IsDT (Cal.init A) x n ∧ OrdinaryClock x ∧ ClockDay n ∧ 43320 ≤ 3600 * x.h + 60 * x.mi + x.s :=
  ⟨greenwichSun, witnessDT none 0, 739675, greenwichSun_tehran, greenwichSun_order, greenwichSun_steady, greenwichSun_dt _ (Or.inl rfl),
    by unfold OrdinaryClock witnessDT; simp, by unfold ClockDay; decide, by unfold witnessDT; norm_num⟩

/-- The afternoon of the first day of year -500, before the Gregorian reform. -/
example : IsDT (Cal.init greenwichSun) ⟨.short (-500) 1 1, 15, 30, 0, 0, none, 0⟩ 490234 ∧ ClockDay 490234 :=
  ⟨⟨(dayNumber_iff greenwichSun_tehran).mpr
    ⟨by omega, by omega, Or.inl ⟨by omega, by omega, by omega, by omega⟩, by decide +kernel⟩,
    by simp only [DT.timetz]; exact ⟨by norm_num, by norm_num, by norm_num, by norm_num, by norm_num, by norm_num, by norm_num,
    by norm_num, Or.inl rfl⟩⟩, by unfold ClockDay; decide⟩

/-- C69: whenever `%I` and `%p` give a text, the hour is the number of `%I`, plus 12 in the second half of the day. -/
theorem C69_recombine (C : Cal) (L : Locale) (hL : L.am ≠ L.pm) (s : Struct) (si sp : Str)
    (hi : C.strftimeStruct L "%I".toList s = .ok si) (hp : C.strftimeStruct L "%p".toList s = .ok sp) :
    ∃ h, intOf si = .ok h ∧ (sp = L.am ∨ sp = L.pm) ∧ (sp = L.am → s.tup.hour = h) ∧ (sp = L.pm → s.tup.hour = h + 12) := by
  have hck : C.checktm s.tup = .ok () := by
    cases h : C.checktm s.tup with
    | ok u => rfl
    | error e =>
      unfold Cal.strftimeStruct at hi
      rw [h] at hi
      split at hi
      · cases hi
      · cases hi
  rw [strftimeStruct_eq C L _ hck, show "%I".toList = ['%', 'I'] by decide, strftimeWith_one _ (by decide)] at hi
  rw [strftimeStruct_eq C L _ hck, show "%p".toList = ['%', 'p'] by decide, strftimeWith_one _ (by decide)] at hp
  have hi' : C.dirI s.tup 'I' none = .ok si := hi
  have hp' : C.dirP L s.tup = .ok sp := hp
  unfold Cal.dirI Cal.hour12 at hi'
  unfold Cal.dirP at hp'
  cases h : C.afterMidday s.tup with
  | error e => rw [h] at hp'; cases hp'
  | ok b =>
    rw [h, pyOk_bind] at hp'
    rw [h, pyOk_bind, pyOk_bind] at hi'
    cases hp'
    rw [if_neg (by decide), if_neg (by decide)] at hi'
    cases hi'
    refine ⟨_, (padInt_text _ _).2.2, ?_⟩
    cases b with
    | true => exact ⟨Or.inr rfl, fun h => absurd h.symm hL, fun _ => by simp⟩
    | false => exact ⟨Or.inl rfl, fun _ => rfl, fun h => absurd h hL⟩

/-- The evening of the last day of Ayyám-i-Há in year 182. -/
example : ∃ (C : Cal) (L : Locale) (s : Struct) (si sp : Str), L.am ≠ L.pm ∧ C.strftimeStruct L "%I".toList s = .ok si ∧
    C.strftimeStruct L "%p".toList s = .ok sp := by
  let L : Locale := localeOf "AM".toList "PM".toList "%m/%d/%y".toList ':' true
  obtain ⟨e1, e2⟩ := clock_text greenwichSun_tehran greenwichSun_order greenwichSun_steady L none
    (greenwichSun_dt none (fold := 0) (Or.inl rfl)) (by unfold OrdinaryClock witnessDT; simp) (by unfold ClockDay; decide)
    (by unfold witnessDT; norm_num)
  unfold Cal.datetimeStrftime at e1 e2
  cases h : (Cal.init greenwichSun).dtTimetuple (witnessDT none 0) none with
  | error e => rw [h] at e1; cases e1
  | ok s =>
    rw [h, pyOk_bind] at e1 e2
    exact ⟨_, L, s, _, _, by decide, e1, e2⟩

/-- C69: the first hour after noon is shown as 00, not as 12. -/
theorem C69_noon_negation (A : Astro) (hE : TehranEvening A) (hO : NewYearOrder (Cal.init A)) (hG : GreenwichSteady A)
    (L : Locale) (x : DT) (n : ℤ) (z : Option TzInfo) (hx : IsDT (Cal.init A) x n) (hc : OrdinaryClock x)
    (hn : ClockDay n) (hh : x.h = 12) (hm : 2 ≤ x.mi) :
    (Cal.init A).datetimeStrftime L x z "%I".toList = .ok "00".toList := by
  obtain ⟨-, -, -, -, a4, -⟩ := hx.time
  simp only [DT.timetz] at a4
  have := (clock_text hE hO hG L z hx hc hn (Or.inr (by omega))).1
  rw [this, hh]
  decide

/-- Half past twelve on the last day of Ayyám-i-Há in year 182. -/
example : IsDT (Cal.init greenwichSun) ⟨.short 182 0 5, 12, 30, 0, 0, none, 0⟩ 739675 ∧
    OrdinaryClock ⟨.short 182 0 5, 12, 30, 0, 0, none, 0⟩ ∧ ClockDay 739675 :=
  ⟨⟨greenwichSun_day witness_days.1, by simp only [DT.timetz]; exact ⟨by norm_num, by norm_num, by norm_num, by norm_num, by norm_num, by norm_num, by norm_num,
    by norm_num, Or.inl rfl⟩⟩, by simp [OrdinaryClock], by unfold ClockDay; decide⟩

/-- Sunset at Greenwich two minutes earlier from one day on: the civil day 2460837. -/
def earlierSun : Astro := ⟨fun j lat lon =>
  if lat = gmtLat ∧ 2460837 < j then 76 / 100 - 1 / 720 else greenwichSun.setFrac j lat lon⟩

theorem earlierSun_at (j : ℚ) : earlierSun.setFrac j tehranLat tehranLon = newYearSun.setFrac j tehranLat tehranLon := by
  have : tehranLat ≠ gmtLat := by decide +kernel
  simp [earlierSun, this, greenwichSun_at]

theorem earlierSun_tehran : TehranEvening earlierSun := by
  intro D h0 h1
  have := newYearSun_tehran D h0 h1
  unfold sunsetTime at this ⊢
  rw [earlierSun_at]
  exact this

theorem midnightG {D : ℤ} (h0 : 1721000 ≤ D) (h1 : D ≤ 2820001) :
    (D : ℚ) - 1 < localMidnight gmtLon D ∧ localMidnight gmtLon D < D := by
  have q0 : (1721000 : ℚ) ≤ D := by exact_mod_cast h0
  have q1 : (D : ℚ) ≤ 2820001 := by exact_mod_cast h1
  have l : -(1 / 100000) ≤ fl (gmtLon / 360) ∧ fl (gmtLon / 360) ≤ 0 := by decide +kernel
  unfold localMidnight
  have e0 := abs_le.mp (fl_err_le (x := (D : ℚ) - 1 / 2) (B := 4194304) (abs_le.mpr ⟨by linarith, by linarith⟩))
  have e1 := abs_le.mp (fl_err_le (x := fl ((D : ℚ) - 1 / 2) - fl (gmtLon / 360)) (B := 4194304)
    (abs_le.mpr ⟨by linarith, by linarith⟩))
  constructor <;> linarith

theorem earlierSun_time {D : ℤ} (h0 : 1721000 ≤ D) (h1 : D ≤ 2820001) :
    sunsetTime earlierSun gmtLat gmtLon D = if 2460838 ≤ D then 76 / 100 - 1 / 720 else 76 / 100 := by
  obtain ⟨a, b⟩ := midnightG h0 h1
  unfold sunsetTime earlierSun
  simp only [true_and]
  by_cases c : 2460838 ≤ D
  · have q : (2460838 : ℚ) ≤ D := by exact_mod_cast c
    rw [if_pos (by linarith), if_pos c]
  · have q : (D : ℚ) ≤ 2460837 := by exact_mod_cast (by omega : D ≤ 2460837)
    have q0 : (1721000 : ℚ) ≤ D := by exact_mod_cast h0
    rw [if_neg (by linarith), if_neg c]
    unfold greenwichSun
    simp

theorem earlierSun_steady : GreenwichSteady earlierSun := by
  intro D h0 h1
  have e : eraLast = 2820000 := rfl
  have e0 : eraFirst = 1721000 := rfl
  rw [earlierSun_time (by omega) (by omega), earlierSun_time (by omega) (by omega)]
  rw [abs_le]
  split_ifs <;> norm_num

/-- C69: half a minute before noon can be shown as -1, in the second half of the day: midday is half way between two
sunsets of Greenwich, which is before 12:00 when the days grow shorter. -/
theorem C69_before_noon_negation (L : Locale) (z : Option TzInfo) :
    ∃ (A : Astro) (x : DT) (n : ℤ), TehranEvening A ∧ NewYearOrder (Cal.init A) ∧ GreenwichSteady A ∧
      IsDT (Cal.init A) x n ∧ OrdinaryClock x ∧ ClockDay n ∧ (x.h = 11 ∧ x.mi = 59 ∧ x.s = 30) ∧
      (Cal.init A).datetimeStrftime L x z "%I".toList = .ok "-1".toList ∧
      (Cal.init A).datetimeStrftime L x z "%p".toList = .ok L.pm := by
  have hE := earlierSun_tehran
  have hO : NewYearOrder (Cal.init earlierSun) := order_congr hE newYearSun_tehran earlierSun_at newYearSun_order
  have hd : DayNumber (Cal.init earlierSun) 182 5 7 739411 := (dayNumber_iff hE).mpr
    ⟨by omega, by omega, Or.inl ⟨by omega, by omega, by omega, by omega⟩, by decide +kernel⟩
  have hx : IsDT (Cal.init earlierSun) ⟨.short 182 5 7, 11, 59, 30, 0, none, 0⟩ 739411 :=
    ⟨hd, by simp only [DT.timetz]; exact ⟨by norm_num, by norm_num, by norm_num, by norm_num, by norm_num, by norm_num, by norm_num,
    by norm_num, Or.inl rfl⟩⟩
  have key : ∀ w yd, (Cal.init earlierSun).afterMidday (tupOf (.short 182 5 7) 11 59 30 w yd) = .ok true := by
    intro w yd
    have hcl : ClockDay 739411 := by unfold ClockDay; decide
    obtain ⟨f, jd, ef, hf, ej, hj, je, j0, j1, j2⟩ := jd_day (h := 11) (mi := 59) (s := 30)
      (t := [((11 : ℤ) : ℚ), ((59 : ℤ) : ℚ), ((30 : ℤ) : ℚ)]) hE hd hcl.1 (clockDay_notin hcl) (by simp [getHms]) (by norm_num) (by norm_num)
      (by norm_num) (by norm_num) (by norm_num) (by norm_num)
    obtain ⟨-, w0, w1⟩ := ssE_bounds hE (P := 739411 + 1721423) (by norm_num) (by norm_num)
    have l : -(1 / 100000) ≤ fl (gmtLon / 360) ∧ fl (gmtLon / 360) ≤ 0 := by decide +kernel
    have je := abs_le.mp je
    have hf := abs_le.mp hf
    push_cast at hf w0 w1
    have m2 : ∀ x : ℚ, 2460834 ≤ x → meeusFromExact x = .ok (fl (x + (2 : ℕ))) := by
      intro x hx
      have f0 : 2460834 ≤ ⌊x + 1 / 2⌋ := by rw [Int.le_floor]; push_cast; linarith
      rw [meeus_floor, if_neg (by omega), show iLookup ⌊x + 1 / 2⌋ iMeeusTable = 2 by
        rcases meeus_cases ⌊x + 1 / 2⌋ with h | h | h | h | h | h | h | h | h | h | h | h | h | h <;> omega]
      norm_num
    have f4 := abs_le.mp (fl_err_le (x := jd + (2 : ℕ)) (B := 4194304)
      (abs_le.mpr ⟨by push_cast at *; linarith, by push_cast at *; linarith⟩))
    have hcd : civilDay (fl (jd + (2 : ℕ))) (fl (gmtLon / 360)) = 2460837 :=
      civilDay_eq (by push_cast at *; linarith) (by push_cast at *; linarith) lonG_abs (by push_cast at *; linarith)
        (by push_cast at *; linarith)
    obtain ⟨hA, hB⟩ := clockDay_binade hcl (k := 2) (by norm_num) (by norm_num) j0 j1 j2
    have t0 : sunsetTime earlierSun gmtLat gmtLon 2460837 = 76 / 100 := by
      rw [earlierSun_time (by norm_num) (by norm_num), if_neg (by norm_num)]
    have t1 : sunsetTime earlierSun gmtLat gmtLon (2460837 + 1) = 76 / 100 - 1 / 720 := by
      rw [earlierSun_time (by norm_num) (by norm_num), if_pos (by norm_num)]
    obtain ⟨mid, em, hm⟩ := midday_value (C := Cal.init earlierSun) ej hj (k := 2) (by norm_num)
      (by push_cast at j0; linarith) j2 hA hB (m2 _ (by push_cast at j0; linarith))
      (m2 _ (by push_cast at j0; linarith)) hcd
      (by change 0 ≤ sunsetTime earlierSun gmtLat gmtLon 2460837 ∧ sunsetTime earlierSun gmtLat gmtLon 2460837 ≤ 1
          rw [t0]; norm_num)
      (by change 0 ≤ sunsetTime earlierSun gmtLat gmtLon (2460837 + 1) ∧ sunsetTime earlierSun gmtLat gmtLon (2460837 + 1) ≤ 1
          rw [t1]; norm_num)
      (by change |sunsetTime earlierSun gmtLat gmtLon (2460837 + 1) - sunsetTime earlierSun gmtLat gmtLon 2460837| ≤ _
          rw [t0, t1, abs_le]; norm_num)
    change |mid - (1 + sunsetTime earlierSun gmtLat gmtLon (2460837 + 1) - sunsetTime earlierSun gmtLat gmtLon 2460837) / 2| ≤ _
      at hm
    rw [t0, t1] at hm
    have hm := abs_le.mp hm
    unfold Cal.afterMidday
    have em' : (Cal.init earlierSun).findMidday (tupOf (.short 182 5 7) 11 59 30 w yd) = .ok mid := by
      unfold Cal.findMidday tupOf
      exact em
    rw [em', pyOk_bind, (tupOf_clock _ _ _ _ _ _).1, (tupOf_clock _ _ _ _ _ _).2.1, (tupOf_clock _ _ _ _ _ _).2.2, ef,
      pyOk_bind]
    congr 1
    rw [decide_eq_true_eq]
    linarith
  obtain ⟨w, yd, -, -, ei⟩ := datetimeStrftime_eq hE hO hx (Or.inl rfl) (by change (-1842 : ℤ) ≤ 182; omega) L z ['%', 'I']
  obtain ⟨w', yd', -, -, ep⟩ := datetimeStrftime_eq hE hO hx (Or.inl rfl) (by change (-1842 : ℤ) ≤ 182; omega) L z ['%', 'p']
  rw [wrap_one _ (by decide), strftimeWith_one _ (by decide)] at ei ep
  refine ⟨earlierSun, _, _, hE, hO, earlierSun_steady, hx, by simp [OrdinaryClock], by unfold ClockDay; decide, by simp, ?_, ?_⟩
  · rw [show "%I".toList = ['%', 'I'] by decide, ei]
    change (Cal.init earlierSun).dirI (tupOf (.short 182 5 7) 11 59 30 w yd) 'I' none = _
    unfold Cal.dirI Cal.hour12
    rw [key, pyOk_bind, pyOk_bind, if_neg (by decide), if_neg (by decide), (tupOf_clock _ _ _ _ _ _).1]
    decide
  · rw [show "%p".toList = ['%', 'p'] by decide, ep]
    change (Cal.init earlierSun).dirP L (tupOf (.short 182 5 7) 11 59 30 w' yd') = _
    unfold Cal.dirP
    rw [key, pyOk_bind]
    rfl

/-- Sunset at Greenwich two minutes later from one day on: the civil day 2268993. -/
def laterGreenwich : Astro := ⟨fun j lat lon =>
  if lat = gmtLat ∧ 2268992 < j then 76 / 100 + 1 / 720 else greenwichSun.setFrac j lat lon⟩

theorem laterGreenwich_at (j : ℚ) : laterGreenwich.setFrac j tehranLat tehranLon = newYearSun.setFrac j tehranLat tehranLon := by
  have : tehranLat ≠ gmtLat := by decide +kernel
  simp [laterGreenwich, this, greenwichSun_at]

theorem laterGreenwich_tehran : TehranEvening laterGreenwich := by
  intro D h0 h1
  have := newYearSun_tehran D h0 h1
  unfold sunsetTime at this ⊢
  rw [laterGreenwich_at]
  exact this

theorem laterGreenwich_time {D : ℤ} (h0 : 1721000 ≤ D) (h1 : D ≤ 2820001) :
    sunsetTime laterGreenwich gmtLat gmtLon D = if 2268993 ≤ D then 76 / 100 + 1 / 720 else 76 / 100 := by
  obtain ⟨a, b⟩ := midnightG h0 h1
  unfold sunsetTime laterGreenwich
  simp only [true_and]
  by_cases c : 2268993 ≤ D
  · have q : (2268993 : ℚ) ≤ D := by exact_mod_cast c
    rw [if_pos (by linarith), if_pos c]
  · have q : (D : ℚ) ≤ 2268992 := by exact_mod_cast (by omega : D ≤ 2268992)
    rw [if_neg (by linarith), if_neg c]
    unfold greenwichSun
    simp

theorem laterGreenwich_steady : GreenwichSteady laterGreenwich := by
  intro D h0 h1
  have e : eraLast = 2820000 := rfl
  have e0 : eraFirst = 1721000 := rfl
  rw [laterGreenwich_time (by omega) (by omega), laterGreenwich_time (by omega) (by omega)]
  rw [abs_le]
  split_ifs <;> norm_num

/-- C69: on the second day before a change of the Julian day scales, a quarter to twelve in the morning can be shown as -1,
in the second half of the day: the two sunsets between which midday lies are then two days apart, and midday falls on midnight. -/
theorem C69_change_negation (L : Locale) (z : Option TzInfo) :
    ∃ (A : Astro) (x : DT), TehranEvening A ∧ NewYearOrder (Cal.init A) ∧ GreenwichSteady A ∧
      IsDT (Cal.init A) x 547556 ∧ OrdinaryClock x ∧ (x.h = 11 ∧ x.mi = 45 ∧ x.s = 0) ∧
      (Cal.init A).datetimeStrftime L x z "%I".toList = .ok "-1".toList ∧
      (Cal.init A).datetimeStrftime L x z "%p".toList = .ok L.pm := by
  have hE := laterGreenwich_tehran
  have hO : NewYearOrder (Cal.init laterGreenwich) := order_congr hE newYearSun_tehran laterGreenwich_at newYearSun_order
  have hd : DayNumber (Cal.init laterGreenwich) (-344) 0 3 547556 := (dayNumber_iff hE).mpr
    ⟨by omega, by omega, Or.inr ⟨by omega, by omega, by decide +kernel⟩, by decide +kernel⟩
  have hx : IsDT (Cal.init laterGreenwich) ⟨.short (-344) 0 3, 11, 45, 0, 0, none, 0⟩ 547556 :=
    ⟨hd, by simp only [DT.timetz]; exact ⟨by norm_num, by norm_num, by norm_num, by norm_num, by norm_num, by norm_num, by norm_num,
    by norm_num, Or.inl rfl⟩⟩
  have key : ∀ w yd, (Cal.init laterGreenwich).afterMidday (tupOf (.short (-344) 0 3) 11 45 0 w yd) = .ok true := by
    intro w yd
    obtain ⟨f, jd, ef, hf, ej, hj, je, j0, j1, j2⟩ := jd_day (h := 11) (mi := 45) (s := 0)
      (t := [((11 : ℤ) : ℚ), ((45 : ℤ) : ℚ), ((0 : ℤ) : ℚ)]) hE hd (by norm_num) (by decide +kernel) (by simp [getHms])
      (by norm_num) (by norm_num) (by norm_num) (by norm_num) (by norm_num) (by norm_num)
    obtain ⟨-, w0, w1⟩ := ssE_bounds hE (P := 547556 + 1721423) (by norm_num) (by norm_num)
    have l : -(1 / 100000) ≤ fl (gmtLon / 360) ∧ fl (gmtLon / 360) ≤ 0 := by decide +kernel
    have je := abs_le.mp je
    have hf := abs_le.mp hf
    push_cast at hf w0 w1
    have k0 : iLookup 2268980 iMeeusTable = 11 := by decide
    have k1 : iLookup 2268981 iMeeusTable = 12 := by decide
    have m0 : meeusFromExact jd = .ok (fl (jd + (11 : ℕ))) := by
      have f0 : ⌊jd + 1 / 2⌋ = 2268980 := by rw [Int.floor_eq_iff]; push_cast; constructor <;> linarith
      rw [meeus_floor, f0, if_neg (by norm_num), k0]
      norm_num
    have m1 : meeusFromExact (jd + 1) = .ok (fl (jd + (13 : ℕ))) := by
      have f0 : ⌊jd + 1 + 1 / 2⌋ = 2268981 := by rw [Int.floor_eq_iff]; push_cast; constructor <;> linarith
      rw [meeus_floor, f0, if_neg (by norm_num), k1]
      congr 2
      push_cast
      ring
    have hB : OneBinade (jd - 2) (jd + 17) := Or.inl ⟨by linarith, by linarith⟩
    have f1 : fl (jd + 1) = jd + 1 := by rw [fl_add_one (hB.sub (by linarith) (by linarith)), hj]
    have f2 : fl (jd + (11 : ℕ)) = jd + (11 : ℕ) := by rw [fl_add_nat 11 (hB.sub (by linarith) (by push_cast; linarith)), hj]
    have f3 : fl (jd + (13 : ℕ)) = jd + (13 : ℕ) := by rw [fl_add_nat 13 (hB.sub (by linarith) (by push_cast; linarith)), hj]
    have c1 : civilDay (jd + (11 : ℕ)) (fl (gmtLon / 360)) = 2268991 :=
      civilDay_eq (by push_cast; linarith) (by push_cast; linarith) lonG_abs (by push_cast; linarith) (by push_cast; linarith)
    have c2 : civilDay (jd + (13 : ℕ)) (fl (gmtLon / 360)) = 2268993 :=
      civilDay_eq (by push_cast; linarith) (by push_cast; linarith) lonG_abs (by push_cast; linarith) (by push_cast; linarith)
    have t0 : sunsetTime laterGreenwich gmtLat gmtLon 2268991 = 76 / 100 := by
      rw [laterGreenwich_time (by norm_num) (by norm_num), if_neg (by norm_num)]
    have t1 : sunsetTime laterGreenwich gmtLat gmtLon 2268993 = 76 / 100 + 1 / 720 := by
      rw [laterGreenwich_time (by norm_num) (by norm_num), if_pos (by norm_num)]
    obtain ⟨-, p⟩ := ssOf_spec (A := laterGreenwich) lonG_abs (D := 2268991) (by decide) (by decide) (by rw [t0]; norm_num)
    obtain ⟨-, q⟩ := ssOf_spec (A := laterGreenwich) lonG_abs (D := 2268993) (by decide) (by decide) (by rw [t1]; norm_num)
    have em : ∀ a b' : ℚ, a = ssOf laterGreenwich gmtLat gmtLon 2268991 → b' = ssOf laterGreenwich gmtLat gmtLon 2268993 →
        (Cal.init laterGreenwich).midday ⟨(-344), 0, (3 : ℤ), [((11 : ℤ) : ℚ), ((45 : ℤ) : ℚ), ((0 : ℤ) : ℚ)]⟩ =
          localZoneCorrection (fl (fl (b' - a) / 2)) (some 0) none := by
      rintro a b' rfl rfl
      unfold Cal.midday
      rw [ej, pyOk_bind, m0, pyOk_bind, f1, m1, pyOk_bind, sunSetting_eq, sunSetting_eq, f2, f3, c1, c2]
      rfl
    replace em := em _ _ rfl rfl
    rw [t0] at p
    rw [t1] at q
    set a := ssOf laterGreenwich gmtLat gmtLon 2268991
    set b' := ssOf laterGreenwich gmtLat gmtLon 2268993
    replace p := abs_le.mp p
    replace q := abs_le.mp q
    push_cast at p q
    have g1 := abs_le.mp (fl_err_le (x := b' - a) (B := 4) (abs_le.mpr ⟨by linarith, by linarith⟩))
    have g2 := abs_le.mp (fl_err_le (x := fl (b' - a) / 2) (B := 2) (abs_le.mpr ⟨by linarith, by linarith⟩))
    set v := fl (fl (b' - a) / 2) with hv
    have e0 : fl (v + fl (0 / 24)) = v := by
      have : fl (0 / 24) = 0 := by decide +kernel
      rw [this, add_zero, hv, fl_idem]
    have e1 : pyMod1 v = v - 1 := by
      rw [pyMod1_of_nonneg (by linarith)]
      have : ⌊v⌋ = 1 := by rw [Int.floor_eq_iff]; push_cast; constructor <;> linarith
      unfold Int.fract
      rw [this]
      push_cast
      rfl
    have r := abs_le.mp (pyRound_err (v - 1) 12)
    rw [abs_of_nonneg (by linarith)] at r
    norm_num at r
    have em' : (Cal.init laterGreenwich).findMidday (tupOf (.short (-344) 0 3) 11 45 0 w yd) = .ok (pyRound (v - 1) 12) := by
      unfold Cal.findMidday tupOf
      refine Eq.trans em ?_
      unfold localZoneCorrection
      simp only []
      rw [pyAssert_true (by norm_num), pyOk_bind,
        show pyAssert ((some (0 : ℚ)).isSome || (none : Option ℚ).isSome) = .ok () from rfl, pyOk_bind]
      simp only [Bool.false_eq_true, if_false]
      rw [e0, e1]
    unfold Cal.afterMidday
    rw [em', pyOk_bind, (tupOf_clock _ _ _ _ _ _).1, (tupOf_clock _ _ _ _ _ _).2.1, (tupOf_clock _ _ _ _ _ _).2.2, ef,
      pyOk_bind]
    congr 1
    rw [decide_eq_true_eq]
    linarith
  obtain ⟨w, yd, -, -, ei⟩ := datetimeStrftime_eq hE hO hx (Or.inl rfl) (by change (-1842 : ℤ) ≤ (-344); omega) L z ['%', 'I']
  obtain ⟨w', yd', -, -, ep⟩ := datetimeStrftime_eq hE hO hx (Or.inl rfl) (by change (-1842 : ℤ) ≤ (-344); omega) L z ['%', 'p']
  rw [wrap_one _ (by decide), strftimeWith_one _ (by decide)] at ei ep
  refine ⟨laterGreenwich, _, hE, hO, laterGreenwich_steady, hx, by simp [OrdinaryClock], by simp, ?_, ?_⟩
  · rw [show "%I".toList = ['%', 'I'] by decide, ei]
    change (Cal.init laterGreenwich).dirI (tupOf (.short (-344) 0 3) 11 45 0 w yd) 'I' none = _
    unfold Cal.dirI Cal.hour12
    rw [key, pyOk_bind, pyOk_bind, if_neg (by decide), if_neg (by decide), (tupOf_clock _ _ _ _ _ _).1]
    decide
  · rw [show "%p".toList = ['%', 'p'] by decide, ep]
    change (Cal.init laterGreenwich).dirP L (tupOf (.short (-344) 0 3) 11 45 0 w' yd') = _
    unfold Cal.dirP
    rw [key, pyOk_bind]
    rfl

end Verif
