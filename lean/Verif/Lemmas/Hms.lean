import Verif.Lemmas.Forms

/-!
# Decoding a day fraction
-/

namespace Verif

/-- `round(x, 6)` of a number of `[0, N]`. -/
theorem round6_spec {x : ℚ} {N : ℤ} (h0 : 0 ≤ x) (h1 : x ≤ N) :
    ∃ k : ℤ, 0 ≤ k ∧ k ≤ N * 1000000 ∧ pyRound x 6 = fl ((k : ℚ) / 1000000) ∧
      |(k : ℚ) / 1000000 - x| ≤ 1 / 2000000 := by
  refine ⟨roundHalfEven (x * 10 ^ 6), roundHalfEven_nonneg (by positivity), ?_, ?_, ?_⟩
  · have := roundHalfEven_mono (show x * 10 ^ 6 ≤ ((N * 1000000 : ℤ) : ℚ) by push_cast; linarith)
    rwa [roundHalfEven_int] at this
  · unfold pyRound; norm_num
  · have := abs_le.mp (roundHalfEven_err (x * 10 ^ 6))
    rw [abs_le]
    constructor <;> norm_num at this ⊢ <;> linarith

/-- A multiple of a millionth as a float: its integer part is right and its fraction stays away
from 1. -/
theorem fl_micro {k : ℤ} (h0 : 0 ≤ k) (h1 : k ≤ 100000000) :
    ⌊fl ((k : ℚ) / 1000000)⌋ = k / 1000000 ∧ 0 ≤ fl ((k : ℚ) / 1000000) ∧
    |fl ((k : ℚ) / 1000000) - k / 1000000| ≤ 1 / 50000000000000 ∧
    Int.fract (fl ((k : ℚ) / 1000000)) ≤ 9999995 / 10000000 := by
  have hk0 : (0 : ℚ) ≤ k := by exact_mod_cast h0
  have hk1 : (k : ℚ) ≤ 100000000 := by exact_mod_cast h1
  have he := fl_err_le (x := (k : ℚ) / 1000000) (B := 100)
    (by rw [abs_of_nonneg (by positivity)]; linarith)
  have he' : |fl ((k : ℚ) / 1000000) - k / 1000000| ≤ 1 / 50000000000000 :=
    he.trans (by norm_num)
  have hn : 0 ≤ fl ((k : ℚ) / 1000000) := fl_nonneg (by positivity)
  have ha := abs_le.mp he'
  set c := k / 1000000 with hc
  have hd := Int.emod_add_mul_ediv k 1000000
  rw [← hc] at hd
  have hr0 := Int.emod_nonneg k (show (1000000 : ℤ) ≠ 0 by norm_num)
  have hr1 := Int.emod_lt_of_pos k (show (0 : ℤ) < 1000000 by norm_num)
  set r := k % 1000000 with hr
  have hdq : (k : ℚ) / 1000000 = c + (r : ℚ) / 1000000 := by
    rw [← hd]; push_cast; ring
  have hf : ⌊fl ((k : ℚ) / 1000000)⌋ = c := by
    rw [Int.floor_eq_iff]
    by_cases hz : r = 0
    · have : fl ((k : ℚ) / 1000000) = c := by
        rw [hdq, hz]; simp
        exact fl_int c (by rw [abs_le]; constructor <;> omega)
      rw [this]; constructor <;> linarith
    · have r0 : (1 : ℚ) ≤ r := by exact_mod_cast (by omega : 1 ≤ r)
      have r1 : (r : ℚ) ≤ 999999 := by exact_mod_cast (by omega : r ≤ 999999)
      constructor <;> linarith
  refine ⟨hf, hn, he', ?_⟩
  unfold Int.fract
  rw [hf]
  have r1 : (r : ℚ) ≤ 999999 := by exact_mod_cast (by omega : r ≤ 999999)
  linarith

/-- The three steps of the decoder share this lemma. -/
theorem partial_step {p : ℚ} {N : ℤ} (h0 : 0 ≤ p) (h1 : p ≤ 1) (hN0 : 0 ≤ N) (hN : N ≤ 60) :
    let r := pyRound (fl (p * N)) 6
    0 ≤ r ∧ r ≤ N ∧ |r - p * N| ≤ 1 / 1900000 ∧ 0 ≤ Int.fract r ∧
      Int.fract r ≤ 9999995 / 10000000 ∧ 0 ≤ ⌊r⌋ ∧ ⌊r⌋ ≤ N ∧
      (p ≤ 9999995 / 10000000 → N = 60 → r < 60 ∧ ⌊r⌋ < 60) ∧
      (p ≤ 1 - 1 / 40000000 → N = 24 → ⌊r⌋ < 24) ∧ (⌊r⌋ = N → r = N) := by
  intro r
  have hNq0 : (0 : ℚ) ≤ N := by exact_mod_cast hN0
  have hNq : (N : ℚ) ≤ 60 := by exact_mod_cast hN
  have hpN : p * N ≤ N := by nlinarith
  have hpN0 : 0 ≤ p * N := by positivity
  have x0 : 0 ≤ fl (p * N) := fl_nonneg hpN0
  have x1 : fl (p * N) ≤ N := fl_le_of_le hpN (isF64_int (by rw [abs_le]; constructor <;> omega))
  have xe := abs_le.mp (fl_err_le (x := p * N) (B := 60)
    (by rw [abs_of_nonneg hpN0]; linarith))
  obtain ⟨k, k0, k1, hk, hke⟩ := round6_spec x0 x1
  obtain ⟨a1, a2, a3, a4⟩ := fl_micro k0 (by omega)
  have hr : r = fl ((k : ℚ) / 1000000) := hk
  rw [← hr] at a1 a2 a3 a4
  have hke := abs_le.mp hke
  have a3' := abs_le.mp a3
  have rN : r ≤ N := by
    rw [hr]
    apply fl_le_of_le
    · have : (k : ℚ) ≤ ((N * 1000000 : ℤ) : ℚ) := by exact_mod_cast k1
      push_cast at this; linarith
    · exact isF64_int (by rw [abs_le]; constructor <;> omega)
  refine ⟨a2, rN, ?_, Int.fract_nonneg r, a4, by omega, by omega, ?_, ?_, ?_⟩
  · rw [abs_le]; constructor <;> linarith
  · rintro hp rfl
    push_cast at *
    have : r < 60 := by linarith
    refine ⟨this, ?_⟩
    rw [Int.floor_lt]; exact_mod_cast this
  · rintro hp rfl
    push_cast at *
    have hk24 : (k : ℚ) < ((24000000 : ℤ) : ℚ) := by push_cast; linarith
    have := Int.cast_lt.mp hk24
    omega
  · intro h
    rw [a1] at h
    have : k = N * 1000000 := by omega
    rw [hr, this]
    push_cast
    rw [mul_div_assoc, div_self (by norm_num), mul_one]
    exact fl_int N (by rw [abs_le]; constructor <;> omega)

theorem hms_spec {dec : ℚ} (h0 : 0 ≤ dec) :
    let r := hmsFromDecimalDay dec
    0 ≤ r.1 ∧ r.1 ≤ 24 ∧ 0 ≤ r.2.1 ∧ r.2.1 < 60 ∧ 0 ≤ r.2.2 ∧ r.2.2 < 60 ∧
      |3600 * (r.1 : ℚ) + 60 * r.2.1 + r.2.2 - 86400 * Int.fract dec| ≤ 1 / 500 ∧
      (Int.fract dec ≤ 1 - 1 / 40000000 → r.1 < 24) ∧ (r.1 = 24 → r.2.1 = 0 ∧ r.2.2 = 0) := by
  intro r
  have e1 : r.1 = ⌊partialDayToHours dec⌋ := rfl
  have e2 : r.2.1 = ⌊partialHourToMinute (partialDayToHours dec)⌋ := rfl
  have e3 : r.2.2 = partialHourToMinute (partialHourToMinute (partialDayToHours dec)) := rfl
  have hs := partial_step (p := Int.fract dec) (N := 24) (Int.fract_nonneg _)
    (Int.fract_lt_one _).le (by omega) (by omega)
  have eh : partialDayToHours dec = pyRound (fl (Int.fract dec * ((24 : ℤ) : ℚ))) 6 := by
    unfold partialDayToHours; rw [pyMod1_of_nonneg h0]; norm_num
  simp only at hs
  rw [← eh] at hs
  obtain ⟨a1, a2, a3, a4, a5, a6, a7, -, a8, a9⟩ := hs
  set h := partialDayToHours dec
  have ms := partial_step (p := Int.fract h) (N := 60) a4 (by linarith) (by omega) (by omega)
  have em : partialHourToMinute h = pyRound (fl (Int.fract h * ((60 : ℤ) : ℚ))) 6 := by
    unfold partialHourToMinute; rw [pyMod1_of_nonneg a1]; norm_num
  simp only at ms
  rw [← em] at ms
  obtain ⟨b1, b2, b3, b4, b5, b6, b7, b8, -, -⟩ := ms
  set m := partialHourToMinute h
  have ss := partial_step (p := Int.fract m) (N := 60) b4 (by linarith) (by omega) (by omega)
  have es : partialHourToMinute m = pyRound (fl (Int.fract m * ((60 : ℤ) : ℚ))) 6 := by
    unfold partialHourToMinute; rw [pyMod1_of_nonneg b1]; norm_num
  simp only at ss
  rw [← es] at ss
  obtain ⟨c1, c2, c3, c4, c5, c6, c7, c8, -, -⟩ := ss
  set s := partialHourToMinute m
  rw [e1, e2, e3]
  refine ⟨a6, a7, b6, (b8 a5 trivial).2, c1, (c8 b5 trivial).1, ?_, fun hp => a8 hp trivial, ?_⟩
  · have a3 := abs_le.mp a3
    have b3 := abs_le.mp b3
    have c3 := abs_le.mp c3
    have fh : Int.fract h = h - ⌊h⌋ := rfl
    have fm : Int.fract m = m - ⌊m⌋ := rfl
    push_cast at a3 b3 c3
    rw [fh] at b3
    rw [fm] at c3
    rw [abs_le]; constructor <;> linarith
  · intro h24
    have hh := a9 h24
    have f0 : Int.fract h = 0 := by rw [hh]; exact Int.fract_intCast 24
    have m0 : m = 0 := by rw [em, f0]; simp [fl_zero, pyRound, roundHalfEven]
    have s0 : s = 0 := by rw [es, m0]; simp [fl_zero, pyRound, roundHalfEven]
    rw [m0, s0]; simp

theorem checkFractions_int (d h mi : ℤ) (s : ℚ) : checkFractions d h mi s = .ok () := by
  unfold checkFractions
  rw [if_neg (by simp [pyMod1_int]), if_neg (by simp [pyMod1_int]), if_neg (by simp [pyMod1_int])]

theorem checkTail_hms {C : Cal} {y m d c h mi : ℤ} {s : ℚ} (hm0 : 0 ≤ m) (hm1 : m ≤ 19)
    (hc : C.cycleOf y m = .ok c) (hd0 : 1 ≤ d) (hd1 : d < c) (h0 : 0 ≤ h) (h1 : h ≤ 24)
    (mi0 : 0 ≤ mi) (mi1 : mi < 60) (s0 : 0 ≤ s) (s1 : s < 60) :
    C.checkTail y m d [(h : ℚ), (mi : ℚ), s] = .ok () := by
  have g : getHms [(h : ℚ), (mi : ℚ), s] = ((h : ℚ), (mi : ℚ), s, 0) := rfl
  unfold Cal.checkTail
  simp only [g]
  rw [pyAssert_true (by omega), pyOk_bind, hc, pyOk_bind,
    pyAssert_true (by constructor <;> exact_mod_cast (by omega)), pyOk_bind]
  unfold checkValidBadiTime
  have : (h : ℚ) < 25 := by exact_mod_cast (by omega : h < 25)
  have : (0 : ℚ) ≤ h := by exact_mod_cast h0
  have : (mi : ℚ) < 60 := by exact_mod_cast mi1
  have : (0 : ℚ) ≤ mi := by exact_mod_cast mi0
  rw [pyAssert_true (by constructor <;> assumption), pyOk_bind,
    pyAssert_true (by constructor <;> assumption), pyOk_bind,
    pyAssert_true (by constructor <;> assumption), pyOk_bind,
    pyAssert_true (by constructor <;> norm_num), pyOk_bind, checkFractions_int]

theorem trimHms_idem (l : List ℚ) : trimHms (trimHms l) = trimHms l := by
  rw [trimHms_eq, trimHms_eq, List.reverse_reverse]
  congr 1
  induction l.reverse with
  | nil => rfl
  | cons a r ih =>
    by_cases h : a = 0
    · simpa [List.dropWhile_cons, h] using ih
    · simp [h]

theorem trimHms_snoc_zero (l : List ℚ) : trimHms (l ++ [0]) = trimHms l := by
  rw [trimHms_eq, trimHms_eq]
  simp

/-- The end of `badi_date_from_jd` without the `us`, `fraction` and `rtd` options. -/
theorem kvymdhms_ok {C : Cal} {k v w y m d c h mi : ℤ} {s : ℚ} (short : Bool)
    (hden : DenotesYear k v w y) (hk0 : -6 ≤ k) (hk1 : k ≤ 5) (hy0 : -1843 ≤ y) (hy1 : y ≤ 1162)
    (hm0 : 0 ≤ m) (hm1 : m ≤ 19)
    (hc : C.cycleOf y m = .ok c) (hd0 : 1 ≤ d) (hd1 : d < c) (h0 : 0 ≤ h) (h24 : h ≤ 24)
    (h1 : short = true → h < 24) (mi0 : 0 ≤ mi) (mi1 : mi < 60) (s0 : 0 ≤ s) (s1 : s < 60) :
    C.kvymdhmsFromBDate ⟨k, v, w, m, d, trimHms [(h : ℚ), (mi : ℚ), s, 0]⟩ false short true =
      .ok (if short then .short ⟨y, m, d, trimHms [(h : ℚ), (mi : ℚ), s]⟩
        else .long ⟨k, v, w, m, d, trimHms [(h : ℚ), (mi : ℚ), s]⟩) := by
  have ht := checkTail_hms hm0 hm1 hc hd0 hd1 h0 h24 mi0 mi1 s0 s1
  have e4 : trimHms [(h : ℚ), (mi : ℚ), s, 0] = trimHms [(h : ℚ), (mi : ℚ), s] :=
    trimHms_snoc_zero [(h : ℚ), (mi : ℚ), s]
  have g := getHms_trim [(h : ℚ), (mi : ℚ), s]
  rw [e4]
  set t := trimHms [(h : ℚ), (mi : ℚ), s] with htd
  have hi : trimHms t = t := trimHms_idem _
  have hb : (if (⟨k, v, w, m, d, t⟩ : LongT).t.length > 0 then
      { (⟨k, v, w, m, d, t⟩ : LongT) with t := trimHms t } else ⟨k, v, w, m, d, t⟩) =
      ⟨k, v, w, m, d, t⟩ := by split_ifs <;> simp [hi]
  have hchk : C.checkLong ⟨k, v, w, m, d, t⟩ = .ok () := by
    rw [checkLong_of_short hden hk0 hk1, checkTail_getHms g, ht]
  have hz : t.length = 0 → (h : ℚ) = 0 ∧ (mi : ℚ) = 0 ∧ s = 0 := by
    intro hl
    have : t = [] := List.length_eq_zero_iff.mp hl
    rw [this] at g
    have g' : ((0 : ℚ), (0 : ℚ), (0 : ℚ), (0 : ℚ)) = ((h : ℚ), (mi : ℚ), s, 0) := g
    simp only [Prod.mk.injEq] at g'
    exact ⟨g'.1.symm, g'.2.1.symm, g'.2.2.1.symm⟩
  have hget : t.getD 0 0 = h ∧ t.getD 1 0 = mi ∧ t.getD 2 0 = s := by
    have g' : (t.getD 0 0, t.getD 1 0, t.getD 2 0, t.getD 3 0) = ((h : ℚ), (mi : ℚ), s, (0 : ℚ)) := g
    simp only [Prod.mk.injEq] at g'
    exact ⟨g'.1, g'.2.1, g'.2.2.1⟩
  have htri : (if t.length = 0 then
      ((⌊partialDayToHours (d : ℚ)⌋ : ℚ),
        (⌊partialHourToMinute (partialDayToHours (d : ℚ))⌋ : ℚ),
        pyRound (partialHourToMinute (partialHourToMinute (partialDayToHours (d : ℚ)))) 6)
      else (t.getD 0 0, t.getD 1 0, t.getD 2 0)) = ((h : ℚ), (mi : ℚ), s) := by
    split_ifs with hl
    · obtain ⟨a, b, c⟩ := hz hl
      have p0 : partialDayToHours (d : ℚ) = 0 := by
        unfold partialDayToHours; rw [pyMod1_int]; simp [fl_zero, pyRound, roundHalfEven]
      have p1 : partialHourToMinute 0 = 0 := by
        unfold partialHourToMinute
        have := pyMod1_int 0
        simp only [Int.cast_zero] at this
        rw [this]; simp [fl_zero, pyRound, roundHalfEven]
      rw [p0, p1, p1, a, b, c]
      simp [fl_zero, pyRound, roundHalfEven]
    · rw [hget.1, hget.2.1, hget.2.2]
  unfold Cal.kvymdhmsFromBDate
  simp only [hb]
  rw [hchk, pyOk_bind]
  simp only [htri, Bool.false_eq_true, if_false, if_true, Int.floor_intCast, ← htd]
  cases short
  · rfl
  · have hs := shortFromLong_ok (C := C) (t := t) (m := m) (d := d) true hden hy0 hy1
      (by rw [checkTail_getHms g, ht]) (by
        rw [g]; change (h : ℚ) < 24; exact_mod_cast h1 rfl)
    rw [g] at hs
    simp only [if_true]
    rw [hs, pyOk_bind]
    simp only [if_true]
    change Except.ok (BDate.short ⟨y, m, d, trimHms [(h : ℚ), (mi : ℚ), s, 0]⟩) = _
    rw [e4]

end Verif
