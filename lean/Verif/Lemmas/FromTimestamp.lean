import Verif.Lemmas.PosixTime
import Verif.Lemmas.Forward
import Verif.Lemmas.Numeric
import Verif.Lemmas.Ordinal
import Verif.Model.Conversion

/-!
# Helper lemmas: reading a timestamp
-/

namespace Verif

/-- The split of seconds that have six decimal places. -/
theorem secMicro_spec {s : ℚ} {k : ℤ} (e : s = fl ((k : ℚ) / 1000000)) (h0 : 0 ≤ s) (h1 : s < 60) :
    ∃ a u : ℤ, secMicrosecFromSeconds s = (a, u) ∧ 0 ≤ a ∧ a ≤ 59 ∧ 0 ≤ u ∧ u ≤ 999999 ∧
      |(a : ℚ) + u / 1000000 - s| ≤ 1 / 500000 := by
  obtain ⟨u0, u1⟩ := micro_range e h0 h1
  refine ⟨⌊s⌋, partialSecondToMicrosecond s, ?_, Int.floor_nonneg.mpr h0, ?_, u0, u1, ?_⟩
  · unfold secMicrosecFromSeconds
    simp only
    rw [pyMod1_of_nonneg h0, abs_of_nonneg h0, if_neg (not_lt.mpr h0)]
    have : s - Int.fract s = (⌊s⌋ : ℚ) := by unfold Int.fract; ring
    rw [this, fl_int _ (by
      have a := Int.floor_nonneg.mpr h0
      have b : ⌊s⌋ < 60 := by rw [Int.floor_lt]; exact_mod_cast h1
      rw [abs_of_nonneg a]; omega), Int.floor_intCast]
  · have b : ⌊s⌋ < 60 := by rw [Int.floor_lt]; exact_mod_cast h1
    omega
  · have f0 := Int.fract_nonneg s
    have f1 := Int.fract_lt_one s
    have p := pyRound_err (Int.fract s) 6
    rw [abs_of_nonneg f0] at p
    have p := abs_le.mp p
    have p0 : 0 ≤ pyRound (Int.fract s) 6 := by
      have := pyRound_mono 6 f0
      rwa [show pyRound 0 6 = 0 by decide +kernel] at this
    unfold partialSecondToMicrosecond
    rw [pyMod1_of_nonneg h0]
    generalize pyRound (Int.fract s) 6 = r at *
    norm_num at p
    have g := abs_le.mp (fl_err_le (x := r * 1000000) (B := 2000000)
      (by rw [abs_of_nonneg (by positivity)]; linarith))
    have g0 : 0 ≤ fl (r * 1000000) := fl_nonneg (by positivity)
    unfold pyInt
    rw [if_pos g0]
    have l0 := Int.floor_le (fl (r * 1000000))
    have l1 := Int.lt_floor_add_one (fl (r * 1000000))
    have : s = ⌊s⌋ + Int.fract s := by unfold Int.fract; ring
    rw [abs_le]
    constructor <;> linarith

theorem checkTail_hmsu {C : Cal} {y m d c h mi s us : ℤ} (hm0 : 0 ≤ m) (hm1 : m ≤ 19)
    (hc : C.cycleOf y m = .ok c) (hd0 : 1 ≤ d) (hd1 : d < c) (h0 : 0 ≤ h) (h1 : h ≤ 24)
    (mi0 : 0 ≤ mi) (mi1 : mi < 60) (s0 : 0 ≤ s) (s1 : s < 60) (u0 : 0 ≤ us) (u1 : us ≤ 999999) :
    C.checkTail y m d [(h : ℚ), (mi : ℚ), (s : ℚ), (us : ℚ)] = .ok () := by
  have g : getHms [(h : ℚ), (mi : ℚ), (s : ℚ), (us : ℚ)] = ((h : ℚ), (mi : ℚ), (s : ℚ), (us : ℚ)) := rfl
  unfold Cal.checkTail
  simp only [g]
  rw [pyAssert_true (by omega), pyOk_bind, hc, pyOk_bind,
    pyAssert_true (by constructor <;> exact_mod_cast (by omega)), pyOk_bind]
  unfold checkValidBadiTime
  have a1 : (h : ℚ) < 25 := by exact_mod_cast (by omega : h < 25)
  have a2 : (0 : ℚ) ≤ h := by exact_mod_cast h0
  have a3 : (mi : ℚ) < 60 := by exact_mod_cast (by omega : mi < 60)
  have a4 : (0 : ℚ) ≤ mi := by exact_mod_cast mi0
  have a5 : (s : ℚ) < 60 := by exact_mod_cast (by omega : s < 60)
  have a6 : (0 : ℚ) ≤ s := by exact_mod_cast s0
  have a7 : (us : ℚ) < 1000000 := by exact_mod_cast (by omega : us < 1000000)
  have a8 : (0 : ℚ) ≤ us := by exact_mod_cast u0
  rw [pyAssert_true ⟨a2, a1⟩, pyOk_bind, pyAssert_true ⟨a4, a3⟩, pyOk_bind, pyAssert_true ⟨a6, a5⟩, pyOk_bind,
    pyAssert_true ⟨a8, a7⟩, pyOk_bind, checkFractions_int]

/-- The end of `badi_date_from_jd` with the `us` option. -/
theorem kvymdhms_us {C : Cal} {k v w y m d c h mi a u : ℤ} {s : ℚ} (short : Bool)
    (hden : DenotesYear k v w y) (hk0 : -6 ≤ k) (hk1 : k ≤ 5) (hy0 : -1843 ≤ y) (hy1 : y ≤ 1162)
    (hm0 : 0 ≤ m) (hm1 : m ≤ 19)
    (hc : C.cycleOf y m = .ok c) (hd0 : 1 ≤ d) (hd1 : d < c) (h0 : 0 ≤ h) (h24 : h ≤ 24)
    (h1 : short = true → h < 24) (mi0 : 0 ≤ mi) (mi1 : mi < 60) (s0 : 0 ≤ s) (s1 : s < 60)
    (hsm : secMicrosecFromSeconds s = (a, u)) (a0 : 0 ≤ a) (a1 : a ≤ 59) (u0 : 0 ≤ u) (u1 : u ≤ 999999) :
    C.kvymdhmsFromBDate ⟨k, v, w, m, d, trimHms [(h : ℚ), (mi : ℚ), s, 0]⟩ true short false =
      .ok (if short then .short ⟨y, m, d, [(h : ℚ), (mi : ℚ), (a : ℚ), (u : ℚ)]⟩
        else .long ⟨k, v, w, m, d, [(h : ℚ), (mi : ℚ), (a : ℚ), (u : ℚ)]⟩) := by
  have ht := checkTail_hms hm0 hm1 hc hd0 hd1 h0 h24 mi0 mi1 s0 s1
  have ht' := checkTail_hmsu hm0 hm1 hc hd0 hd1 h0 h24 mi0 mi1 a0 (by omega) u0 u1
  have e4 : trimHms [(h : ℚ), (mi : ℚ), s, 0] = trimHms [(h : ℚ), (mi : ℚ), s] :=
    trimHms_snoc_zero [(h : ℚ), (mi : ℚ), s]
  have g := getHms_trim [(h : ℚ), (mi : ℚ), s]
  rw [e4]
  set t := trimHms [(h : ℚ), (mi : ℚ), s] with htd
  have hi : trimHms t = t := trimHms_idem _
  have hb : (if (⟨k, v, w, m, d, t⟩ : LongT).t.length > 0 then
      { (⟨k, v, w, m, d, t⟩ : LongT) with t := trimHms t } else ⟨k, v, w, m, d, t⟩) =
      ⟨k, v, w, m, d, t⟩ := by split_ifs <;> simp [hi]
  have hchk : C.checkLong ⟨k, v, w, m, d, t⟩ = .ok () := by
    rw [checkLong_of_short hden hk0 hk1, checkTail_getHms g, ht]
  have hz : t.length = 0 → (h : ℚ) = 0 ∧ (mi : ℚ) = 0 ∧ s = 0 := by
    intro hl
    have : t = [] := List.length_eq_zero_iff.mp hl
    rw [this] at g
    have g' : ((0 : ℚ), (0 : ℚ), (0 : ℚ), (0 : ℚ)) = ((h : ℚ), (mi : ℚ), s, 0) := g
    simp only [Prod.mk.injEq] at g'
    exact ⟨g'.1.symm, g'.2.1.symm, g'.2.2.1.symm⟩
  have hget : t.getD 0 0 = h ∧ t.getD 1 0 = mi ∧ t.getD 2 0 = s := by
    have g' : (t.getD 0 0, t.getD 1 0, t.getD 2 0, t.getD 3 0) = ((h : ℚ), (mi : ℚ), s, (0 : ℚ)) := g
    simp only [Prod.mk.injEq] at g'
    exact ⟨g'.1, g'.2.1, g'.2.2.1⟩
  have htri : (if t.length = 0 then
      ((⌊partialDayToHours (d : ℚ)⌋ : ℚ),
        (⌊partialHourToMinute (partialDayToHours (d : ℚ))⌋ : ℚ),
        pyRound (partialHourToMinute (partialHourToMinute (partialDayToHours (d : ℚ)))) 6)
      else (t.getD 0 0, t.getD 1 0, t.getD 2 0)) = ((h : ℚ), (mi : ℚ), s) := by
    split_ifs with hl
    · obtain ⟨a, b, c⟩ := hz hl
      have p0 : partialDayToHours (d : ℚ) = 0 := by
        unfold partialDayToHours; rw [pyMod1_int]; simp [fl_zero, pyRound, roundHalfEven]
      have p1 : partialHourToMinute 0 = 0 := by
        unfold partialHourToMinute
        have := pyMod1_int 0
        simp only [Int.cast_zero] at this
        rw [this]; simp [fl_zero, pyRound, roundHalfEven]
      rw [p0, p1, p1, a, b, c]
      simp [fl_zero, pyRound, roundHalfEven]
    · rw [hget.1, hget.2.1, hget.2.2]
  unfold Cal.kvymdhmsFromBDate
  simp only [hb]
  rw [hchk, pyOk_bind]
  simp only [htri, hsm, Bool.false_eq_true, if_false, if_true, Int.floor_intCast]
  cases short
  · rfl
  · have hs := shortFromLong_ok (C := C) (t := [(h : ℚ), (mi : ℚ), (a : ℚ), (u : ℚ)]) (m := m) (d := d) false hden
      hy0 hy1 ht' (by
        change (h : ℚ) < 24; exact_mod_cast h1 rfl)
    simp only [if_true]
    rw [hs, pyOk_bind]
    rfl

/-- `badi_date_from_jd` with the `us` option, from its first half. -/
theorem badiDate_us {A : Astro} (hE : TehranEvening A) {x fr lat lon : ℚ} {y m d n : ℤ}
    (hd : DayNumber (Cal.init A) y m d n)
    (hy : (Cal.init A).badiYmdFromJd x lat lon = .ok (y, m, d, fr))
    (h0 : 0 ≤ fr) (h1 : fr ≤ 1 - 1 / 40000000) :
    ∃ k v w h mi a u : ℤ, DenotesYear k v w y ∧
      (∀ short, (Cal.init A).badiDateFromJd x lat lon { us := true, short := short } =
        .ok (if short then .short ⟨y, m, d, [(h : ℚ), (mi : ℚ), (a : ℚ), (u : ℚ)]⟩
          else .long ⟨k, v, w, m, d, [(h : ℚ), (mi : ℚ), (a : ℚ), (u : ℚ)]⟩)) ∧
      0 ≤ h ∧ h ≤ 23 ∧ 0 ≤ mi ∧ mi ≤ 59 ∧ 0 ≤ a ∧ a ≤ 59 ∧ 0 ≤ u ∧ u ≤ 999999 ∧
      |3600 * (h : ℚ) + 60 * mi + a + u / 1000000 - 86400 * fr| ≤ 21 / 10000 := by
  obtain ⟨y0, y1, -, -⟩ := dayNumber_year hE hd
  obtain ⟨c, hc, d0, d1, m0, m1⟩ := dayNumber_cycle hE hd
  obtain ⟨hden, k0, k1⟩ := kvy_range y (by omega) (by omega)
  have hs := hms_spec h0
  simp only at hs
  rw [Int.fract_eq_self.mpr ⟨h0, by linarith⟩] at hs
  obtain ⟨a1, a2, a3, a4, a5, a6, a7, a8, -⟩ := hs
  have a8 := a8 h1
  obtain ⟨q, hq⟩ : ∃ q : ℤ, (hmsFromDecimalDay fr).2.2 = fl ((q : ℚ) / 1000000) := second_form _
  generalize hh : (hmsFromDecimalDay fr).1 = h at *
  generalize hmi : (hmsFromDecimalDay fr).2.1 = mi at *
  generalize hss : (hmsFromDecimalDay fr).2.2 = s at *
  obtain ⟨a, u, hsm, b1, b2, b3, b4, b5⟩ := secMicro_spec hq a5 a6
  refine ⟨_, _, _, h, mi, a, u, hden, ?_, a1, by omega, a3, by omega, b1, b2, b3, b4, ?_⟩
  · intro short
    have hl := longFromShort_ok (Cal.init A) ⟨y, m, d, [(h : ℚ), (mi : ℚ), s]⟩ true
      (by simp only; omega) (by simp only; omega)
    simp only at hl
    rw [checkTail_hms m0 m1 hc d0 d1 a1 (by omega) a3 a4 a5 a6, pyOk_bind] at hl
    have hk := kvymdhms_us (C := Cal.init A) (s := s) short hden k0 k1 y0 (by omega) m0 m1 hc d0 d1 a1 a2
      (fun _ => a8) a3 a4 a5 a6 hsm b1 b2 b3 b4
    unfold Cal.badiDateFromJd
    rw [show xorBoolean [false, true, false] = true by decide]
    simp only [pyAssert, hy, pyOk_bind, Bool.false_eq_true, if_false, if_true]
    rw [hh, hmi, hss, hl, pyOk_bind]
    exact hk
  · have a7 := abs_le.mp a7
    have b5 := abs_le.mp b5
    rw [abs_le]
    constructor <;> linarith

/-- A timestamp away from the midnight of `not_midnight` is an instant away from it. -/
theorem midnight_ts {t : ℚ} (h : 1 / 10 < |t + 29673314709.2784|) :
    1 / 1000000 < |fl (fl (t / 86400) + 2440585.5) - 2097144.3575315| := by
  have lo : fl (fl ((-29673314709.3784) / 86400) + 2440585.5) < 2097144.3575305 := by decide +kernel
  have hi : 2097144.3575325 < fl (fl ((-29673314709.1784) / 86400) + 2440585.5) := by decide +kernel
  rw [lt_abs] at h ⊢
  rcases h with h | h
  · left
    have := fl_mono (add_le_add_left (fl_mono (show (-29673314709.1784) / 86400 ≤ t / 86400 by norm_num at h ⊢; linarith))
      2440585.5)
    norm_num at this hi ⊢
    linarith
  · right
    have := fl_mono (add_le_add_left (fl_mono (show t / 86400 ≤ (-29673314709.3784) / 86400 by norm_num at h ⊢; linarith))
      2440585.5)
    norm_num at this lo ⊢
    linarith

/-- The first half of the conversion of an instant within a day. -/
theorem ymd_within {A : Astro} (hE : TehranEvening A) {x : ℚ} {y m d n : ℤ} (hx : IsF64 x)
    (hd : DayNumber (Cal.init A) y m d n) (hn : n ≤ 1096902) (hb : n + 1721423 ∉ badDays)
    (hc : n + 1721423 - 1 ∉ changeDays) (h5 : n = 375721 → 1 / 1000000 < |x - 2097144.3575315|)
    (hx0 : ssE A (n + 1721423) ≤ x) (hx1 : x < ssE A (n + 1721423 + 1)) (hx2 : x - ssE A (n + 1721423) < 1) :
    (Cal.init A).badiYmdFromJd x tehranLat tehranLon = .ok (y, m, d, x - ssE A (n + 1721423)) := by
  obtain ⟨y0, y1, n0, n1⟩ := dayNumber_year hE hd
  have q0 := ysInt_mono (le_refl (-1843)) y0 (by omega)
  rw [ysInt_m1843] at q0
  have hP0 : 1721100 ≤ n + 1721423 := by omega
  have hP1 : n + 1721423 ≤ 2819700 := by omega
  obtain ⟨sf, s0', s1'⟩ := ssE_bounds hE (P := n + 1721423) (by omega) (by omega)
  have hu : (Cal.init A).utcToBadiTime x tehranLat tehranLon
      = .ok (ssE A (n + 1721423), x - ssE A (n + 1721423)) := by
    rcases utc_cases hE hx hP0 hP1 hx0 hx1 with ⟨-, h | h⟩ | ⟨h, -⟩ | ⟨-, h, -⟩ | ⟨-, h⟩ | ⟨-, h, h'⟩
    · exact absurd h hb
    · exact absurd h.1 hc
    · exact h
    · linarith
    · exact absurd (by rw [h]; decide) hb
    · exact absurd h' (not_midnight h h5)
  exact ymd_ok hE hu (civilDay_ssE (by omega) (by omega) (by push_cast at *; linarith)
    (by push_cast at *; linarith)) hn hd

end Verif
