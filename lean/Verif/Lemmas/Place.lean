import Verif.Lemmas.Forward
import Verif.Lemmas.JdScale
import Verif.Spec.Place

/-!
# Helper lemmas: dates and Julian days at any place
-/

namespace Verif

/-- The whole days between the two scales of Julian days. -/
def scaleDiff (P : ℤ) : ℤ := iLookup P iMeeusTable

/-- Julian days around which this difference does not change, and does not meet a power of two. -/
def Quiet (P : ℤ) : Prop :=
  1721100 ≤ P ∧ P ≤ 2819700 ∧ (∀ c ∈ scaleChanges, P - 1721423 + 2 ≤ c ∨ c + 3 ≤ P - 1721423) ∧
    (P < 2299147 ∨ 2299161 ≤ P) ∧ (P < 2097141 ∨ 2097148 ≤ P)

theorem OrdinaryDay.quiet {n : ℤ} (h : OrdinaryDay n) (h0 : -300 ≤ n) (h1 : n ≤ 1098000) :
    Quiet (n + 1721423) := by
  obtain ⟨a, b, c⟩ := h
  exact ⟨by omega, by omega, fun k hk => by have := a k hk; omega, by omega, by omega⟩

theorem OrdinaryDay.quiet_next {n : ℤ} (h : OrdinaryDay n) (h0 : -300 ≤ n) (h1 : n ≤ 1098000) :
    Quiet (n + 1 + 1721423) := by
  obtain ⟨a, b, c⟩ := h
  exact ⟨by omega, by omega, fun k hk => by have := a k hk; omega, by omega, by omega⟩

theorem scaleDiff_bounds (P : ℤ) : 0 ≤ scaleDiff P ∧ scaleDiff P ≤ 12 := iMeeus_bounds P

theorem scaleDiff_succ {N : ℤ} (h : N ≠ 2299148) (hc : N - 1721423 ∉ scaleChanges) :
    scaleDiff (N + 1) = scaleDiff N := by
  simp only [scaleChanges, List.mem_cons, List.not_mem_nil, or_false, not_or] at hc
  unfold scaleDiff iMeeusTable
  have key : ∀ (l : List (ℤ × ℤ)), (∀ p ∈ l, N ≠ p.1) → iLookup (N + 1) l = iLookup N l := by
    intro l
    induction l with
    | nil => intro _; rfl
    | cons p l ih =>
      intro h
      obtain ⟨K, d⟩ := p
      unfold iLookup
      rw [ih fun p hp => h p (by simp [hp])]
      have h0 := h (K, d) (by simp)
      simp only at h0
      have : N + 1 ≤ K ↔ N ≤ K := by omega
      simp only [this]
  apply key
  simp only [List.forall_mem_cons, List.not_mem_nil, false_imp_iff, implies_true, and_true]
  omega

theorem Quiet.same {P : ℤ} (h : Quiet P) {N : ℤ} (h0 : P - 2 ≤ N) (h1 : N ≤ P + 2) :
    scaleDiff N = scaleDiff P := by
  obtain ⟨-, -, hc, hr, -⟩ := h
  have st : ∀ M : ℤ, P - 2 ≤ M → M < P + 2 → scaleDiff (M + 1) = scaleDiff M := by
    intro M m0 m1
    apply scaleDiff_succ (by omega)
    intro hm
    have := hc _ hm
    omega
  have a1 := st (P - 2) (by omega) (by omega)
  have a2 := st (P - 1) (by omega) (by omega)
  have a3 := st P (by omega) (by omega)
  have a4 := st (P + 1) (by omega) (by omega)
  rw [show P - 2 + 1 = P - 1 by ring] at a1
  rw [show P - 1 + 1 = P by ring] at a2
  rw [show P + 1 + 1 = P + 2 by ring] at a4
  rcases (by omega : N = P - 2 ∨ N = P - 1 ∨ N = P ∨ N = P + 1 ∨ N = P + 2) with e | e | e | e | e <;>
    rw [e] <;> omega

theorem Quiet.gap {P : ℤ} (h : Quiet P) {N : ℤ} (h0 : P - 2 ≤ N) (h1 : N ≤ P + 2) :
    ¬ (2299149 ≤ N ∧ N ≤ 2299158) := by
  obtain ⟨-, -, -, hr, -⟩ := h
  omega

theorem quiet_late {P : ℤ} (h0 : 2299161 ≤ P) (h1 : P ≤ 2819700) : Quiet P := by
  refine ⟨by omega, h1, ?_, by omega, by omega⟩
  simp only [scaleChanges, List.forall_mem_cons, List.not_mem_nil, false_imp_iff, implies_true, and_true]
  omega

theorem scaleDiff_late {P : ℤ} (h0 : 2299149 ≤ P) : scaleDiff P = 2 := by
  unfold scaleDiff iMeeusTable
  repeat rw [iLookup_skip (by omega)]
  rfl

/-- `_meeus_from_exact` around a quiet day. -/
theorem meeus_quiet {P : ℤ} (h : Quiet P) {x : ℚ} (h0 : P - 5 / 2 ≤ x) (h1 : x < P + 5 / 2) :
    meeusFromExact x = .ok (fl (x + scaleDiff P)) := by
  have f0 : P - 2 ≤ ⌊x + 1 / 2⌋ := by rw [Int.le_floor]; push_cast; linarith
  have f1 : ⌊x + 1 / 2⌋ < P + 3 := by rw [Int.floor_lt]; push_cast; linarith
  rw [meeus_floor, if_neg (h.gap f0 (by omega)), ← h.same f0 (by omega)]
  rfl

/-- `_exact_from_meeus` around a quiet day. -/
theorem exact_quiet {P : ℤ} (h : Quiet P) {x : ℚ} (h0 : P - 5 / 2 ≤ x - scaleDiff P)
    (h1 : x - scaleDiff P < P + 5 / 2) : exactFromMeeus x = .ok (fl (x - scaleDiff P)) := by
  have f0 : P - 2 + scaleDiff P ≤ ⌊x + 1 / 2⌋ := by rw [Int.le_floor]; push_cast; linarith
  have f1 : ⌊x + 1 / 2⌋ < P + 3 + scaleDiff P := by rw [Int.floor_lt]; push_cast; linarith
  obtain ⟨N, hN⟩ : ∃ N : ℤ, ⌊x + 1 / 2⌋ = N + scaleDiff P := ⟨⌊x + 1 / 2⌋ - scaleDiff P, by ring⟩
  have e := h.same (N := N) (by omega) (by omega)
  obtain ⟨a, b⟩ := exact_of_meeus (N := N) (h.gap (by omega) (by omega))
  change N + scaleDiff N ∉ _ at a
  change iLookup (N + scaleDiff N) _ = scaleDiff N at b
  rw [e] at a b
  rw [exact_floor, hN, if_neg a, b]

/-- Exact JD of the sunset that starts day `P` at a place. -/
def ssP (A : Astro) (lat lon : ℚ) (P : ℤ) : ℚ :=
  ssOf A lat lon (P + scaleDiff P) - scaleDiff P

theorem lonFrac_lo {lon : ℚ} (h : -180 ≤ lon) : -(1 / 2) ≤ fl (lon / 360) := by
  apply le_fl_of_le (by linarith)
  rw [show (-(1 / 2) : ℚ) = ((-1 : ℤ) : ℚ) / 2 by norm_num]
  exact fl_half _ (by norm_num)

theorem lonFrac_hi {lon : ℚ} (h : lon ≤ 180) : fl (lon / 360) ≤ 1 / 2 := by
  apply fl_le_of_le (by linarith)
  rw [show ((1 / 2) : ℚ) = ((1 : ℤ) : ℚ) / 2 by norm_num]
  exact fl_half _ (by norm_num)

theorem lonFrac_abs {lon : ℚ} (h0 : -180 ≤ lon) (h1 : lon ≤ 180) : |fl (lon / 360)| ≤ 1 / 2 :=
  abs_le.mpr ⟨lonFrac_lo h0, lonFrac_hi h1⟩

section
variable {A : Astro} {lat lon : ℚ}

theorem ssOf_place (hS : SunSets A lat lon) (hl : |fl (lon / 360)| ≤ 1 / 2) {P : ℤ}
    (h0 : 1721010 ≤ P) (h1 : P ≤ 2819900) :
    IsF64 (ssOf A lat lon (P + scaleDiff P)) ∧ (P : ℚ) - 1 + scaleDiff P ≤ ssOf A lat lon (P + scaleDiff P) ∧
      ssOf A lat lon (P + scaleDiff P) ≤ P + 1 + scaleDiff P := by
  have e1 : eraLast = 2820000 := rfl
  have e0 : eraFirst = 1721000 := rfl
  obtain ⟨b0, b1⟩ := scaleDiff_bounds P
  have hm := hS (P + scaleDiff P) (by omega) (by omega)
  obtain ⟨hf, h⟩ := ssOf_spec (A := A) (lat := lat) hl (D := P + scaleDiff P) (by omega) (by omega)
    ⟨by linarith [hm.1], by linarith [hm.2]⟩
  have h := abs_le.mp h
  push_cast at h
  have ha := abs_le.mp hl
  exact ⟨hf, by linarith [hm.1], by linarith [hm.2]⟩

theorem ssP_bounds (hS : SunSets A lat lon) (hl : |fl (lon / 360)| ≤ 1 / 2) {P : ℤ}
    (h0 : 1721010 ≤ P) (h1 : P ≤ 2819900) :
    IsF64 (ssP A lat lon P) ∧ (P : ℚ) - 1 / 2 + 9 / 1000 ≤ ssP A lat lon P + fl (lon / 360) ∧
      ssP A lat lon P + fl (lon / 360) ≤ P + 1 / 2 - 9 / 1000 := by
  have e1 : eraLast = 2820000 := rfl
  have e0 : eraFirst = 1721000 := rfl
  obtain ⟨b0, b1⟩ := scaleDiff_bounds P
  have hm := hS (P + scaleDiff P) (by omega) (by omega)
  obtain ⟨hf, h⟩ := ssOf_spec (A := A) (lat := lat) hl (D := P + scaleDiff P) (by omega) (by omega)
    ⟨by linarith [hm.1], by linarith [hm.2]⟩
  have h := abs_le.mp h
  push_cast at h
  have ha := abs_le.mp hl
  have hPq0 : (1721010 : ℚ) ≤ P := by exact_mod_cast h0
  have hPq1 : (P : ℚ) ≤ 2819900 := by exact_mod_cast h1
  have b0q : (0 : ℚ) ≤ scaleDiff P := by exact_mod_cast b0
  have b1q : (scaleDiff P : ℚ) ≤ 12 := by exact_mod_cast b1
  have hx := fl_sub_small hf (scaleDiff P) b0 (by omega) (by linarith [hm.1]) (by linarith [hm.2])
  unfold ssP
  exact ⟨hx, by linarith [hm.1], by linarith [hm.2]⟩

theorem exact_ssP (hS : SunSets A lat lon) (hl : |fl (lon / 360)| ≤ 1 / 2) {P Q : ℤ} (hP : Quiet P)
    (h0 : P - 1 ≤ Q) (h1 : Q ≤ P + 1) :
    exactFromMeeus (ssOf A lat lon (Q + scaleDiff P)) = .ok (ssP A lat lon Q) := by
  have p0 := hP.1
  have p1 := hP.2.1
  obtain ⟨hf, a, b⟩ := ssP_bounds hS hl (P := Q) (by omega) (by omega)
  obtain ⟨-, c, d⟩ := ssOf_place hS hl (P := Q) (by omega) (by omega)
  have e := hP.same (N := Q) (by omega) (by omega)
  rw [e] at c d
  have q0 : (P : ℚ) - 1 ≤ Q := by exact_mod_cast h0
  have q1 : (Q : ℚ) ≤ P + 1 := by exact_mod_cast h1
  rw [exact_quiet hP (by linarith) (by linarith)]
  have : ssOf A lat lon (Q + scaleDiff P) - scaleDiff P = ssP A lat lon Q := by unfold ssP; rw [e]
  rw [this, hf]

theorem Quiet.cast {P : ℤ} (h : Quiet P) : (1721100 : ℚ) ≤ P ∧ (P : ℚ) ≤ 2819700 :=
  ⟨by exact_mod_cast h.1, by exact_mod_cast h.2.1⟩

theorem scaleDiff_cast (P : ℤ) : (0 : ℚ) ≤ scaleDiff P ∧ (scaleDiff P : ℚ) ≤ 12 :=
  ⟨by exact_mod_cast (scaleDiff_bounds P).1, by exact_mod_cast (scaleDiff_bounds P).2⟩

/-- A Julian day near a quiet day and the same on the other scale are on one side of 2097152. -/
theorem Quiet.side {P : ℤ} (h : Quiet P) : (P : ℚ) + scaleDiff P ≤ 2097148 ∨ 2097156 ≤ (P : ℚ) + scaleDiff P := by
  obtain ⟨-, -, -, -, hb⟩ := h
  have eight : 2097000 ≤ P → P < 2122884 → scaleDiff P = 8 := by
    intro h0 c
    unfold scaleDiff iMeeusTable
    repeat rw [iLookup_skip (by omega)]
    rw [iLookup_take (by omega)]
  rcases hb with hb | hb
  · left
    have b := (scaleDiff_bounds P).2
    rcases lt_or_ge P 2097000 with c | c
    · exact_mod_cast (by omega : P + scaleDiff P ≤ 2097148)
    · have e := eight c (by omega)
      exact_mod_cast (by omega : P + scaleDiff P ≤ 2097148)
  · right
    rcases lt_or_ge P 2122884 with c | c
    · rw [eight (by omega) c]
      have : ((2097148 : ℤ) : ℚ) ≤ P := by exact_mod_cast (by omega : (2097148 : ℤ) ≤ P)
      push_cast at this ⊢; linarith
    · have : ((2122884 : ℤ) : ℚ) ≤ P := by exact_mod_cast c
      have := (scaleDiff_cast P).1
      push_cast at *; linarith

/-- The sunset picked for an instant of the day that starts at the sunset of civil day `P`. -/
theorem utc_place {C : Cal} (hC : C.astro = A) (hS : SunSets A lat lon)
    (hl : |fl (lon / 360)| ≤ 1 / 2) {x : ℚ} (hx : IsF64 x) {P : ℤ}
    (hP : Quiet P) (hx0 : ssP A lat lon P ≤ x)
    (hx1 : x < ssP A lat lon (P + 1)) (hx2 : x < ssP A lat lon P + 1) :
    C.utcToBadiTime x lat lon = .ok (ssP A lat lon P, x - ssP A lat lon P) := by
  subst hC
  have p0 := hP.1
  have p1 := hP.2.1
  obtain ⟨sf, s0, s1⟩ := ssP_bounds hS hl (P := P) (by omega) (by omega)
  obtain ⟨tf, t0, t1⟩ := ssP_bounds hS hl (P := P + 1) (by omega) (by omega)
  push_cast at t0 t1
  have ha := abs_le.mp hl
  obtain ⟨hPq0, hPq1⟩ := hP.cast
  obtain ⟨c0, c1⟩ := scaleDiff_cast P
  have hside := hP.side
  have er := abs_le.mp (fl_err_le (x := x + scaleDiff P) (B := 4194304) (abs_le.mpr ⟨by linarith, by linarith⟩))
  have m1 := meeus_quiet hP (x := x) (by linarith) (by linarith)
  have m2 : fl (fl (x + scaleDiff P) + 0) = fl (x + scaleDiff P) := by rw [add_zero, fl_idem]
  have m3 : fl (fl (x + scaleDiff P) + (-1)) = fl (x + scaleDiff P) - 1 := by
    have := fl_sub_small (isF64_fl (x + scaleDiff P)) 1 (by norm_num) (by norm_num) (by linarith) (by linarith)
    push_cast at this
    rw [← sub_eq_add_neg]; exact this
  have cp := civilDay_pred hl (x := fl (x + scaleDiff P))
    (by rcases hside with h | h
        · exact Or.inl ⟨by linarith, by linarith⟩
        · exact Or.inr ⟨by linarith, by linarith⟩)
  have hfl : fl (x - ssP C.astro lat lon P) = x - ssP C.astro lat lon P :=
    fl_sub_jd hx sf (by linarith) (by linarith) (by rw [abs_le]; constructor <;> linarith)
  have key : pickSs x (ssP C.astro lat lon (P - 1)) (ssP C.astro lat lon P) = ssP C.astro lat lon P :=
    pickSs_curr hx sf hx0 hx2 (by linarith)
  have key2 : pickSs x (ssP C.astro lat lon P) (ssP C.astro lat lon (P + 1)) = ssP C.astro lat lon P := by
    rw [pickSs_prev hx sf hx1 hx0 (by linarith) (by linarith), if_neg (by linarith)]
  rcases civilDay_two (D := P + scaleDiff P) (x := fl (x + scaleDiff P)) (by linarith) (by linarith) hl
    (by push_cast; linarith) (by push_cast; linarith) with c | c
  · rw [utc_core (s0 := ssP C.astro lat lon (P - 1)) (s1 := ssP C.astro lat lon P) m1
      (by rw [m3, cp, c, show P + scaleDiff P - 1 = P - 1 + scaleDiff P by ring]
          exact exact_ssP hS hl hP (by omega) (by omega))
      (by rw [m2, c]; exact exact_ssP hS hl hP (by omega) (by omega)), key, hfl]
  · rw [utc_core (s0 := ssP C.astro lat lon P) (s1 := ssP C.astro lat lon (P + 1)) m1
      (by rw [m3, cp, c, show P + scaleDiff P + 1 - 1 = P + scaleDiff P by ring]
          exact exact_ssP hS hl hP (by omega) (by omega))
      (by rw [m2, c, show P + scaleDiff P + 1 = P + 1 + scaleDiff P by ring]
          exact exact_ssP hS hl hP (by omega) (by omega)), key2, hfl]

/-- A day after the start of a day has no rounding. -/
theorem ssP_next {P : ℤ} (hS : SunSets A lat lon) (hl : |fl (lon / 360)| ≤ 1 / 2) (hP : Quiet P) :
    fl (ssP A lat lon P + 1) = ssP A lat lon P + 1 := by
  have p0 := hP.1
  have p1 := hP.2.1
  obtain ⟨of, o0, o1⟩ := ssOf_place hS hl (P := P) (by omega) (by omega)
  obtain ⟨b0, b1⟩ := scaleDiff_bounds P
  obtain ⟨c0, c1⟩ := scaleDiff_cast P
  obtain ⟨q0, q1⟩ := hP.cast
  rcases eq_or_lt_of_le b0 with e | e
  · obtain ⟨sf, s0, s1⟩ := ssP_bounds hS hl (P := P) (by omega) (by omega)
    have ha := abs_le.mp hl
    have hs := hP.side
    have lt : (P : ℚ) ≤ 2097148 := by
      rcases hs with h | h
      · linarith
      · exfalso
        have : scaleDiff P ≠ 0 := by
          have hp : (2097144 : ℤ) ≤ P := by
            have : ((2097144 : ℤ) : ℚ) ≤ P := by push_cast; linarith
            exact_mod_cast this
          unfold scaleDiff iMeeusTable
          rw [iLookup_skip (by omega), iLookup_skip (by omega)]
          have : ∀ (l : List (ℤ × ℤ)), (∀ p ∈ l, p.2 ≠ 0) → iLookup P l ≠ 0 := by
            intro l
            induction l with
            | nil => intro _; unfold iLookup; norm_num
            | cons p l ih =>
              intro h
              unfold iLookup
              split
              · exact h p (by simp)
              · exact ih fun q hq => h q (by simp [hq])
          exact this _ (by decide)
        omega
    obtain ⟨k, hk⟩ := isF64_multiple (e := 20) sf (by rw [pow2_20, abs_of_nonneg (by linarith)]; linarith)
    apply fl_of_multiple (e := 20)
    · refine ⟨k + 2 ^ 32, ?_⟩
      have : pow2 (20 - 52) = 1 / 2 ^ 32 := by rw [pow2_eq]; norm_num [zpow_neg]
      rw [hk, this]; push_cast; ring
    · rw [abs_of_nonneg (by linarith), show (20 : ℤ) + 1 = 21 by norm_num, pow2_eq]; norm_num; linarith
  · have := fl_sub_small of (scaleDiff P - 1) (by omega) (by omega) (by linarith) (by linarith)
    unfold ssP
    push_cast at this
    rw [show ssOf A lat lon (P + scaleDiff P) - scaleDiff P + 1
      = ssOf A lat lon (P + scaleDiff P) - (scaleDiff P - 1) by ring]
    exact this

/-- The sunset picked 24 hours or more after the start of the day: one day after that start. -/
theorem utc_place_long {C : Cal} (hC : C.astro = A) (hS : SunSets A lat lon)
    (hl : |fl (lon / 360)| ≤ 1 / 2) {x : ℚ} (hx : IsF64 x) {P : ℤ}
    (hP : Quiet P) (hx0 : ssP A lat lon P + 1 ≤ x)
    (hx1 : x < ssP A lat lon (P + 1)) :
    C.utcToBadiTime x lat lon = .ok (ssP A lat lon P + 1, x - (ssP A lat lon P + 1)) := by
  subst hC
  have p0 := hP.1
  have p1 := hP.2.1
  obtain ⟨sf, s0, s1⟩ := ssP_bounds hS hl (P := P) (by omega) (by omega)
  obtain ⟨tf, t0, t1⟩ := ssP_bounds hS hl (P := P + 1) (by omega) (by omega)
  push_cast at t0 t1
  have ha := abs_le.mp hl
  obtain ⟨hPq0, hPq1⟩ := hP.cast
  obtain ⟨c0, c1⟩ := scaleDiff_cast P
  have hside := hP.side
  have er := abs_le.mp (fl_err_le (x := x + scaleDiff P) (B := 4194304) (abs_le.mpr ⟨by linarith, by linarith⟩))
  have m1 := meeus_quiet hP (x := x) (by linarith) (by linarith)
  have m2 : fl (fl (x + scaleDiff P) + 0) = fl (x + scaleDiff P) := by rw [add_zero, fl_idem]
  have m3 : fl (fl (x + scaleDiff P) + (-1)) = fl (x + scaleDiff P) - 1 := by
    have := fl_sub_small (isF64_fl (x + scaleDiff P)) 1 (by norm_num) (by norm_num) (by linarith) (by linarith)
    push_cast at this
    rw [← sub_eq_add_neg]; exact this
  have cp := civilDay_pred hl (x := fl (x + scaleDiff P))
    (by rcases hside with h | h
        · exact Or.inl ⟨by linarith, by linarith⟩
        · exact Or.inr ⟨by linarith, by linarith⟩)
  have s1f := ssP_next hS hl hP
  have hfl : fl (x - (ssP C.astro lat lon P + 1)) = x - (ssP C.astro lat lon P + 1) :=
    fl_sub_jd hx s1f (by linarith) (by linarith) (by rw [abs_le]; constructor <;> linarith)
  have hfl0 : fl (x - ssP C.astro lat lon P) = x - ssP C.astro lat lon P :=
    fl_sub_jd hx sf (by linarith) (by linarith) (by rw [abs_le]; constructor <;> linarith)
  have key : pickSs x (ssP C.astro lat lon (P - 1)) (ssP C.astro lat lon P) = ssP C.astro lat lon P + 1 := by
    unfold pickSs
    simp only [if_pos (by linarith : ssP C.astro lat lon P ≤ x)]
    rw [hfl0, if_neg (by linarith), if_pos (by linarith), s1f]
  have key2 : pickSs x (ssP C.astro lat lon P) (ssP C.astro lat lon (P + 1)) = ssP C.astro lat lon P + 1 := by
    rw [pickSs_prev hx sf hx1 (by linarith) (by linarith) (by linarith), if_pos (by linarith), s1f]
  rcases civilDay_two (D := P + scaleDiff P) (x := fl (x + scaleDiff P)) (by linarith) (by linarith) hl
    (by push_cast; linarith) (by push_cast; linarith) with c | c
  · rw [utc_core (s0 := ssP C.astro lat lon (P - 1)) (s1 := ssP C.astro lat lon P) m1
      (by rw [m3, cp, c, show P + scaleDiff P - 1 = P - 1 + scaleDiff P by ring]
          exact exact_ssP hS hl hP (by omega) (by omega))
      (by rw [m2, c]; exact exact_ssP hS hl hP (by omega) (by omega)), key, hfl]
  · rw [utc_core (s0 := ssP C.astro lat lon P) (s1 := ssP C.astro lat lon (P + 1)) m1
      (by rw [m3, cp, c, show P + scaleDiff P + 1 - 1 = P + scaleDiff P by ring]
          exact exact_ssP hS hl hP (by omega) (by omega))
      (by rw [m2, c, show P + scaleDiff P + 1 = P + 1 + scaleDiff P by ring]
          exact exact_ssP hS hl hP (by omega) (by omega)), key2, hfl]

theorem civilDay_ssP (hS : SunSets A lat lon) (hl : |fl (lon / 360)| ≤ 1 / 2) {P : ℤ}
    (h0 : 1721100 ≤ P) (h1 : P ≤ 2819700) : civilDay (ssP A lat lon P) (fl (lon / 360)) = P := by
  obtain ⟨sf, s0, s1⟩ := ssP_bounds hS hl (P := P) (by omega) (by omega)
  have ha := abs_le.mp hl
  have hPq0 : (1721100 : ℚ) ≤ P := by exact_mod_cast h0
  have hPq1 : (P : ℚ) ≤ 2819700 := by exact_mod_cast h1
  apply civilDay_eq _ _ hl <;> linarith

theorem civilDay_ssP_long (hS : SunSets A lat lon) (hl : |fl (lon / 360)| ≤ 1 / 2) {P : ℤ}
    (h0 : 1721100 ≤ P) (h1 : P ≤ 2819700) : civilDay (ssP A lat lon P + 1) (fl (lon / 360)) = P + 1 := by
  obtain ⟨sf, s0, s1⟩ := ssP_bounds hS hl (P := P) (by omega) (by omega)
  have ha := abs_le.mp hl
  have hPq0 : (1721100 : ℚ) ≤ P := by exact_mod_cast h0
  have hPq1 : (P : ℚ) ≤ 2819700 := by exact_mod_cast h1
  apply civilDay_eq _ _ hl <;> push_cast <;> linarith

/-- West of the date line an integer Julian day is noon of its own civil day. -/
theorem civilDay_noon {lf : ℚ} {D : ℤ} (h0 : 0 ≤ D) (h1 : D ≤ 3000000) (l0 : -(1 / 2) ≤ lf)
    (l1 : lf ≤ 1 / 2 - 1 / 100000000) : civilDay D lf = D := by
  have q0 : (0 : ℚ) ≤ D := by exact_mod_cast h0
  have q1 : (D : ℚ) ≤ 3000000 := by exact_mod_cast h1
  have e1 := abs_le.mp (fl_err_le (x := D + lf) (B := 4194304) (abs_le.mpr ⟨by linarith, by linarith⟩))
  have e2 := abs_le.mp (fl_err_le (x := fl (D + lf) + 1 / 2) (B := 4194304 * 2)
    (abs_le.mpr ⟨by linarith, by linarith⟩))
  have a : (D : ℚ) - 1 / 2 ≤ fl (D + lf) := by
    apply le_fl_of_le (by linarith)
    rw [show (D : ℚ) - 1 / 2 = ((2 * D - 1 : ℤ) : ℚ) / 2 by push_cast; ring]
    apply fl_half
    rw [abs_le]; constructor <;> norm_num <;> omega
  have b : (D : ℚ) ≤ fl (fl (D + lf) + 1 / 2) := by
    apply le_fl_of_le (by linarith)
    apply isF64_int
    rw [abs_le]; constructor <;> norm_num <;> omega
  unfold civilDay
  rw [Int.floor_eq_iff]
  exact ⟨b, by linarith⟩

/-- On the date line it is the midnight that ends the day. -/
theorem civilDay_dateLine {D : ℤ} (h0 : 0 ≤ D) (h1 : D ≤ 3000000) :
    civilDay D (fl (180 / 360)) = D + 1 := by
  have hh : fl ((180 : ℚ) / 360) = 1 / 2 := by
    rw [show (180 : ℚ) / 360 = ((1 : ℤ) : ℚ) / 2 by norm_num, fl_half _ (by norm_num)]; norm_num
  have e1 : fl ((D : ℚ) + 1 / 2) = D + 1 / 2 := by
    rw [show (D : ℚ) + 1 / 2 = ((2 * D + 1 : ℤ) : ℚ) / 2 by push_cast; ring, fl_half]
    rw [abs_le]; constructor <;> norm_num <;> omega
  have e2 : fl ((D : ℚ) + 1 / 2 + 1 / 2) = ((D + 1 : ℤ) : ℚ) := by
    rw [show (D : ℚ) + 1 / 2 + 1 / 2 = ((D + 1 : ℤ) : ℚ) by push_cast; ring]
    apply isF64_int
    rw [abs_le]; constructor <;> norm_num <;> omega
  unfold civilDay
  rw [hh, e1, e2, Int.floor_intCast]

/-- `jd_from_badi_date` at a place; `Q` is the civil day whose sunset the code takes. -/
theorem jd_place (hE : TehranEvening A) (hS : SunSets A lat lon) (hl : |fl (lon / 360)| ≤ 1 / 2)
    {y m d n : ℤ} {t : List ℚ} (hd : DayNumber (Cal.init A) y m d n) (hP : Quiet (n + 1721423))
    (hchk : (Cal.init A).checkShort ⟨y, m, d, t⟩ = .ok ()) {Q : ℤ}
    (hQ : civilDay ((n + 1721423 + scaleDiff (n + 1721423) : ℤ) : ℚ) (fl (lon / 360))
      = Q + scaleDiff (n + 1721423))
    (hQ0 : n + 1721423 ≤ Q) (hQ1 : Q ≤ n + 1721423 + 1) :
    (Cal.init A).jdFromBadiDate ⟨y, m, d, t⟩ lat lon =
      (decimalDayFromHms (getHms t).1 (getHms t).2.1 (getHms t).2.2.1 (getHms t).2.2.2 >>=
        fun f => .ok (pyRound (fl (ssP A lat lon Q + f)) 12)) := by
  obtain ⟨h0, h1, hv, hnn⟩ := (dayNumber_iff hE).mp hd
  have n0 := hP.1
  have n1 := hP.2.1
  have hl' := init_isLeap hE h0 h1
  set N := daysInYears (y - 1) + 2394644 + dBefore (leapOf y) m + d with hN
  have hPN : n + 1721423 = N + getDayCoeff y := by rw [hnn, hN]; unfold ysInt; ring
  have bc := getDayCoeff_cases y
  obtain ⟨b0, b1⟩ := scaleDiff_bounds (n + 1721423)
  unfold Cal.jdFromBadiDate
  rw [hchk, pyOk_bind]
  simp only []
  rw [daysBefore_eq hl', pyOk_bind, epochFloor]
  have hjd : fl (((daysInYears (y - 1) + 2394644 + dBefore (leapOf y) m : ℤ) : ℚ) + (d : ℚ)) = (N : ℚ) := by
    have : ((daysInYears (y - 1) + 2394644 + dBefore (leapOf y) m : ℤ) : ℚ) + (d : ℚ) = (N : ℚ) := by
      rw [hN]; push_cast; ring
    rw [this]; apply fl_int; rw [abs_le]; constructor <;> norm_num <;> omega
  have hN0 : ((n + 1721423 : ℤ) : ℚ) ≤ N := by exact_mod_cast (by omega : n + 1721423 ≤ N)
  have hN1 : (N : ℚ) ≤ ((n + 1721423 : ℤ) : ℚ) + 2 := by exact_mod_cast (by omega : N ≤ n + 1721423 + 2)
  change (meeusFromExact (fl (((daysInYears (y - 1) + 2394644 + dBefore (leapOf y) m : ℤ) : ℚ) + (d : ℚ))) >>= _) = _
  rw [hjd, meeus_quiet hP (by linarith) (by linarith), pyOk_bind]
  set c := scaleDiff (n + 1721423) with hc
  have hj0 : fl ((N : ℚ) + (c : ℚ)) = ((N + c : ℤ) : ℚ) := by
    rw [show (N : ℚ) + (c : ℚ) = ((N + c : ℤ) : ℚ) by push_cast; ring]
    apply fl_int; rw [abs_le]; constructor <;> norm_num <;> omega
  have hj1 : fl (((N + c : ℤ) : ℚ) + (getDayCoeff y : ℚ)) = ((n + 1721423 + c : ℤ) : ℚ) := by
    rw [← Int.cast_add, show N + c + getDayCoeff y = n + 1721423 + c by omega]
    apply fl_int; rw [abs_le]; constructor <;> norm_num <;> omega
  have hx := exact_ssP hS hl hP (Q := Q) (by omega) (by omega)
  rw [← hc] at hx
  rw [hj0, hj1, sunSetting_eq, hQ, show (Cal.init A).astro = A from rfl, hx, pyOk_bind]

/-- The start of a date. -/
theorem jd_place_start (hE : TehranEvening A) (hS : SunSets A lat lon)
    (hl : |fl (lon / 360)| ≤ 1 / 2)
    {y m d n : ℤ} (hd : DayNumber (Cal.init A) y m d n) (hP : Quiet (n + 1721423)) {Q : ℤ}
    (hQ : civilDay ((n + 1721423 + scaleDiff (n + 1721423) : ℤ) : ℚ) (fl (lon / 360))
      = Q + scaleDiff (n + 1721423))
    (hQ0 : n + 1721423 ≤ Q) (hQ1 : Q ≤ n + 1721423 + 1) :
    (Cal.init A).jdFromBadiDate ⟨y, m, d, []⟩ lat lon = .ok (ssP A lat lon Q) := by
  obtain ⟨h0, h1, hv, hnn⟩ := (dayNumber_iff hE).mp hd
  have n0 := hP.1
  have n1 := hP.2.1
  have hchk := checkShort_day (init_isLeap hE h0 h1) h0 (by omega) hv
  rw [jd_place hE hS hl hd hP hchk hQ hQ0 hQ1]
  obtain ⟨sf, s0, s1⟩ := ssP_bounds hS hl (P := Q) (by omega) (by omega)
  have ha := abs_le.mp hl
  have hPq0 : (1721100 : ℚ) ≤ Q := by exact_mod_cast (by omega : (1721100 : ℤ) ≤ Q)
  have hPq1 : (Q : ℚ) ≤ 2819701 := by exact_mod_cast (by omega : Q ≤ (2819701 : ℤ))
  have hz : decimalDayFromHms (getHms []).1 (getHms []).2.1 (getHms []).2.2.1 (getHms []).2.2.2
      = .ok 0 := by decide +kernel
  rw [hz, pyOk_bind, add_zero, sf, pyRound12_id sf (by rw [abs_of_nonneg (by linarith)]; linarith)]

/-- Every instant lies in the day of some civil day's sunset. -/
theorem day_of_instant_place (hS : SunSets A lat lon) (hl : |fl (lon / 360)| ≤ 1 / 2) {x : ℚ}
    (h0 : 1721110 ≤ x) (h1 : x ≤ 2819690) :
    ∃ P : ℤ, 1721100 ≤ P ∧ P ≤ 2819700 ∧ ssP A lat lon P ≤ x ∧ x < ssP A lat lon (P + 1) := by
  have ha := abs_le.mp hl
  have f0 := Int.floor_le x
  have f1 := Int.lt_floor_add_one x
  have g0 : 1721110 ≤ ⌊x⌋ := by rw [Int.le_floor]; exact_mod_cast h0
  have g1 : ⌊x⌋ ≤ 2819690 := by
    have : ((⌊x⌋ : ℤ) : ℚ) ≤ ((2819690 : ℤ) : ℚ) := by push_cast; linarith
    exact_mod_cast this
  have b : ∀ Q : ℤ, 1721010 ≤ Q → Q ≤ 2819900 → (Q : ℚ) - 1 < ssP A lat lon Q ∧ ssP A lat lon Q < Q + 1 := by
    intro Q q0 q1
    obtain ⟨-, u, v⟩ := ssP_bounds hS hl q0 q1
    constructor <;> linarith
  have b2 := b (⌊x⌋ + 2) (by omega) (by omega)
  have bm := b (⌊x⌋ - 1) (by omega) (by omega)
  push_cast at b2 bm
  by_cases c1 : x < ssP A lat lon (⌊x⌋)
  · exact ⟨⌊x⌋ - 1, by omega, by omega, by linarith, by rwa [sub_add_cancel]⟩
  · push Not at c1
    by_cases c2 : x < ssP A lat lon (⌊x⌋ + 1)
    · exact ⟨⌊x⌋, by omega, by omega, c1, c2⟩
    · push Not at c2
      refine ⟨⌊x⌋ + 1, by omega, by omega, c2, ?_⟩
      rw [show ⌊x⌋ + 1 + 1 = ⌊x⌋ + 2 by ring]
      linarith

end

end Verif
