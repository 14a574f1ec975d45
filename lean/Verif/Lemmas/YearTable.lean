import Verif.Lemmas.Sunset
import Verif.Lemmas.Coeff
import Mathlib.Order.Monotone.Basic
import Mathlib.Algebra.Order.Group.Int

/-!
# Helper lemmas: the table of year starts in integers
-/

namespace Verif

/-! ### `_days_in_years` -/

theorem daysInYears_eq (y : ℤ) : daysInYears y = 365 * y + (y / 4 - y / 100 + y / 400) := by
  unfold daysInYears; simp; ring

theorem daysInYears_succ_ge (y : ℤ) : daysInYears y + 365 ≤ daysInYears (y + 1) := by
  rw [daysInYears_eq, daysInYears_eq]; omega

theorem daysInYears_mono {a b : ℤ} (h : a ≤ b) : daysInYears a ≤ daysInYears b := by
  have : Monotone (fun y => daysInYears y) :=
    monotone_int_of_le_succ (fun n => by have := daysInYears_succ_ge n; omega)
  exact this h

/-! ### Lookup by region -/

theorem iLookup_skip {N K d : ℤ} {r : List (ℤ × ℤ)} (h : K < N) :
    iLookup N ((K, d) :: r) = iLookup N r := by
  simp only [iLookup]; rw [if_neg (by omega)]

theorem iLookup_take {N K d : ℤ} {r : List (ℤ × ℤ)} (h : N ≤ K) :
    iLookup N ((K, d) :: r) = d := by
  simp only [iLookup]; rw [if_pos h]

theorem iMeeus_region (N : ℤ) :
    (N ≤ 1757641 → iLookup N iMeeusTable = 0) ∧
    (1757641 < N → N ≤ 1794165 → iLookup N iMeeusTable = 1) ∧
    (1794165 < N → N ≤ 1830689 → iLookup N iMeeusTable = 2) ∧
    (1830689 < N → N ≤ 1903738 → iLookup N iMeeusTable = 3) ∧
    (1903738 < N → N ≤ 1940262 → iLookup N iMeeusTable = 4) ∧
    (1940262 < N → N ≤ 1976786 → iLookup N iMeeusTable = 5) ∧
    (1976786 < N → N ≤ 2049835 → iLookup N iMeeusTable = 6) ∧
    (2049835 < N → N ≤ 2086359 → iLookup N iMeeusTable = 7) ∧
    (2086359 < N → N ≤ 2122883 → iLookup N iMeeusTable = 8) ∧
    (2122883 < N → N ≤ 2195932 → iLookup N iMeeusTable = 9) ∧
    (2195932 < N → N ≤ 2232456 → iLookup N iMeeusTable = 10) ∧
    (2232456 < N → N ≤ 2268980 → iLookup N iMeeusTable = 11) ∧
    (2268980 < N → N ≤ 2299148 → iLookup N iMeeusTable = 12) ∧
    (2299148 < N → iLookup N iMeeusTable = 2) := by
  unfold iMeeusTable
  refine ⟨?_, ?_, ?_, ?_, ?_, ?_, ?_, ?_, ?_, ?_, ?_, ?_, ?_, ?_⟩ <;> intros <;>
    repeat (first | rfl | exact iLookup_take (by omega) | rw [iLookup_skip (by omega)])

theorem iExact_region (N : ℤ) :
    (N ≤ 1757641 → iLookup N iExactTable = 0) ∧
    (1757641 < N → N ≤ 1794166 → iLookup N iExactTable = 1) ∧
    (1794166 < N → N ≤ 1830691 → iLookup N iExactTable = 2) ∧
    (1830691 < N → N ≤ 1903741 → iLookup N iExactTable = 3) ∧
    (1903741 < N → N ≤ 1940266 → iLookup N iExactTable = 4) ∧
    (1940266 < N → N ≤ 1976791 → iLookup N iExactTable = 5) ∧
    (1976791 < N → N ≤ 2049841 → iLookup N iExactTable = 6) ∧
    (2049841 < N → N ≤ 2086366 → iLookup N iExactTable = 7) ∧
    (2086366 < N → N ≤ 2122891 → iLookup N iExactTable = 8) ∧
    (2122891 < N → N ≤ 2195941 → iLookup N iExactTable = 9) ∧
    (2195941 < N → N ≤ 2232466 → iLookup N iExactTable = 10) ∧
    (2232466 < N → N ≤ 2268991 → iLookup N iExactTable = 11) ∧
    (2268991 < N → N ≤ 2299160 → iLookup N iExactTable = 12) ∧
    (2299160 < N → iLookup N iExactTable = 2) := by
  unfold iExactTable
  refine ⟨?_, ?_, ?_, ?_, ?_, ?_, ?_, ?_, ?_, ?_, ?_, ?_, ?_, ?_⟩ <;> intros <;>
    repeat (first | rfl | exact iLookup_take (by omega) | rw [iLookup_skip (by omega)])

theorem iInvalid_mem (M : ℤ) : M ∈ iInvalid ↔
    (M = 1757642 ∨ M = 1794167 ∨ M = 1830692 ∨ M = 1903742 ∨ M = 1940267 ∨ M = 1976792 ∨
     M = 2049842 ∨ M = 2086367 ∨ M = 2122892 ∨ M = 2195942 ∨ M = 2232467 ∨ M = 2268992) := by
  simp [iInvalid]

/-- Last exact day number before each change of the difference between the two JD numberings. -/
def changeDays : List ℤ :=
  [1757641, 1794165, 1830689, 1903738, 1940262, 1976786, 2049835, 2086359, 2122883, 2195932,
   2232456, 2268980]

/-- `N` is neither of the two days after a change, nor in the days of the reform. -/
def Regular (N : ℤ) : Prop :=
  (∀ K ∈ changeDays, N ≠ K + 1 ∧ N ≠ K + 2) ∧ (N ≤ 2299148 ∨ 2299161 ≤ N)

instance (N : ℤ) : Decidable (Regular N) := by unfold Regular; infer_instance

theorem regular_iff (N : ℤ) : Regular N ↔
    N ≠ 1757642 ∧ N ≠ 1757643 ∧ N ≠ 1794166 ∧ N ≠ 1794167 ∧ N ≠ 1830690 ∧ N ≠ 1830691 ∧
    N ≠ 1903739 ∧ N ≠ 1903740 ∧ N ≠ 1940263 ∧ N ≠ 1940264 ∧ N ≠ 1976787 ∧ N ≠ 1976788 ∧
    N ≠ 2049836 ∧ N ≠ 2049837 ∧ N ≠ 2086360 ∧ N ≠ 2086361 ∧ N ≠ 2122884 ∧ N ≠ 2122885 ∧
    N ≠ 2195933 ∧ N ≠ 2195934 ∧ N ≠ 2232457 ∧ N ≠ 2232458 ∧ N ≠ 2268981 ∧ N ≠ 2268982 ∧
    (N ≤ 2299148 ∨ 2299161 ≤ N) := by
  unfold Regular changeDays
  simp only [List.mem_cons, List.not_mem_nil, or_false, forall_eq_or_imp, forall_eq]
  norm_num
  tauto

theorem meeus_cases (N : ℤ) :
    (N ≤ 1757641 ∧ iLookup N iMeeusTable = 0) ∨
    (1757641 < N ∧ N ≤ 1794165 ∧ iLookup N iMeeusTable = 1) ∨
    (1794165 < N ∧ N ≤ 1830689 ∧ iLookup N iMeeusTable = 2) ∨
    (1830689 < N ∧ N ≤ 1903738 ∧ iLookup N iMeeusTable = 3) ∨
    (1903738 < N ∧ N ≤ 1940262 ∧ iLookup N iMeeusTable = 4) ∨
    (1940262 < N ∧ N ≤ 1976786 ∧ iLookup N iMeeusTable = 5) ∨
    (1976786 < N ∧ N ≤ 2049835 ∧ iLookup N iMeeusTable = 6) ∨
    (2049835 < N ∧ N ≤ 2086359 ∧ iLookup N iMeeusTable = 7) ∨
    (2086359 < N ∧ N ≤ 2122883 ∧ iLookup N iMeeusTable = 8) ∨
    (2122883 < N ∧ N ≤ 2195932 ∧ iLookup N iMeeusTable = 9) ∨
    (2195932 < N ∧ N ≤ 2232456 ∧ iLookup N iMeeusTable = 10) ∨
    (2232456 < N ∧ N ≤ 2268980 ∧ iLookup N iMeeusTable = 11) ∨
    (2268980 < N ∧ N ≤ 2299148 ∧ iLookup N iMeeusTable = 12) ∨
    (2299148 < N ∧ iLookup N iMeeusTable = 2) := by
  obtain ⟨h0, h1, h2, h3, h4, h5, h6, h7, h8, h9, h10, h11, h12, h13⟩ := iMeeus_region N
  rcases le_or_gt N 1757641 with a | a
  · exact Or.inl ⟨a, h0 a⟩
  refine Or.inr ?_
  rcases le_or_gt N 1794165 with b | b
  · exact Or.inl ⟨a, b, h1 a b⟩
  refine Or.inr ?_; clear a
  rcases le_or_gt N 1830689 with a | a
  · exact Or.inl ⟨b, a, h2 b a⟩
  refine Or.inr ?_; clear b
  rcases le_or_gt N 1903738 with b | b
  · exact Or.inl ⟨a, b, h3 a b⟩
  refine Or.inr ?_; clear a
  rcases le_or_gt N 1940262 with a | a
  · exact Or.inl ⟨b, a, h4 b a⟩
  refine Or.inr ?_; clear b
  rcases le_or_gt N 1976786 with b | b
  · exact Or.inl ⟨a, b, h5 a b⟩
  refine Or.inr ?_; clear a
  rcases le_or_gt N 2049835 with a | a
  · exact Or.inl ⟨b, a, h6 b a⟩
  refine Or.inr ?_; clear b
  rcases le_or_gt N 2086359 with b | b
  · exact Or.inl ⟨a, b, h7 a b⟩
  refine Or.inr ?_; clear a
  rcases le_or_gt N 2122883 with a | a
  · exact Or.inl ⟨b, a, h8 b a⟩
  refine Or.inr ?_; clear b
  rcases le_or_gt N 2195932 with b | b
  · exact Or.inl ⟨a, b, h9 a b⟩
  refine Or.inr ?_; clear a
  rcases le_or_gt N 2232456 with a | a
  · exact Or.inl ⟨b, a, h10 b a⟩
  refine Or.inr ?_; clear b
  rcases le_or_gt N 2268980 with b | b
  · exact Or.inl ⟨a, b, h11 a b⟩
  refine Or.inr ?_; clear a
  rcases le_or_gt N 2299148 with a | a
  · exact Or.inl ⟨b, a, h12 b a⟩
  exact Or.inr ⟨a, h13 a⟩

/-- Away from the changes the two JD conversions cancel, also after the correction of at most
two days. -/
theorem iLookup_regular {N c : ℤ} (hc : c = 0 ∨ c = -1 ∨ c = -2) (hN : Regular N) :
    N + iLookup N iMeeusTable + c ∉ iInvalid ∧
    iLookup (N + iLookup N iMeeusTable + c) iExactTable = iLookup N iMeeusTable := by
  rw [regular_iff] at hN
  rw [iInvalid_mem]
  rcases meeus_cases N with h | h | h | h | h | h | h | h | h | h | h | h | h | h
  · obtain ⟨a, e⟩ := h
    rw [e]
    exact ⟨by omega, (iExact_region _).1 (by omega)⟩
  · obtain ⟨a, b, e⟩ := h
    rw [e]
    exact ⟨by omega, (iExact_region _).2.1 (by omega) (by omega)⟩
  · obtain ⟨a, b, e⟩ := h
    rw [e]
    exact ⟨by omega, (iExact_region _).2.2.1 (by omega) (by omega)⟩
  · obtain ⟨a, b, e⟩ := h
    rw [e]
    exact ⟨by omega, (iExact_region _).2.2.2.1 (by omega) (by omega)⟩
  · obtain ⟨a, b, e⟩ := h
    rw [e]
    exact ⟨by omega, (iExact_region _).2.2.2.2.1 (by omega) (by omega)⟩
  · obtain ⟨a, b, e⟩ := h
    rw [e]
    exact ⟨by omega, (iExact_region _).2.2.2.2.2.1 (by omega) (by omega)⟩
  · obtain ⟨a, b, e⟩ := h
    rw [e]
    exact ⟨by omega, (iExact_region _).2.2.2.2.2.2.1 (by omega) (by omega)⟩
  · obtain ⟨a, b, e⟩ := h
    rw [e]
    exact ⟨by omega, (iExact_region _).2.2.2.2.2.2.2.1 (by omega) (by omega)⟩
  · obtain ⟨a, b, e⟩ := h
    rw [e]
    exact ⟨by omega, (iExact_region _).2.2.2.2.2.2.2.2.1 (by omega) (by omega)⟩
  · obtain ⟨a, b, e⟩ := h
    rw [e]
    exact ⟨by omega, (iExact_region _).2.2.2.2.2.2.2.2.2.1 (by omega) (by omega)⟩
  · obtain ⟨a, b, e⟩ := h
    rw [e]
    exact ⟨by omega, (iExact_region _).2.2.2.2.2.2.2.2.2.2.1 (by omega) (by omega)⟩
  · obtain ⟨a, b, e⟩ := h
    rw [e]
    exact ⟨by omega, (iExact_region _).2.2.2.2.2.2.2.2.2.2.2.1 (by omega) (by omega)⟩
  · obtain ⟨a, b, e⟩ := h
    rw [e]
    exact ⟨by omega, (iExact_region _).2.2.2.2.2.2.2.2.2.2.2.2.1 (by omega) (by omega)⟩
  · obtain ⟨a, e⟩ := h
    rw [e]
    exact ⟨by omega, (iExact_region _).2.2.2.2.2.2.2.2.2.2.2.2.2 (by omega)⟩

/-! ### Year starts -/

/-- Exact JD day number used for the first day of year `y`, before the correction. -/
def nrN (y : ℤ) : ℤ := daysInYears (y - 1) + 2394645

theorem nrN_gap {y0 lo hi : ℤ} (h0 : nrN y0 < lo) (h1 : hi < nrN (y0 + 1)) (y : ℤ) :
    nrN y < lo ∨ hi < nrN y := by
  unfold nrN at *
  rcases le_or_gt y y0 with h | h
  · left; have := daysInYears_mono (show y - 1 ≤ y0 - 1 by omega); omega
  · right; have := daysInYears_mono (show y0 + 1 - 1 ≤ y - 1 by omega); omega

theorem nrN_regular (y : ℤ) : Regular (nrN y) := by
  rw [regular_iff]
  have g0 := nrN_gap (y0 := -1744) (lo := 1757642) (hi := 1757643) (by decide) (by decide) y
  have g1 := nrN_gap (y0 := -1644) (lo := 1794166) (hi := 1794167) (by decide) (by decide) y
  have g2 := nrN_gap (y0 := -1544) (lo := 1830690) (hi := 1830691) (by decide) (by decide) y
  have g3 := nrN_gap (y0 := -1344) (lo := 1903739) (hi := 1903740) (by decide) (by decide) y
  have g4 := nrN_gap (y0 := -1244) (lo := 1940263) (hi := 1940264) (by decide) (by decide) y
  have g5 := nrN_gap (y0 := -1144) (lo := 1976787) (hi := 1976788) (by decide) (by decide) y
  have g6 := nrN_gap (y0 := -944) (lo := 2049836) (hi := 2049837) (by decide) (by decide) y
  have g7 := nrN_gap (y0 := -844) (lo := 2086360) (hi := 2086361) (by decide) (by decide) y
  have g8 := nrN_gap (y0 := -744) (lo := 2122884) (hi := 2122885) (by decide) (by decide) y
  have g9 := nrN_gap (y0 := -544) (lo := 2195933) (hi := 2195934) (by decide) (by decide) y
  have g10 := nrN_gap (y0 := -444) (lo := 2232457) (hi := 2232458) (by decide) (by decide) y
  have g11 := nrN_gap (y0 := -344) (lo := 2268981) (hi := 2268982) (by decide) (by decide) y
  have g12 := nrN_gap (y0 := -261) (lo := 2299149) (hi := 2299160) (by decide) (by decide) y
  refine ⟨?_, ?_, ?_, ?_, ?_, ?_, ?_, ?_, ?_, ?_, ?_, ?_, ?_, ?_, ?_, ?_, ?_, ?_, ?_, ?_, ?_, ?_,
    ?_, ?_, ?_⟩ <;> omega

/-- The Rata Die number of the first day of year `y`. -/
def ysInt (y : ℤ) : ℤ := daysInYears (y - 1) + getDayCoeff y + 673222

theorem getDayCoeff_cases (y : ℤ) :
    getDayCoeff y = 0 ∨ getDayCoeff y = -1 ∨ getDayCoeff y = -2 := by
  have key : ∀ (k : Fin 7) (r : ℤ),
      segPattern k r = 0 ∨ segPattern k r = -1 ∨ segPattern k r = -2 := by
    intro k r
    fin_cases k <;> simp only [segPattern, processSegments, processSegment, List.foldl_cons,
      List.foldl_nil] <;> split_ifs <;> simp
  by_cases h : y < -1843 ∨ 1162 ≤ y
  · left; exact getDayCoeff_out h
  · obtain ⟨p, _, hh, hc⟩ := seg_exists (y := y) (by omega) (by omega)
    rw [getDayCoeff_seg hc hh]; exact key _ _

/-! ### Lengths of the years -/

/-- Gregorian leap rule on the index `i = y + 1843`, in natural numbers. -/
def leapIdx (i : ℕ) : Bool :=
  (i + 157) % 4 == 0 && ((i + 157) % 100 != 0 || (i + 157) % 400 == 0)

/-- Check on the list of corrections: consecutive corrections are compatible with years of 365 or
366 days. -/
def walk : ℕ → List ℤ → Bool
  | _, [] => true
  | _, [_] => true
  | i, c :: c' :: r =>
    (if leapIdx i then (c' == c || c' == c - 1) else (c' == c || c' == c + 1)) &&
      walk (i + 1) (c' :: r)

set_option maxRecDepth 20000 in
theorem walk_ok : walk 0 (coeffList ++ [0]) = true := by decide +kernel

theorem walk_get {l : List ℤ} {i : ℕ} (h : walk i l = true) (j : ℕ) (hj : j + 1 < l.length) :
    (if leapIdx (i + j) then (l[j + 1] = l[j] ∨ l[j + 1] = l[j] - 1)
      else (l[j + 1] = l[j] ∨ l[j + 1] = l[j] + 1)) := by
  induction l generalizing i j with
  | nil => simp at hj
  | cons c r ih =>
    cases r with
    | nil => simp at hj
    | cons c' r =>
      simp only [walk, Bool.and_eq_true] at h
      cases j with
      | zero =>
        have h1 := h.1
        by_cases hl : leapIdx i = true
        · simp [hl] at h1 ⊢; exact h1
        · simp [hl] at h1 ⊢; exact h1
      | succ j =>
        have := ih h.2 j (by simpa using hj)
        have e : i + 1 + j = i + (j + 1) := by omega
        rw [e] at this
        simpa using this

theorem coeffs_get (j : ℕ) (hj : j < 3006) :
    (coeffList ++ [0])[j]? = some (getDayCoeff (-1843 + (j : ℤ))) := by
  rw [coeffList_spec]
  rcases Nat.lt_or_ge j 3005 with h | h
  · rw [List.getElem?_append_left (by simpa using h)]
    simp [h]
  · have : j = 3005 := by omega
    subst this
    rw [List.getElem?_append_right (by simp)]
    rw [getDayCoeff_out (Or.inr (by norm_num))]
    simp

theorem daysInYears_step (y : ℤ) : daysInYears y - daysInYears (y - 1) =
    365 + (if y % 4 = 0 ∧ (y % 100 ≠ 0 ∨ y % 400 = 0) then 1 else 0) := by
  rw [daysInYears_eq, daysInYears_eq]
  split_ifs with h <;> omega

theorem leapIdx_iff (i : ℕ) (y : ℤ) (h : y = -1843 + (i : ℤ)) :
    leapIdx i = true ↔ (y % 4 = 0 ∧ (y % 100 ≠ 0 ∨ y % 400 = 0)) := by
  unfold leapIdx
  simp only [Bool.and_eq_true, Bool.or_eq_true, beq_iff_eq, bne_iff_ne, ne_eq]
  omega

theorem ysInt_step {y : ℤ} (h0 : -1843 ≤ y) (h1 : y ≤ 1161) :
    ysInt (y + 1) - ysInt y = 365 ∨ ysInt (y + 1) - ysInt y = 366 := by
  obtain ⟨i, hi⟩ : ∃ i : ℕ, y = -1843 + (i : ℤ) := ⟨(y + 1843).toNat, by omega⟩
  have hlen : (coeffList ++ [0]).length = 3006 := by rw [coeffList_spec]; simp
  have hi1 : i + 1 < (coeffList ++ [0]).length := by omega
  have w := walk_get walk_ok i hi1
  have a := coeffs_get i (by omega)
  have b := coeffs_get (i + 1) (by omega)
  rw [List.getElem?_eq_getElem (by omega)] at a b
  have a := Option.some.inj a
  have b := Option.some.inj b
  rw [a, b, zero_add] at w
  have e1 : -1843 + ((i + 1 : ℕ) : ℤ) = y + 1 := by push_cast; omega
  rw [e1, ← hi] at w
  have s := daysInYears_step y
  have l := leapIdx_iff i y hi
  unfold ysInt
  rw [show y + 1 - 1 = y by ring]
  by_cases hl : leapIdx i = true
  · rw [if_pos hl] at w
    rw [if_pos (l.mp hl)] at s
    omega
  · rw [if_neg hl] at w
    rw [if_neg (fun h => hl (l.mpr h))] at s
    omega

end Verif
