import Verif.Model.Coeff
import Mathlib.Tactic.Linarith
import Mathlib.Tactic.FinCases
import Mathlib.Data.Fintype.Basic

/-!
# Helper lemmas: the correction table
-/

namespace Verif

/-- The seven tables by index. -/
def segTable : Fin 7 → List (ℤ × ℤ)
  | 0 => P1 | 1 => P1100 | 2 => P1110 | 3 => P2 | 4 => P2111 | 5 => P2211 | 6 => P2221

/-- Value of a segment of table `k` at distance `r` from its end. -/
def segPattern (k : Fin 7) (r : ℤ) : ℤ :=
  match k with
  | 0 => processSegments 0 [(0, r)] (-1) [0, 1, 2, 3] 0 []
  | 1 => processSegments 0 [(0, r)] (-1) [0, 3] 0 []
  | 2 => processSegments 0 [(0, r)] (-1) [0, 2, 3] 0 []
  | 3 => processSegments 0 [(0, r)] (-2) [0, 1, 2, 3] 0 []
  | 4 => processSegments 0 [(0, r)] (-2) [0] (-1) [1, 2, 3]
  | 5 => processSegments 0 [(0, r)] (-2) [0, 3] (-1) [1, 2]
  | 6 => processSegments 0 [(0, r)] (-2) [0, 2, 3] (-1) [1]

/-- A year lies in a segment. -/
def hit (y : ℤ) (p : ℤ × ℤ) : Prop := p.1 ≤ y ∧ y < p.2

theorem foldl_seg {β : Type} (val : ℤ × ℤ → β) (y : ℤ) (q : ℤ × ℤ) (hq : hit y q)
    (pn : List (ℤ × ℤ)) (h : ∀ p ∈ pn, hit y p → p = q) (c : β) :
    pn.foldl (fun coeff se => if se.1 ≤ y ∧ y < se.2 then val se else coeff) c
      = if q ∈ pn then val q else c := by
  induction pn generalizing c with
  | nil => simp
  | cons p r ih =>
    rw [List.foldl_cons, ih (fun p hp => h p (by simp [hp]))]
    by_cases hp : p.1 ≤ y ∧ y < p.2
    · have : p = q := h p (by simp) hp
      subst this
      simp [hp]
    · have : q ≠ p := by rintro rfl; exact hp hq
      simp [hp, this]

theorem processSegments_of {y : ℤ} {q : ℤ × ℤ} (hq : hit y q) {pn : List (ℤ × ℤ)}
    (h : ∀ p ∈ pn, hit y p → p = q) (a : ℤ) (o0 : List ℤ) (b : ℤ) (o1 : List ℤ) :
    processSegments y pn a o0 b o1
      = if q ∈ pn then processSegments 0 [(0, q.2 - y)] a o0 b o1 else 0 := by
  have := foldl_seg (fun se =>
      let coeff0 := processSegment (se.2 - y) a o0 0 []
      let coeff1 := processSegment (se.2 - y) 0 [] b o1
      if coeff0 ≠ 0 then coeff0 else coeff1) y q hq pn h (0 : ℤ)
  unfold processSegments
  rw [this]
  have hr : 0 < q.2 - y := by have := hq.2; omega
  simp only [List.foldl_cons, List.foldl_nil, sub_zero]
  rw [if_pos (c := (0 : ℤ) ≤ 0 ∧ 0 < q.2 - y) ⟨le_refl _, hr⟩]

/-- All segments in chronological order with their table. -/
def allSegs : List (Fin 7 × ℤ × ℤ) :=
  [(5, -1843, -1815), (6, -1815, -1799), (2, -1799, -1783), (0, -1783, -1747),
   (4, -1747, -1715), (5, -1715, -1699), (1, -1699, -1683), (2, -1683, -1651),
   (0, -1651, -1615), (4, -1615, -1583), (5, -1583, -1551), (6, -1551, -1519),
   (3, -1519, -1499), (0, -1499, -1483), (4, -1483, -1451), (5, -1451, -1415),
   (6, -1415, -1399), (2, -1399, -1383), (0, -1383, -1347), (4, -1347, -1315),
   (5, -1315, -1299), (1, -1299, -1283), (2, -1283, -1251), (0, -1251, -1215),
   (4, -1215, -1183), (5, -1183, -1151), (6, -1151, -1119), (3, -1119, -1099),
   (0, -1099, -1083), (4, -1083, -1051), (5, -1051, -1019), (6, -1019, -999), (2, -999, -983),
   (0, -983, -947), (4, -947, -915), (5, -915, -899), (1, -899, -883), (2, -883, -851),
   (0, -851, -815), (4, -815, -783), (5, -783, -751), (6, -751, -719), (3, -719, -699),
   (0, -699, -683), (4, -683, -651), (5, -651, -619), (6, -619, -599), (2, -599, -583),
   (0, -583, -547), (4, -547, -515), (5, -515, -499), (1, -499, -483), (2, -483, -451),
   (0, -451, -415), (4, -415, -383), (5, -383, -351), (6, -351, -319), (3, -319, -299),
   (0, -299, -283), (4, -283, -243), (5, -243, -211), (6, -211, -199), (2, -199, -179),
   (0, -179, -143), (4, -143, -111), (5, -111, -99), (1, -99, -79), (2, -79, -47),
   (0, -47, -11), (4, -11, 21), (5, 21, 53), (6, 53, 85), (3, 85, 101), (0, 101, 117),
   (4, 117, 149), (5, 149, 185), (6, 185, 201), (2, 201, 213), (0, 213, 249), (4, 249, 281),
   (5, 281, 301), (1, 301, 313), (2, 313, 345), (0, 345, 381), (4, 381, 413), (5, 413, 445),
   (6, 445, 477), (3, 477, 501), (0, 501, 513), (4, 513, 545), (5, 545, 577), (6, 577, 601),
   (2, 601, 609), (0, 609, 645), (4, 645, 677), (5, 677, 701), (1, 701, 709), (2, 709, 741),
   (0, 741, 777), (4, 777, 809), (5, 809, 841), (6, 841, 873), (3, 873, 901), (0, 901, 909),
   (4, 909, 941), (5, 941, 973), (6, 973, 1001), (2, 1001, 1005), (0, 1005, 1041),
   (4, 1041, 1073), (5, 1073, 1101), (1, 1101, 1105), (2, 1105, 1137), (0, 1137, 1162)]

/-- Contiguity of a list of segments from `a` to `b`. -/
def chain : ℤ → ℤ → List (Fin 7 × ℤ × ℤ) → Bool
  | a, b, [] => a == b
  | a, b, p :: r => p.2.1 == a && decide (p.2.1 < p.2.2) && chain p.2.2 b r

theorem chain_mem {l : List (Fin 7 × ℤ × ℤ)} {a b : ℤ} (h : chain a b l = true) {y : ℤ}
    (h0 : a ≤ y) (h1 : y < b) : ∃ p ∈ l, hit y p.2 := by
  induction l generalizing a with
  | nil => simp [chain] at h; omega
  | cons p r ih =>
    simp only [chain, Bool.and_eq_true, beq_iff_eq, decide_eq_true_eq] at h
    obtain ⟨⟨rfl, h2⟩, h3⟩ := h
    by_cases hy : y < p.2.2
    · exact ⟨p, by simp, h0, hy⟩
    · obtain ⟨q, hq, hh⟩ := ih h3 (not_lt.mp hy)
      exact ⟨q, by simp [hq], hh⟩

theorem allSegs_chain : chain (-1843) 1162 allSegs = true := by decide +kernel

/-- Compatibility of a segment with the seven tables: it is in its own table and every other
segment of any table is disjoint from it. -/
def segCompat (p : Fin 7 × ℤ × ℤ) : Bool :=
  [0, 1, 2, 3, 4, 5, 6].all (fun j : Fin 7 =>
    (segTable j).all (fun q => if q = p.2 then j == p.1 else
      decide (p.2.2 ≤ q.1) || decide (q.2 ≤ p.2.1))) && (segTable p.1).contains p.2

theorem allSegs_compat : allSegs.all segCompat = true := by decide +kernel

theorem allSegs_complete : [0, 1, 2, 3, 4, 5, 6].all (fun j : Fin 7 =>
    (segTable j).all (fun q => allSegs.contains (j, q))) = true := by decide +kernel

theorem segCompat_hit {p : Fin 7 × ℤ × ℤ} (h : segCompat p = true) {y : ℤ} (hy : hit y p.2)
    (j : Fin 7) : (∀ q ∈ segTable j, hit y q → q = p.2) ∧ (p.2 ∈ segTable j ↔ j = p.1) := by
  unfold segCompat at h
  rw [Bool.and_eq_true, List.all_eq_true] at h
  obtain ⟨h1, h2⟩ := h
  have hj : j ∈ ([0, 1, 2, 3, 4, 5, 6] : List (Fin 7)) := by revert j; decide
  have h3 := h1 j hj
  rw [List.all_eq_true] at h3
  refine ⟨?_, ?_, ?_⟩
  · intro q hq hh
    have := h3 q hq
    split_ifs at this with hc
    · exact hc
    · simp only [Bool.or_eq_true, decide_eq_true_eq] at this
      obtain ⟨a1, a2⟩ := hy; obtain ⟨b1, b2⟩ := hh
      omega
  · intro hm
    have := h3 _ hm
    simpa using this
  · rintro rfl
    simpa using h2

theorem seg_exists {y : ℤ} (h0 : -1843 ≤ y) (h1 : y < 1162) :
    ∃ p ∈ allSegs, hit y p.2 ∧ segCompat p = true := by
  obtain ⟨p, hp, hh⟩ := chain_mem allSegs_chain h0 h1
  exact ⟨p, hp, hh, List.all_eq_true.mp allSegs_compat p hp⟩

theorem pyOr_zero_left (x : ℤ) : pyOr 0 x = x := by simp [pyOr]
theorem pyOr_zero_right (x : ℤ) : pyOr x 0 = x := by unfold pyOr; split_ifs with h <;> simp_all

theorem getDayCoeff_seg {p : Fin 7 × ℤ × ℤ} (h : segCompat p = true) {y : ℤ} (hy : hit y p.2) :
    getDayCoeff y = segPattern p.1 (p.2.2 - y) := by
  have c := segCompat_hit h hy
  have d : ∀ j : Fin 7, (p.2 ∈ segTable j) = (j = p.1) := fun j => propext (c j).2
  have e0 := processSegments_of hy (c 0).1
  have e1 := processSegments_of hy (c 1).1
  have e2 := processSegments_of hy (c 2).1
  have e3 := processSegments_of hy (c 3).1
  have e4 := processSegments_of hy (c 4).1
  have e5 := processSegments_of hy (c 5).1
  have e6 := processSegments_of hy (c 6).1
  simp only [d 0] at e0; simp only [segTable] at e0
  simp only [d 1] at e1; simp only [segTable] at e1
  simp only [d 2] at e2; simp only [segTable] at e2
  simp only [d 3] at e3; simp only [segTable] at e3
  simp only [d 4] at e4; simp only [segTable] at e4
  simp only [d 5] at e5; simp only [segTable] at e5
  simp only [d 6] at e6; simp only [segTable] at e6
  unfold getDayCoeff
  rw [e0, e1, e2, e3, e4, e5, e6]
  obtain ⟨k, q⟩ := p
  fin_cases k <;> simp [segPattern, pyOr_zero_left, pyOr_zero_right]

/-- Outside the tables there is no correction. -/
theorem getDayCoeff_out {y : ℤ} (h : y < -1843 ∨ 1162 ≤ y) : getDayCoeff y = 0 := by
  have key : ∀ (pn : List (ℤ × ℤ)) (a : ℤ) (o0 : List ℤ) (b : ℤ) (o1 : List ℤ),
      (∀ p ∈ pn, -1843 ≤ p.1 ∧ p.2 ≤ 1162) → processSegments y pn a o0 b o1 = 0 := by
    intro pn a o0 b o1 hp
    unfold processSegments
    induction pn with
    | nil => rfl
    | cons p r ih =>
      rw [List.foldl_cons, if_neg]
      · exact ih (fun q hq => hp q (by simp [hq]))
      · have := hp p (by simp); omega
  unfold getDayCoeff
  rw [key P1 _ _ _ _ (by decide), key P1100 _ _ _ _ (by decide), key P1110 _ _ _ _ (by decide),
    key P2 _ _ _ _ (by decide), key P2111 _ _ _ _ (by decide), key P2211 _ _ _ _ (by decide),
    key P2221 _ _ _ _ (by decide)]
  rfl

/-! ### The list of the corrections of all years -/

/-- Corrections of the years `-1843 .. 1161` in order. -/
def coeffList : List ℤ :=
  allSegs.flatMap (fun p => (List.range (p.2.2 - p.2.1).toNat).map
    (fun i : ℕ => segPattern p.1 (p.2.2 - (p.2.1 + (i : ℤ)))))

theorem coeffList_spec_aux (l : List (Fin 7 × ℤ × ℤ)) (a b : ℤ) (hc : chain a b l = true)
    (hl : ∀ p ∈ l, segCompat p = true) :
    a ≤ b ∧ (l.flatMap (fun p => (List.range (p.2.2 - p.2.1).toNat).map
      (fun i : ℕ => segPattern p.1 (p.2.2 - (p.2.1 + (i : ℤ))))))
      = (List.range (b - a).toNat).map (fun i : ℕ => getDayCoeff (a + (i : ℤ))) := by
  induction l generalizing a with
  | nil => simp [chain] at hc; subst hc; simp
  | cons p r ih =>
    simp only [chain, Bool.and_eq_true, beq_iff_eq, decide_eq_true_eq] at hc
    obtain ⟨⟨rfl, h2⟩, h3⟩ := hc
    obtain ⟨h4, ih⟩ := ih p.2.2 h3 (fun q hq => hl q (by simp [hq]))
    refine ⟨by omega, ?_⟩
    rw [List.flatMap_cons, ih]
    have : (b - p.2.1).toNat = (p.2.2 - p.2.1).toNat + (b - p.2.2).toNat := by omega
    rw [this, List.range_add, List.map_append]
    congr 1
    · apply List.map_congr_left
      intro i hi
      rw [List.mem_range] at hi
      rw [getDayCoeff_seg (hl p (by simp))]
      exact ⟨by omega, by omega⟩
    · rw [List.map_map]
      apply List.map_congr_left
      intro i hi
      simp only [Function.comp]
      congr 1
      push_cast
      omega

theorem coeffList_spec :
    coeffList = (List.range 3005).map (fun i : ℕ => getDayCoeff (-1843 + (i : ℤ))) := by
  have := (coeffList_spec_aux allSegs (-1843) 1162 allSegs_chain
    (fun p hp => List.all_eq_true.mp allSegs_compat p hp)).2
  simpa [coeffList] using this

/-- A condition on each year and its correction. -/
def coeffWalk (p : ℤ → ℤ → Bool) : ℤ → List ℤ → Bool
  | _, [] => true
  | y, c :: l => p y c && coeffWalk p (y + 1) l

theorem coeffWalk_get {p : ℤ → ℤ → Bool} {l : List ℤ} {y c : ℤ} (h : coeffWalk p y l = true) {j : ℕ} (hj : l[j]? = some c) :
    p (y + j) c = true := by
  induction l generalizing y j with
  | nil => simp at hj
  | cons d l ih =>
    simp only [coeffWalk, Bool.and_eq_true] at h
    cases j with
    | zero =>
      simp only [List.getElem?_cons_zero, Option.some.injEq] at hj
      subst hj
      simpa using h.1
    | succ j =>
      have := ih h.2 (by simpa using hj)
      rwa [show y + 1 + (j : ℤ) = y + ((j + 1 : ℕ) : ℤ) by omega] at this

/-- A condition checked on a part of the list holds of the years of that part. -/
theorem coeffPart {p : ℤ → ℤ → Bool} {m n : ℕ} (h : coeffWalk p (-1843 + m) ((coeffList.drop m).take n) = true) {y : ℤ}
    (h0 : -1843 + m ≤ y) (h1 : y < -1843 + m + n) (h2 : y ≤ 1161) : p y (getDayCoeff y) = true := by
  obtain ⟨j, rfl⟩ : ∃ j : ℕ, y = -1843 + m + j := ⟨(y + 1843 - m).toNat, by omega⟩
  apply coeffWalk_get h
  rw [List.getElem?_take_of_lt (by omega), List.getElem?_drop, coeffList_spec]
  rw [List.getElem?_map, List.getElem?_range (by omega), Option.map_some]
  push_cast
  congr 2
  omega

end Verif
