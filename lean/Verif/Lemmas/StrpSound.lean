import Verif.Spec.StrpTime
import Verif.Lemmas.ZoneText

/-!
# Lemmas: what `strptime` accepts follows the format
-/

namespace Verif

/-! ## Patterns and the texts of the directives -/

theorem afterPat_inv {p : Pat} {s r : Str} (h : afterPat p s = some r) :
    s = s.take p.length ++ r ∧ exactB p (s.take p.length) = true := by
  induction p generalizing s with
  | nil =>
    simp only [afterPat, Option.some.injEq] at h
    subst h
    simp [exactB]
  | cons f p ih =>
    cases s with
    | nil => simp [afterPat] at h
    | cons c s =>
      simp only [afterPat] at h
      split_ifs at h with hf
      obtain ⟨e1, e2⟩ := ih h
      refine ⟨?_, ?_⟩
      · rw [List.length_cons, List.take_succ_cons, List.cons_append, ← e1]
      · rw [List.length_cons, List.take_succ_cons]
        simp [exactB, hf, e2]

theorem natValFrom_text {v : Str} (h : ∀ c ∈ v, isDig c = true) (a : ℕ) :
    ∃ n, natValFrom v a = some n ∧ n < (a + 1) * 10 ^ v.length := by
  induction v generalizing a with
  | nil => exact ⟨a, rfl, by simp⟩
  | cons c v ih =>
    have hc := h c (by simp)
    obtain ⟨n, e, hn⟩ := ih (fun x hx => h x (by simp [hx])) (a * 10 + (c.toNat - 48))
    refine ⟨n, by simp [natValFrom, hc, e], lt_of_lt_of_le hn ?_⟩
    have : c.toNat ≤ 57 := by
      simp [isDig] at hc; exact hc.2
    rw [List.length_cons, pow_succ]
    calc (a * 10 + (c.toNat - 48) + 1) * 10 ^ v.length ≤ ((a + 1) * 10) * 10 ^ v.length :=
          Nat.mul_le_mul_right _ (by omega)
      _ = (a + 1) * (10 ^ v.length * 10) := by ring

theorem intOf_digitText {v : Str} (hne : v ≠ []) (h : ∀ c ∈ v, isDig c = true) :
    ∃ n : ℕ, natValFrom v 0 = some n ∧ intOf v = .ok (n : ℤ) ∧ n < 10 ^ v.length := by
  obtain ⟨n, e, hn⟩ := natValFrom_text h 0
  refine ⟨n, e, ?_, by simpa using hn⟩
  have hs : strip v = v := strip_nospace (fun hm => by have := h _ hm; revert this; decide)
  have hd : intOfDigits v = .ok (n : ℤ) := by
    unfold intOfDigits natVal
    rw [if_neg hne, e]
  unfold intOf
  rw [hs]
  cases v with
  | nil => exact absurd rfl hne
  | cons c v =>
    have hc := h c (by simp)
    have c1 : c ≠ '-' := by rintro rfl; revert hc; decide
    have c2 : c ≠ '+' := by rintro rfl; revert hc; decide
    split
    · rename_i heq; simp only [List.cons.injEq] at heq; exact absurd heq.1 c1
    · rename_i heq; simp only [List.cons.injEq] at heq; exact absurd heq.1 c2
    · exact hd

theorem exactB_digits {n : ℕ} {v : Str} (h : exactB (List.replicate n isDig) v = true) :
    v.length = n ∧ ∀ c ∈ v, isDig c = true := by
  induction n generalizing v with
  | zero => cases v with
    | nil => simp
    | cons c v => simp [exactB] at h
  | succ n ih =>
    cases v with
    | nil => simp [List.replicate_succ, exactB] at h
    | cons c v =>
      simp only [List.replicate_succ, exactB, Bool.and_eq_true] at h
      obtain ⟨e, hd⟩ := ih h.2
      refine ⟨by simp [e], fun x hx => ?_⟩
      rcases List.mem_cons.mp hx with rfl | hx
      · exact h.1
      · exact hd x hx

theorem mem_digitsUpTo {n : ℕ} {p : Pat} (h : p ∈ digitsUpTo n) : ∃ k, 1 ≤ k ∧ k ≤ n ∧ p = List.replicate k isDig := by
  induction n with
  | zero => simp [digitsUpTo] at h
  | succ n ih =>
    simp only [digitsUpTo, List.mem_cons] at h
    rcases h with rfl | h
    · exact ⟨n + 1, by omega, le_refl _, rfl⟩
    · obtain ⟨k, k0, k1, e⟩ := ih h
      exact ⟨k, k0, by omega, e⟩

/-- A text of between 1 and `len` digits. -/
theorem numText_digits {v : Str} {len k : ℕ} (k0 : 1 ≤ k) (k1 : k ≤ len) (h : exactB (List.replicate k isDig) v = true) :
    NumText len 0 (10 ^ len - 1) v ∧ v.length = k := by
  obtain ⟨e, hd⟩ := exactB_digits h
  obtain ⟨n, -, h1, h2⟩ := intOf_digitText (by intro h0; rw [h0] at e; simp at e; omega) hd
  refine ⟨⟨by omega, by omega, hd, n, h1, by omega, ?_⟩, e⟩
  have : n < 10 ^ len := lt_of_lt_of_le h2 (Nat.pow_le_pow_right (by norm_num) (by omega))
  have : (n : ℤ) < 10 ^ len := by exact_mod_cast this
  omega

theorem range_iff {a b x : Char} : range a b x = true ↔ a.toNat ≤ x.toNat ∧ x.toNat ≤ b.toNat := by
  simp [range]

theorem isDig_iff {x : Char} : isDig x = true ↔ 48 ≤ x.toNat ∧ x.toNat ≤ 57 := by simp [isDig]

/-- One digit. -/
theorem numText_one {len : ℕ} {lo hi : ℤ} {x : Char} (hl : 1 ≤ len) (h : 48 ≤ x.toNat ∧ x.toNat ≤ 57)
    (h0 : lo ≤ (x.toNat : ℤ) - 48) (h1 : (x.toNat : ℤ) - 48 ≤ hi) : NumText len lo hi [x] := by
  have hx := isDig_iff.mpr h
  have hall : ∀ c ∈ [x], isDig c = true := by simp [hx]
  obtain ⟨n, e, e2, -⟩ := intOf_digitText (by simp) hall
  refine ⟨by simp, by simpa using hl, hall, n, e2, ?_⟩
  simp [natValFrom, hx] at e
  omega

theorem numText_two {len : ℕ} {lo hi : ℤ} {x y : Char} (hl : 2 ≤ len) (h : 48 ≤ x.toNat ∧ x.toNat ≤ 57)
    (h' : 48 ≤ y.toNat ∧ y.toNat ≤ 57) (h0 : lo ≤ 10 * ((x.toNat : ℤ) - 48) + (y.toNat - 48))
    (h1 : 10 * ((x.toNat : ℤ) - 48) + (y.toNat - 48) ≤ hi) : NumText len lo hi [x, y] := by
  have hx := isDig_iff.mpr h
  have hy := isDig_iff.mpr h'
  have hall : ∀ c ∈ [x, y], isDig c = true := by simp [hx, hy]
  obtain ⟨n, e, e2, -⟩ := intOf_digitText (by simp) hall
  refine ⟨by simp, by simpa using hl, hall, n, e2, ?_⟩
  simp [natValFrom, hx, hy] at e
  omega

theorem numText_three {len : ℕ} {lo hi : ℤ} {x y z : Char} (hl : 3 ≤ len) (h : 48 ≤ x.toNat ∧ x.toNat ≤ 57)
    (h' : 48 ≤ y.toNat ∧ y.toNat ≤ 57) (h'' : 48 ≤ z.toNat ∧ z.toNat ≤ 57)
    (h0 : lo ≤ 100 * ((x.toNat : ℤ) - 48) + 10 * (y.toNat - 48) + (z.toNat - 48))
    (h1 : 100 * ((x.toNat : ℤ) - 48) + 10 * (y.toNat - 48) + (z.toNat - 48) ≤ hi) : NumText len lo hi [x, y, z] := by
  have hx := isDig_iff.mpr h
  have hy := isDig_iff.mpr h'
  have hz := isDig_iff.mpr h''
  have hall : ∀ c ∈ [x, y, z], isDig c = true := by simp [hx, hy, hz]
  obtain ⟨n, e, e2, -⟩ := intOf_digitText (by simp) hall
  refine ⟨by simp, by simpa using hl, hall, n, e2, ?_⟩
  simp [natValFrom, hx, hy, hz] at e
  omega

theorem exact_one {f : Char → Bool} {v : Str} (h : exactB [f] v = true) : ∃ x, v = [x] ∧ f x = true := by
  match v with
  | [] => simp [exactB] at h
  | [x] => exact ⟨x, rfl, by simpa [exactB] using h⟩
  | _ :: _ :: _ => simp [exactB] at h

theorem exact_two {f g : Char → Bool} {v : Str} (h : exactB [f, g] v = true) : ∃ x y, v = [x, y] ∧ f x = true ∧ g y = true := by
  match v with
  | [] => simp [exactB] at h
  | [x] => simp [exactB] at h
  | [x, y] => exact ⟨x, y, rfl, by simpa [exactB] using h⟩
  | _ :: _ :: _ :: _ => simp [exactB] at h

theorem exact_three {f g k : Char → Bool} {v : Str} (h : exactB [f, g, k] v = true) :
    ∃ x y z, v = [x, y, z] ∧ f x = true ∧ g y = true ∧ k z = true := by
  match v with
  | [] => simp [exactB] at h
  | [x] => simp [exactB] at h
  | [x, y] => simp [exactB] at h
  | [x, y, z] => exact ⟨x, y, z, rfl, by simpa [exactB] using h⟩
  | _ :: _ :: _ :: _ :: _ => simp [exactB] at h

theorem exact_letters {w v : Str} (h : exactB (w.map sameLetter) v = true) : lowerS v = lowerS w := by
  induction w generalizing v with
  | nil => cases v with
    | nil => rfl
    | cons c v => simp [exactB] at h
  | cons x w ih => cases v with
    | nil => simp [exactB] at h
    | cons c v =>
      simp only [List.map_cons, exactB, Bool.and_eq_true] at h
      have := ih h.2
      unfold lowerS at this ⊢
      rw [List.map_cons, List.map_cons, this]
      simp [sameLetter] at h
      rw [h.1]

theorem lower_twice : ∀ names ∈ [dayNames, dayAbbrs, monthNames, monthAbbrs, ["AM", "PM"]], ∀ s ∈ names,
    lowerS (lowerS s.toList) = lowerS s.toList := by decide +kernel

theorem nameText_of {names : List String} (hn : names ∈ [dayNames, dayAbbrs, monthNames, monthAbbrs, ["AM", "PM"]]) {p : Pat} {v : Str}
    (hp : p ∈ namePats names) (h : exactB p v = true) : NameText names v := by
  unfold namePats at hp
  simp only [List.mem_flatMap, List.mem_map, List.mem_filter] at hp
  obtain ⟨k, -, w, ⟨⟨s, hs, rfl⟩, -⟩, rfl⟩ := hp
  refine ⟨s, hs, ?_⟩
  rw [exact_letters h, lower_twice names hn s hs]

/-- What a directive matches is a text of the directive. -/
theorem dirText_of {c : Char} {ps : List Pat} (hc : altsOf c = some ps) {p : Pat} {v : Str} (hp : p ∈ ps)
    (h : exactB p v = true) : DirText c v := by
  have z0 : '0'.toNat = 48 := rfl
  have z1 : '1'.toNat = 49 := rfl
  have z2 : '2'.toNat = 50 := rfl
  have z3 : '3'.toNat = 51 := rfl
  have z4 : '4'.toNat = 52 := rfl
  have z5 : '5'.toNat = 53 := rfl
  have z6 : '6'.toNat = 54 := rfl
  have z7 : '7'.toNat = 55 := rfl
  have z9 : '9'.toNat = 57 := rfl
  unfold altsOf at hc
  split at hc <;> first | (simp at hc; done) | (injection hc with hc; subst hc)
  · -- d
    simp only [List.mem_cons, List.not_mem_nil, or_false] at hp
    unfold DirText
    rcases hp with rfl | rfl | rfl | rfl
    · obtain ⟨x, y, rfl, hx, hy⟩ := exact_two h
      simp only [beq_iff_eq] at hx; subst hx
      have hy := range_iff.mp hy
      exact Or.inl (numText_two (by omega) (by omega) (by omega) (by omega) (by omega))
    · obtain ⟨x, y, rfl, hx, hy⟩ := exact_two h
      simp only [beq_iff_eq] at hx; subst hx
      have hy := range_iff.mp hy
      exact Or.inl (numText_two (by omega) (by omega) (by omega) (by omega) (by omega))
    · obtain ⟨x, rfl, hx⟩ := exact_one h
      have hx := range_iff.mp hx
      exact Or.inl (numText_one (by omega) (by omega) (by omega) (by omega))
    · obtain ⟨x, y, rfl, hx, hy⟩ := exact_two h
      simp only [beq_iff_eq] at hx; subst hx
      have hy := range_iff.mp hy
      exact Or.inr ⟨[y], rfl, numText_one (by omega) (by omega) (by omega) (by omega)⟩
  · -- f
    obtain ⟨k, k0, k1, rfl⟩ := mem_digitsUpTo hp
    exact (numText_digits k0 k1 h).1
  · -- H
    simp only [List.mem_cons, List.not_mem_nil, or_false] at hp
    unfold DirText
    rcases hp with rfl | rfl | rfl
    · obtain ⟨x, y, rfl, hx, hy⟩ := exact_two h
      simp only [beq_iff_eq] at hx; subst hx
      have hy := range_iff.mp hy
      exact numText_two (by omega) (by omega) (by omega) (by omega) (by omega)
    · obtain ⟨x, y, rfl, hx, hy⟩ := exact_two h
      have hx := range_iff.mp hx
      have hy := isDig_iff.mp hy
      exact numText_two (by omega) (by omega) (by omega) (by omega) (by omega)
    · obtain ⟨x, rfl, hx⟩ := exact_one h
      have hx := isDig_iff.mp hx
      exact numText_one (by omega) (by omega) (by omega) (by omega)
  · -- I
    simp only [List.mem_cons, List.not_mem_nil, or_false] at hp
    unfold DirText
    rcases hp with rfl | rfl | rfl
    · obtain ⟨x, y, rfl, hx, hy⟩ := exact_two h
      simp only [beq_iff_eq] at hx; subst hx
      have hy := range_iff.mp hy
      exact numText_two (by omega) (by omega) (by omega) (by omega) (by omega)
    · obtain ⟨x, y, rfl, hx, hy⟩ := exact_two h
      simp only [beq_iff_eq] at hx; subst hx
      have hy := range_iff.mp hy
      exact numText_two (by omega) (by omega) (by omega) (by omega) (by omega)
    · obtain ⟨x, rfl, hx⟩ := exact_one h
      have hx := range_iff.mp hx
      exact numText_one (by omega) (by omega) (by omega) (by omega)
  · -- G
    simp only [List.mem_cons, List.not_mem_nil, or_false] at hp
    unfold DirText
    rcases hp with rfl | rfl
    · cases v with
      | nil => simp [exactB] at h
      | cons x w =>
        simp only [exactB, Bool.and_eq_true, beq_iff_eq] at h
        obtain ⟨h1, h2⟩ := numText_digits (len := 4) (by omega) (by omega) h.2
        exact Or.inr ⟨w, by rw [h.1], h1, h2⟩
    · obtain ⟨h1, h2⟩ := numText_digits (len := 4) (by omega) (by omega) h
      exact Or.inl ⟨h1, h2⟩
  · -- j
    simp only [List.mem_cons, List.not_mem_nil, or_false] at hp
    unfold DirText
    rcases hp with rfl | rfl | rfl | rfl | rfl | rfl | rfl | rfl
    · obtain ⟨x, y, z, rfl, hx, hy, hz⟩ := exact_three h
      simp only [beq_iff_eq] at hx hy; subst hx hy
      have hz := range_iff.mp hz
      exact numText_three (by omega) (by omega) (by omega) (by omega) (by omega) (by omega)
    · obtain ⟨x, y, z, rfl, hx, hy, hz⟩ := exact_three h
      simp only [beq_iff_eq] at hx; subst hx
      have hy := range_iff.mp hy
      have hz := isDig_iff.mp hz
      exact numText_three (by omega) (by omega) (by omega) (by omega) (by omega) (by omega)
    · obtain ⟨x, y, z, rfl, hx, hy, hz⟩ := exact_three h
      have hx := range_iff.mp hx
      have hy := isDig_iff.mp hy
      have hz := isDig_iff.mp hz
      exact numText_three (by omega) (by omega) (by omega) (by omega) (by omega) (by omega)
    · obtain ⟨x, y, z, rfl, hx, hy, hz⟩ := exact_three h
      simp only [beq_iff_eq] at hx; subst hx
      have hy := range_iff.mp hy
      have hz := isDig_iff.mp hz
      exact numText_three (by omega) (by omega) (by omega) (by omega) (by omega) (by omega)
    · obtain ⟨x, y, z, rfl, hx, hy, hz⟩ := exact_three h
      simp only [beq_iff_eq] at hx hy; subst hx hy
      have hz := range_iff.mp hz
      exact numText_three (by omega) (by omega) (by omega) (by omega) (by omega) (by omega)
    · obtain ⟨x, y, rfl, hx, hy⟩ := exact_two h
      have hx := range_iff.mp hx
      have hy := isDig_iff.mp hy
      exact numText_two (by omega) (by omega) (by omega) (by omega) (by omega)
    · obtain ⟨x, y, rfl, hx, hy⟩ := exact_two h
      simp only [beq_iff_eq] at hx; subst hx
      have hy := range_iff.mp hy
      exact numText_two (by omega) (by omega) (by omega) (by omega) (by omega)
    · obtain ⟨x, rfl, hx⟩ := exact_one h
      have hx := range_iff.mp hx
      exact numText_one (by omega) (by omega) (by omega) (by omega)
  · -- m
    simp only [List.mem_cons, List.not_mem_nil, or_false] at hp
    unfold DirText
    rcases hp with rfl | rfl | rfl
    · obtain ⟨x, y, rfl, hx, hy⟩ := exact_two h
      simp only [beq_iff_eq] at hx; subst hx
      have hy := range_iff.mp hy
      exact numText_two (by omega) (by omega) (by omega) (by omega) (by omega)
    · obtain ⟨x, y, rfl, hx, hy⟩ := exact_two h
      simp only [beq_iff_eq] at hx; subst hx
      have hy := range_iff.mp hy
      exact numText_two (by omega) (by omega) (by omega) (by omega) (by omega)
    · obtain ⟨x, rfl, hx⟩ := exact_one h
      have hx := range_iff.mp hx
      exact numText_one (by omega) (by omega) (by omega) (by omega)
  · -- M
    simp only [List.mem_cons, List.not_mem_nil, or_false] at hp
    unfold DirText
    rcases hp with rfl | rfl
    · obtain ⟨x, y, rfl, hx, hy⟩ := exact_two h
      have hx := range_iff.mp hx
      have hy := isDig_iff.mp hy
      exact numText_two (by omega) (by omega) (by omega) (by omega) (by omega)
    · obtain ⟨x, rfl, hx⟩ := exact_one h
      have hx := isDig_iff.mp hx
      exact numText_one (by omega) (by omega) (by omega) (by omega)
  · -- S
    simp only [List.mem_cons, List.not_mem_nil, or_false] at hp
    unfold DirText
    rcases hp with rfl | rfl | rfl
    · obtain ⟨x, y, rfl, hx, hy⟩ := exact_two h
      simp only [beq_iff_eq] at hx; subst hx
      have hy := range_iff.mp hy
      exact numText_two (by omega) (by omega) (by omega) (by omega) (by omega)
    · obtain ⟨x, y, rfl, hx, hy⟩ := exact_two h
      have hx := range_iff.mp hx
      have hy := isDig_iff.mp hy
      exact numText_two (by omega) (by omega) (by omega) (by omega) (by omega)
    · obtain ⟨x, rfl, hx⟩ := exact_one h
      have hx := isDig_iff.mp hx
      exact numText_one (by omega) (by omega) (by omega) (by omega)
  · -- U
    simp only [List.mem_cons, List.not_mem_nil, or_false] at hp
    unfold DirText
    rcases hp with rfl | rfl | rfl
    · obtain ⟨x, y, rfl, hx, hy⟩ := exact_two h
      simp only [beq_iff_eq] at hx; subst hx
      have hy := range_iff.mp hy
      exact numText_two (by omega) (by omega) (by omega) (by omega) (by omega)
    · obtain ⟨x, y, rfl, hx, hy⟩ := exact_two h
      have hx := range_iff.mp hx
      have hy := isDig_iff.mp hy
      exact numText_two (by omega) (by omega) (by omega) (by omega) (by omega)
    · obtain ⟨x, rfl, hx⟩ := exact_one h
      have hx := isDig_iff.mp hx
      exact numText_one (by omega) (by omega) (by omega) (by omega)
  · -- W
    simp only [List.mem_cons, List.not_mem_nil, or_false] at hp
    unfold DirText
    rcases hp with rfl | rfl | rfl
    · obtain ⟨x, y, rfl, hx, hy⟩ := exact_two h
      simp only [beq_iff_eq] at hx; subst hx
      have hy := range_iff.mp hy
      exact numText_two (by omega) (by omega) (by omega) (by omega) (by omega)
    · obtain ⟨x, y, rfl, hx, hy⟩ := exact_two h
      have hx := range_iff.mp hx
      have hy := isDig_iff.mp hy
      exact numText_two (by omega) (by omega) (by omega) (by omega) (by omega)
    · obtain ⟨x, rfl, hx⟩ := exact_one h
      have hx := isDig_iff.mp hx
      exact numText_one (by omega) (by omega) (by omega) (by omega)
  · -- w
    simp only [List.mem_cons, List.not_mem_nil, or_false] at hp
    subst hp
    obtain ⟨x, rfl, hx⟩ := exact_one h
    have hx := range_iff.mp hx
    exact numText_one (by omega) (by omega) (by omega) (by omega)
  · -- u
    simp only [List.mem_cons, List.not_mem_nil, or_false] at hp
    subst hp
    obtain ⟨x, rfl, hx⟩ := exact_one h
    have hx := range_iff.mp hx
    exact numText_one (by omega) (by omega) (by omega) (by omega)
  · -- V
    simp only [List.mem_cons, List.not_mem_nil, or_false] at hp
    unfold DirText
    rcases hp with rfl | rfl | rfl | rfl
    · obtain ⟨x, y, rfl, hx, hy⟩ := exact_two h
      simp only [beq_iff_eq] at hx; subst hx
      have hy := range_iff.mp hy
      exact numText_two (by omega) (by omega) (by omega) (by omega) (by omega)
    · obtain ⟨x, y, rfl, hx, hy⟩ := exact_two h
      simp only [beq_iff_eq] at hx; subst hx
      have hy := range_iff.mp hy
      exact numText_two (by omega) (by omega) (by omega) (by omega) (by omega)
    · obtain ⟨x, y, rfl, hx, hy⟩ := exact_two h
      have hx := range_iff.mp hx
      have hy := isDig_iff.mp hy
      exact numText_two (by omega) (by omega) (by omega) (by omega) (by omega)
    · obtain ⟨x, rfl, hx⟩ := exact_one h
      have hx := isDig_iff.mp hx
      exact numText_one (by omega) (by omega) (by omega) (by omega)
  · -- y
    simp only [List.mem_cons, List.not_mem_nil, or_false] at hp
    subst hp
    obtain ⟨x, y, rfl, hx, hy⟩ := exact_two h
    have hx := isDig_iff.mp hx
    have hy := isDig_iff.mp hy
    exact ⟨numText_two (by omega) (by omega) (by omega) (by omega) (by omega), rfl⟩
  · -- Y
    simp only [List.mem_append, List.mem_map] at hp
    unfold DirText
    rcases hp with ⟨q, hq, rfl⟩ | hp
    · obtain ⟨k, k0, k1, rfl⟩ := mem_digitsUpTo hq
      cases v with
      | nil => simp [exactB] at h
      | cons x w =>
        simp only [exactB, Bool.and_eq_true, beq_iff_eq] at h
        exact Or.inr ⟨w, by rw [h.1], (numText_digits k0 k1 h.2).1⟩
    · obtain ⟨k, k0, k1, rfl⟩ := mem_digitsUpTo hp
      exact Or.inl (numText_digits k0 k1 h).1
  · exact zoneText_of hp h
  · exact nameText_of (by simp) hp h
  · exact nameText_of (by simp) hp h
  · exact nameText_of (by simp) hp h
  · exact nameText_of (by simp) hp h
  · exact nameText_of (by simp) hp h

/-! ## The matcher -/

theorem mem_dropsDown {n : ℕ} {s r : Str} (h : r ∈ dropsDown n s) : ∃ k, 1 ≤ k ∧ k ≤ n ∧ r = s.drop k := by
  induction n with
  | zero => simp [dropsDown] at h
  | succ n ih =>
    simp only [dropsDown, List.mem_cons] at h
    rcases h with rfl | h
    · exact ⟨n + 1, by omega, le_refl _, rfl⟩
    · obtain ⟨k, k0, k1, e⟩ := ih h
      exact ⟨k, k0, by omega, e⟩

theorem takeWhile_take (s : Str) {k : ℕ} (h : k ≤ (s.takeWhile isSpaceC).length) : ∀ c ∈ s.take k, isSpaceC c = true := by
  have : s.take k = (s.takeWhile isSpaceC).take k := by
    conv_lhs => rw [← List.takeWhile_append_dropWhile (p := isSpaceC) (l := s)]
    rw [List.take_append_of_le_length h]
  intro c hc
  rw [this] at hc
  have : ∀ (t : Str), ∀ c ∈ t.takeWhile isSpaceC, isSpaceC c = true := by
    intro t
    induction t with
    | nil => simp
    | cons y t ih =>
      rw [List.takeWhile_cons]
      split_ifs with hy
      · intro c hc
        rcases List.mem_cons.mp hc with rfl | hc
        · exact hy
        · exact ih c hc
      · simp
  exact this s c (List.mem_of_mem_take hc)

/-- The pieces match the whole text. -/
inductive PiecesMatch : List Piece → Str → List (Char × Str) → Prop
  | nil : PiecesMatch [] [] []
  | lit {c x ps s g} : lowerC x = lowerC c → PiecesMatch ps s g → PiecesMatch (.lit c :: ps) (x :: s) g
  | space {b ps s g} : b ≠ [] → (∀ c ∈ b, isSpaceC c = true) → PiecesMatch ps s g → PiecesMatch (.space :: ps) (b ++ s) g
  | dir {c v ps s g} : DirText c v → PiecesMatch ps s g → PiecesMatch (.dir c :: ps) (v ++ s) ((c, v) :: g)

theorem matchAll_sound {ps : List Piece} {s : Str} {g : List (Char × Str)} (h : (g, []) ∈ matchAll ps s) : PiecesMatch ps s g := by
  induction ps generalizing s g with
  | nil =>
    simp only [matchAll, List.mem_singleton, Prod.mk.injEq] at h
    obtain ⟨rfl, rfl⟩ := h
    exact .nil
  | cons p ps ih =>
    cases p with
    | lit c =>
      cases s with
      | nil => simp [matchAll] at h
      | cons x s =>
        simp only [matchAll] at h
        split_ifs at h with hx
        · exact .lit (by simpa [sameLetter] using hx) (ih h)
        · simp at h
    | space =>
      simp only [matchAll, List.mem_flatMap] at h
      obtain ⟨r, hr, hm⟩ := h
      obtain ⟨k, k0, k1, rfl⟩ := mem_dropsDown hr
      rw [← List.take_append_drop k s]
      refine .space ?_ (takeWhile_take s k1) (ih hm)
      have : k ≤ s.length := le_trans k1 (by simpa using (List.takeWhile_prefix isSpaceC (l := s)).length_le)
      intro h0
      have := congrArg List.length h0
      rw [List.length_take, List.length_nil] at this
      omega
    | dir c =>
      simp only [matchAll, List.mem_flatMap] at h
      obtain ⟨p, hp, hm⟩ := h
      cases ha : afterPat p s with
      | none => rw [ha] at hm; simp at hm
      | some r =>
        rw [ha] at hm
        simp only [List.mem_map, Prod.mk.injEq] at hm
        obtain ⟨⟨g', r'⟩, hg, rfl, hr⟩ := hm
        simp only at hr
        subst hr
        obtain ⟨e1, e2⟩ := afterPat_inv ha
        cases hc : altsOf c with
        | none => rw [hc] at hp; simp at hp
        | some qs =>
          rw [hc] at hp
          have hfin := PiecesMatch.dir (dirText_of hc hp e2) (ih hg)
          rw [← e1] at hfin
          exact hfin

theorem toNat_ofNat_valid {n : ℕ} (h : n.isValidChar) : (Char.ofNat n).toNat = n := by
  unfold Char.ofNat
  rw [dif_pos h]
  rfl

theorem lowerC_percent {x : Char} (h : lowerC x = lowerC '%') : x = '%' := by
  have e : lowerC '%' = '%' := by decide
  rw [e] at h
  unfold lowerC at h
  simp only at h
  split_ifs at h with h1 h2
  · exfalso
    have hv : (Char.ofNat (x.toNat + 32)).toNat = x.toNat + 32 := by
      exact toNat_ofNat_valid (by unfold Nat.isValidChar; omega)
    rw [h] at hv
    have : '%'.toNat = 37 := rfl
    omega
  · exfalso
    have hv : (Char.ofNat (x.toNat + 1)).toNat = x.toNat + 1 := by
      exact toNat_ofNat_valid (by unfold Nat.isValidChar; omega)
    rw [h] at hv
    have : '%'.toNat = 37 := rfl
    omega
  · exact h

theorem option_map_inv {ps : List Piece} {p : Piece} {o : Option (Py (List Piece))}
    (h : o.map (·.map (p :: ·)) = some (.ok ps)) : ∃ qs, o = some (.ok qs) ∧ ps = p :: qs := by
  cases o with
  | none => simp at h
  | some r =>
    cases r with
    | error e => simp [Except.map] at h
    | ok qs =>
      simp [Except.map] at h
      exact ⟨qs, rfl, h.symm⟩

theorem compile_follows (b : Bool) (f : Str) : ∀ ps s g, compileFmt b f = some (.ok ps) → PiecesMatch ps s g →
    ∃ a f', f = a ++ f' ∧ (∀ c ∈ a, isSpaceC c = true) ∧ (b = false → a = []) ∧ Follows f' s g := by
  induction b, f using compileFmt.induct with
  | case1 b =>
    intro ps s g h hm
    simp only [compileFmt, Option.some.injEq, Except.ok.injEq] at h
    subst h
    cases hm
    exact ⟨[], [], rfl, by simp, by simp, .nil⟩
  | case2 b => intro ps s g h; simp [compileFmt] at h
  | case3 b r ih =>
    intro ps s g h hm
    simp only [compileFmt, if_true] at h
    obtain ⟨qs, hq, rfl⟩ := option_map_inv h
    cases hm with
    | lit hx hm =>
      obtain ⟨a, f', rfl, -, ha, hf⟩ := ih _ _ _ hq hm
      rw [ha rfl, List.nil_append]
      refine ⟨[], '%' :: '%' :: f', rfl, by simp, by simp, ?_⟩
      rw [lowerC_percent hx]
      exact .percent hf
  | case4 b c r h1 h2 => intro ps s g h; simp [compileFmt, h1, h2] at h
  | case5 b c r h1 h2 h3 => intro ps s g h; simp [compileFmt, h1, h2, h3] at h
  | case6 b c r h1 h2 h3 ih =>
    intro ps s g h hm
    simp only [compileFmt, h1, h2, h3, if_false] at h
    obtain ⟨qs, hq, rfl⟩ := option_map_inv h
    cases hm with
    | dir hx hm =>
      obtain ⟨a, f', rfl, -, ha, hf⟩ := ih _ _ _ hq hm
      rw [ha rfl, List.nil_append]
      exact ⟨[], '%' :: c :: f', rfl, by simp, by simp, .dir hx hf⟩
  | case7 c r hp1 hp2 hc ih =>
    intro ps s g h hm
    have e : compileFmt true (c :: r) = compileFmt true r := by
      rw [compileFmt]
      · simp [hc]
      · exact hp1
      · exact hp2
    rw [e] at h
    obtain ⟨a, f', rfl, h1, -, hf⟩ := ih _ _ _ h hm
    refine ⟨c :: a, f', rfl, ?_, by simp, hf⟩
    intro x hx
    rcases List.mem_cons.mp hx with rfl | hx
    · exact hc
    · exact h1 x hx
  | case8 b c r hp1 hp2 hc hb ih =>
    intro ps s g h hm
    have e : compileFmt b (c :: r) = (compileFmt true r).map (·.map (.space :: ·)) := by
      rw [compileFmt]
      · simp [hc, hb]
      · exact hp1
      · exact hp2
    rw [e] at h
    obtain ⟨qs, hq, rfl⟩ := option_map_inv h
    cases hm with
    | space hb hs hm =>
      obtain ⟨a, f', rfl, h1, -, hf⟩ := ih _ _ _ hq hm
      refine ⟨[], c :: (a ++ f'), rfl, by simp, by simp, ?_⟩
      refine Follows.spaces (a := c :: a) (by simp) hb ?_ hs hf
      intro x hx
      rcases List.mem_cons.mp hx with rfl | hx
      · exact hc
      · exact h1 x hx
  | case9 b c r hp1 hp2 hc ih =>
    intro ps s g h hm
    have e : compileFmt b (c :: r) = (compileFmt false r).map (·.map (.lit c :: ·)) := by
      rw [compileFmt]
      · simp [hc]
      · exact hp1
      · exact hp2
    rw [e] at h
    obtain ⟨qs, hq, rfl⟩ := option_map_inv h
    cases hm with
    | lit hx hm =>
      obtain ⟨a, f', rfl, -, ha, hf⟩ := ih _ _ _ hq hm
      rw [ha rfl, List.nil_append] at hp1 hp2 ⊢
      refine ⟨[], c :: f', rfl, by simp, by simp, .char ?_ (by simpa using hc) hx hf⟩
      intro h0
      cases f' with
      | nil => exact hp1 h0 rfl
      | cons y f' => exact hp2 y f' h0 rfl

end Verif
