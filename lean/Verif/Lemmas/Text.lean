import Verif.Py.Text
import Mathlib.Tactic.IntervalCases
import Mathlib.Tactic.Ring
import Mathlib.Tactic.Linarith

/-!
# Digits and their values
-/

namespace Verif

lemma dg_mod (n : ℕ) : dg n = dg (n % 10) := by unfold dg; rw [Nat.mod_mod]

/-- A statement about a digit character is proved by its ten cases. -/
lemma dg_cases (P : Char → ℕ → Prop) (h : ∀ k < 10, P (dg k) k) (n : ℕ) : P (dg n) (n % 10) := by
  rw [dg_mod]; exact h _ (Nat.mod_lt _ (by norm_num))

lemma isDig_dg (n : ℕ) : isDig (dg n) = true :=
  dg_cases (fun c _ => isDig c = true) (by decide) n

lemma dg_val (n : ℕ) : (dg n).toNat - 48 = n % 10 :=
  dg_cases (fun c k => c.toNat - 48 = k) (by decide) n

lemma dg_ne (n : ℕ) (c : Char) (h : isDig c = false) : dg n ≠ c := by
  rintro rfl; rw [isDig_dg] at h; exact Bool.noConfusion h

lemma dg_inj {a b : ℕ} (h : dg a = dg b) : a % 10 = b % 10 := by
  rw [← dg_val, ← dg_val, h]

lemma digitsW_length (w n : ℕ) : (digitsW w n).length = w := by
  induction w with
  | zero => rfl
  | succ w ih => simp [digitsW, ih]

lemma natValFrom_digits (w n a : ℕ) (r : Str) :
    natValFrom (digitsW w n ++ r) a = natValFrom r (a * 10 ^ w + n % 10 ^ w) := by
  induction w generalizing a with
  | zero => simp [digitsW, Nat.mod_one]
  | succ w ih =>
    rw [digitsW, List.cons_append, natValFrom, if_pos (isDig_dg _), ih, dg_val, Nat.pow_succ, Nat.mod_mul]
    congr 1; ring

lemma natVal_digits {w n : ℕ} (hw : 0 < w) (h : n < 10 ^ w) : natVal (digitsW w n) = some n := by
  unfold natVal
  rw [if_neg]
  · have := natValFrom_digits w n 0 []
    rw [List.append_nil] at this
    rw [this, natValFrom, Nat.mod_eq_of_lt h]; simp
  · intro e
    have := digitsW_length w n
    rw [e] at this; simp at this; omega

lemma digitsW_inj {w a b : ℕ} (ha : a < 10 ^ w) (hb : b < 10 ^ w) (h : digitsW w a = digitsW w b) : a = b := by
  rcases Nat.eq_zero_or_pos w with rfl | hw
  · simp at ha hb; omega
  · have h1 := natVal_digits hw ha
    rw [h, natVal_digits hw hb] at h1
    exact (Option.some.inj h1).symm

lemma padNat_eq {w n : ℕ} (hw : 0 < w) (h : n < 10 ^ w) : padNat w n = digitsW w n := by
  unfold padNat
  rw [max_eq_left]
  rcases Nat.eq_zero_or_pos n with rfl | hn
  · simp; omega
  · have := Nat.log_lt_of_lt_pow (b := 10) (by omega) h
    omega

lemma digitsW_isDig (w n : ℕ) : ∀ c ∈ digitsW w n, isDig c = true := by
  induction w with
  | zero => simp [digitsW]
  | succ w ih =>
    intro c hc
    rcases List.mem_cons.1 hc with rfl | hc
    · exact isDig_dg _
    · exact ih c hc

lemma digitsW_not_mem (w n : ℕ) (c : Char) (h : isDig c = false) : c ∉ digitsW w n := by
  intro hc
  rw [digitsW_isDig w n c hc] at h
  exact Bool.noConfusion h

/-- Stripping does nothing when neither end is a space. -/
lemma strip_id {s : Str} (h : ∀ c ∈ s, isDig c = true ∨ c = '-') : strip s = s := by
  have e : ∀ t : Str, (∀ c ∈ t, isDig c = true ∨ c = '-') → t.dropWhile (· == ' ') = t := by
    intro t ht
    cases t with
    | nil => rfl
    | cons c t =>
      have : c ≠ ' ' := by
        rintro rfl
        have := ht ' ' (by simp)
        revert this; decide
      simp [this]
  unfold strip
  rw [e s h, e s.reverse (fun c hc => h c (List.mem_reverse.1 hc)), List.reverse_reverse]

lemma intOf_digits {w n : ℕ} (hw : 0 < w) (h : n < 10 ^ w) : intOf (digitsW w n) = .ok (n : ℤ) := by
  unfold intOf
  rw [strip_id (fun c hc => Or.inl (digitsW_isDig w n c hc))]
  have hd := digitsW_isDig w n
  have hv := natVal_digits hw h
  generalize digitsW w n = t at hd hv
  split
  · have := hd '-' (by simp); exact absurd this (by decide)
  · have := hd '+' (by simp); exact absurd this (by decide)
  · simp [intOfDigits, hv]

lemma intOf_neg_digits {w n : ℕ} (hw : 0 < w) (h : n < 10 ^ w) :
    intOf ('-' :: digitsW w n) = .ok (-(n : ℤ)) := by
  unfold intOf
  rw [strip_id (by
    intro c hc
    rcases List.mem_cons.1 hc with rfl | hc
    · exact Or.inr rfl
    · exact Or.inl (digitsW_isDig w n c hc))]
  simp only [intOfDigits, natVal_digits hw h]
  rfl

lemma rfind_none {c : Char} {s : Str} (h : c ∉ s) : rfind c s = none := by
  induction s with
  | nil => rfl
  | cons x xs ih =>
    rw [rfind, ih (fun hc => h (List.mem_cons_of_mem _ hc))]
    simp only
    rw [if_neg (fun e => h (by rw [e]; exact List.mem_cons_self))]

lemma rfind_last {c : Char} {a b : Str} (h : c ∉ b) : rfind c (a ++ c :: b) = some a.length := by
  induction a with
  | nil => simp [rfind, rfind_none h]
  | cons x xs ih => simp [rfind, ih]

end Verif
