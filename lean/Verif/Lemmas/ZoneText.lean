import Verif.Spec.StrpTime
import Verif.Lemmas.StrpTime

/-!
# Lemmas: the texts of `%z`
-/

namespace Verif

theorem digitsW_mod (w n k : ℕ) (h : w ≤ k) : digitsW w (n % 10 ^ k) = digitsW w n := by
  induction w with
  | zero => rfl
  | succ w ih =>
    rw [digitsW, digitsW, ih (by omega)]
    congr 1
    unfold dg
    congr 2
    obtain ⟨j, rfl⟩ : ∃ j, k = w + 1 + j := ⟨k - (w + 1), by omega⟩
    rw [pow_add, pow_succ, mul_assoc, Nat.mod_mul_right_div_self, Nat.mod_mul_right_mod]

/-- A text of digits is the text of a number. -/
theorem text_digits {v : Str} (h : ∀ c ∈ v, isDig c = true) : ∃ n, n < 10 ^ v.length ∧ v = digitsW v.length n := by
  induction v with
  | nil => exact ⟨0, by simp, rfl⟩
  | cons c v ih =>
    obtain ⟨n, hn, e⟩ := ih (fun x hx => h x (by simp [hx]))
    have hc : 48 ≤ c.toNat ∧ c.toNat ≤ 57 := by
      have := h c (by simp)
      simpa [isDig] using this
    refine ⟨(c.toNat - 48) * 10 ^ v.length + n, ?_, ?_⟩
    · rw [List.length_cons, pow_succ]
      have : (c.toNat - 48) * 10 ^ v.length ≤ 9 * 10 ^ v.length := Nat.mul_le_mul_right _ (by omega)
      omega
    · rw [List.length_cons, digitsW]
      congr 1
      · rw [mul_comm, Nat.mul_add_div (by positivity), Nat.div_eq_of_lt hn]
        unfold dg
        rw [show 48 + (c.toNat - 48 + 0) % 10 = c.toNat by omega]
        exact (Char.ofNat_toNat c).symm
      · rw [← digitsW_mod v.length ((c.toNat - 48) * 10 ^ v.length + n) v.length (le_refl _), mul_comm, Nat.mul_add_mod,
          Nat.mod_eq_of_lt hn]
        exact e

theorem exactB_append {p q : Pat} {v : Str} (h : exactB (p ++ q) v = true) :
    ∃ a b, v = a ++ b ∧ exactB p a = true ∧ exactB q b = true := by
  induction p generalizing v with
  | nil => exact ⟨[], v, rfl, rfl, h⟩
  | cons f p ih =>
    cases v with
    | nil => simp [exactB] at h
    | cons c v =>
      simp only [List.cons_append, exactB, Bool.and_eq_true] at h
      obtain ⟨a, b, rfl, ha, hb⟩ := ih h.2
      exact ⟨c :: a, b, rfl, by simp [exactB, h.1, ha], hb⟩

/-! ## What the pattern matches -/

theorem digit_pair {x y : Char} (hx : isDig x = true) (hy : isDig y = true) : ∃ n, n < 100 ∧ [x, y] = digitsW 2 n := by
  obtain ⟨n, h, e⟩ := text_digits (v := [x, y]) (by simp [hx, hy])
  exact ⟨n, by simpa using h, e⟩

theorem digit_pair60 {x y : Char} (hx : range '0' '5' x = true) (hy : isDig y = true) : ∃ n, n < 60 ∧ [x, y] = digitsW 2 n := by
  have hr : 48 ≤ x.toNat ∧ x.toNat ≤ 53 := by simpa [range] using hx
  have hy' : 48 ≤ y.toNat ∧ y.toNat ≤ 57 := by simpa [isDig] using hy
  have hxd : isDig x = true := by simp [isDig]; omega
  obtain ⟨n, h, e⟩ := digit_pair hxd hy
  refine ⟨n, ?_, e⟩
  have hv := natVal_digits (w := 2) (n := n) (by norm_num) (by norm_num; exact h)
  rw [← e] at hv
  simp [natVal, natValFrom, hxd, hy] at hv
  omega

theorem replicate_isDig {k : ℕ} {w : Str} (h : exactB (List.replicate k isDig) w = true) : ∀ c ∈ w, isDig c = true := by
  induction k generalizing w with
  | zero => cases w with
    | nil => simp
    | cons => simp [exactB] at h
  | succ k ih => cases w with
    | nil => simp
    | cons c w =>
      simp only [List.replicate_succ, exactB, Bool.and_eq_true] at h
      intro x hx
      rcases List.mem_cons.mp hx with rfl | hx
      · exact h.1
      · exact ih h.2 x hx

/-- The fraction of a second in `ZoneText`. -/
def FracText (fr : Str) (f : ℕ) : Prop :=
  (fr = [] ∧ f = 0) ∨ ∃ k n, 1 ≤ k ∧ k ≤ 6 ∧ n < 10 ^ k ∧ fr = '.' :: digitsW k n ∧ f = n * 10 ^ (6 - k)

theorem frac_of {p : Pat} {v : Str} (hp : p ∈ zoneFraction) (h : exactB p v = true) : ∃ f, FracText v f := by
  unfold zoneFraction at hp
  rcases List.mem_append.mp hp with hp | hp
  · obtain ⟨q, hq, rfl⟩ := List.mem_map.mp hp
    have : ∃ k, 1 ≤ k ∧ k ≤ 6 ∧ q = List.replicate k isDig := by
      simp only [digitsUpTo, List.mem_cons, List.not_mem_nil, or_false] at hq
      rcases hq with rfl | rfl | rfl | rfl | rfl | rfl
      · exact ⟨6, by omega, by omega, rfl⟩
      · exact ⟨5, by omega, by omega, rfl⟩
      · exact ⟨4, by omega, by omega, rfl⟩
      · exact ⟨3, by omega, by omega, rfl⟩
      · exact ⟨2, by omega, by omega, rfl⟩
      · exact ⟨1, by omega, by omega, rfl⟩
    obtain ⟨k, k0, k1, rfl⟩ := this
    cases v with
    | nil => simp [exactB] at h
    | cons x w =>
      simp only [exactB, Bool.and_eq_true, beq_iff_eq] at h
      have hl := exactB_length h.2
      have hd := replicate_isDig h.2
      obtain ⟨n, hn, e⟩ := text_digits hd
      rw [List.length_replicate] at hl
      rw [← hl] at hn e
      exact ⟨n * 10 ^ (6 - k), Or.inr ⟨k, n, k0, k1, hn, by rw [h.1, ← e], rfl⟩⟩
  · simp only [List.mem_singleton] at hp
    subst hp
    cases v with
    | nil => exact ⟨0, Or.inl ⟨rfl, rfl⟩⟩
    | cons => simp [exactB] at h

/-- The seconds in `ZoneText`. -/
def TailText (b tail : Str) (us : ℕ) : Prop :=
  (tail = [] ∧ us = 0) ∨ ∃ s f fr, s < 60 ∧ tail = b ++ (digitsW 2 s ++ fr) ∧ us = s * 1000000 + f ∧ FracText fr f

theorem exact_pair {f g : Char → Bool} {v : Str} (h : exactB [f, g] v = true) : ∃ x y, v = [x, y] ∧ f x = true ∧ g y = true := by
  match v with
  | [] => simp [exactB] at h
  | [x] => simp [exactB] at h
  | [x, y] => exact ⟨x, y, rfl, by simpa [exactB] using h⟩
  | _ :: _ :: _ :: _ => simp [exactB] at h

theorem tail_of {p : Pat} {v : Str} (hp : p ∈ zoneSeconds) (h : exactB p v = true) : ∃ b us, Colon b ∧ TailText b v us := by
  unfold zoneSeconds at hp
  simp only [List.mem_append, List.mem_map, List.mem_singleton] at hp
  rcases hp with (⟨q, hq, rfl⟩ | ⟨q, hq, rfl⟩) | rfl
  · obtain ⟨a, r, rfl, ha, hr⟩ := exactB_append h
    obtain ⟨f, hf⟩ := frac_of hq hr
    match a with
    | [] => simp [exactB] at ha
    | x :: a =>
      simp only [exactB, Bool.and_eq_true, beq_iff_eq] at ha
      obtain ⟨y, z, rfl, hy, hz⟩ := exact_pair (f := range '0' '5') (g := isDig) (by simpa [exactB] using ha.2)
      obtain ⟨n, hn, e⟩ := digit_pair60 hy hz
      exact ⟨[':'], n * 1000000 + f, Or.inr rfl, Or.inr ⟨n, f, r, hn, by rw [ha.1, ← e]; rfl, rfl, hf⟩⟩
  · obtain ⟨a, r, rfl, ha, hr⟩ := exactB_append h
    obtain ⟨f, hf⟩ := frac_of hq hr
    obtain ⟨y, z, rfl, hy, hz⟩ := exact_pair ha
    obtain ⟨n, hn, e⟩ := digit_pair60 hy hz
    exact ⟨[], n * 1000000 + f, Or.inl rfl, Or.inr ⟨n, f, r, hn, by rw [← e]; rfl, rfl, hf⟩⟩
  · cases v with
    | nil => exact ⟨[], 0, Or.inl rfl, Or.inl ⟨rfl, rfl⟩⟩
    | cons => simp [exactB] at h

theorem zoneText_of {p : Pat} {v : Str} (hp : p ∈ zonePats) (h : exactB p v = true) :
    v = ['Z'] ∨ ∃ a b off, Colon a ∧ Colon b ∧ ZoneText a b v off := by
  unfold zonePats at hp
  simp only [List.mem_append, List.mem_map, List.mem_singleton] at hp
  have sgn : ∀ x : Char, (x == '+' || x == '-') = true → ∃ neg : Bool, x = if neg then '-' else '+' := by
    intro x hx
    simp only [Bool.or_eq_true, beq_iff_eq] at hx
    rcases hx with rfl | rfl
    · exact ⟨false, rfl⟩
    · exact ⟨true, rfl⟩
  rcases hp with (⟨q, hq, rfl⟩ | ⟨q, hq, rfl⟩) | rfl
  · right
    obtain ⟨a, r, rfl, ha, hr⟩ := exactB_append h
    obtain ⟨b, us, hb, ht⟩ := tail_of hq hr
    match a with
    | [] => simp [exactB] at ha
    | [_] => simp [exactB] at ha
    | [_, _] => simp [exactB] at ha
    | [_, _, _] => simp [exactB] at ha
    | x :: h1 :: h2 :: c :: a =>
      simp only [exactB, Bool.and_eq_true, beq_iff_eq] at ha
      obtain ⟨hx, hh1, hh2, rfl, ha⟩ := ha
      obtain ⟨y, z, rfl, hy, hz⟩ := exact_pair (f := range '0' '5') (g := isDig) (by simpa [exactB] using ha)
      obtain ⟨neg, rfl⟩ := sgn x (by simpa using hx)
      obtain ⟨hh, hhl, e1⟩ := digit_pair hh1 hh2
      obtain ⟨m, hm, e2⟩ := digit_pair60 hy hz
      exact ⟨[':'], b, _, Or.inr rfl, hb, neg, hh, m, us, r, hhl, hm, by rw [← e1, ← e2]; rfl, ht, rfl⟩
  · right
    obtain ⟨a, r, rfl, ha, hr⟩ := exactB_append h
    obtain ⟨b, us, hb, ht⟩ := tail_of hq hr
    match a with
    | [] => simp [exactB] at ha
    | [_] => simp [exactB] at ha
    | [_, _] => simp [exactB] at ha
    | x :: h1 :: h2 :: a =>
      simp only [exactB, Bool.and_eq_true] at ha
      obtain ⟨hx, hh1, hh2, ha⟩ := ha
      obtain ⟨y, z, rfl, hy, hz⟩ := exact_pair (f := range '0' '5') (g := isDig) (by simpa [exactB] using ha)
      obtain ⟨neg, rfl⟩ := sgn x (by simpa using hx)
      obtain ⟨hh, hhl, e1⟩ := digit_pair hh1 hh2
      obtain ⟨m, hm, e2⟩ := digit_pair60 hy hz
      exact ⟨[], b, _, Or.inl rfl, hb, neg, hh, m, us, r, hhl, hm, by rw [← e1, ← e2]; rfl, ht, rfl⟩
  · left
    match v with
    | [] => simp [exactB] at h
    | [x] => simpa [exactB] using h
    | _ :: _ :: _ => simp [exactB] at h

/-! ## The offset of a text -/

theorem digits_zeros (k n j : ℕ) : digitsW k n ++ List.replicate j '0' = digitsW (k + j) (n * 10 ^ j) := by
  induction k with
  | zero =>
    rw [zero_add]
    have : ∀ i ≤ j, List.replicate i '0' = digitsW i (n * 10 ^ j) := by
      intro i
      induction i with
      | zero => intro _; rfl
      | succ i ih =>
        intro hi
        rw [List.replicate_succ, digitsW, ← ih (by omega)]
        congr 1
        obtain ⟨t, rfl⟩ : ∃ t, j = i + 1 + t := ⟨j - (i + 1), by omega⟩
        unfold dg
        rw [show n * 10 ^ (i + 1 + t) = 10 ^ i * (10 * (n * 10 ^ t)) by ring, Nat.mul_div_cancel_left _ (by positivity),
          Nat.mul_mod_right]
    simpa [digitsW] using this j (le_refl _)
  | succ k ih =>
    rw [digitsW, List.cons_append, ih, show k + 1 + j = (k + j) + 1 by ring, digitsW, pow_add, Nat.mul_div_mul_right _ _ (by positivity)]

theorem dg_colon (n : ℕ) : dg n ≠ ':' := by
  intro h
  have := digitsW_isDig 1 n (dg n) (by simp [digitsW])
  rw [h] at this
  exact absurd this (by decide)

theorem zoneDigits_plain (c : Char) (h m : ℕ) (t : Str) :
    zoneDigits (c :: (digitsW 2 h ++ (digitsW 2 m ++ t))) = .ok (c :: (digitsW 2 h ++ (digitsW 2 m ++ t))) := by
  unfold zoneDigits
  rw [if_neg]
  intro h'
  exact dg_colon _ (Option.some.inj h')

theorem zoneDigits_mixed (c : Char) (h m s : ℕ) (t : Str) :
    zoneDigits (c :: (digitsW 2 h ++ ([':'] ++ (digitsW 2 m ++ (digitsW 2 s ++ t))))) = .error .value := by
  unfold zoneDigits
  rw [if_pos (show (c :: (digitsW 2 h ++ ([':'] ++ (digitsW 2 m ++ (digitsW 2 s ++ t)))))[3]? = some ':' from rfl)]
  simp only
  rw [if_pos (by simp [digitsW]), if_pos]
  intro h'
  exact dg_colon _ (Option.some.inj h')

/-- The rest of the parse when the colons are gone. -/
def offsetOf (z : Str) : Py ℤ := do
  let h ← intOf ((z.drop 1).take 2)
  let m ← intOf ((z.drop 3).take 2)
  let s ← (if (z.drop 5).take 2 = [] then .ok 0 else intOf ((z.drop 5).take 2))
  let f ← intOf (z.drop 8 ++ List.replicate (6 - (z.drop 8).length) '0')
  .ok (if z.head? = some '-' then -((h * 60 * 60 + m * 60 + s) * 1000000 + f) else (h * 60 * 60 + m * 60 + s) * 1000000 + f)

theorem frac_val {fr : Str} {f : ℕ} (h : FracText fr f) :
    intOf (fr.drop 1 ++ List.replicate (6 - (fr.drop 1).length) '0') = .ok (f : ℤ) := by
  rcases h with ⟨rfl, rfl⟩ | ⟨k, n, k0, k1, hn, rfl, rfl⟩
  · decide
  · have hl : (digitsW k n).length = k := by
      clear hn k0 k1
      induction k with
      | zero => rfl
      | succ k ih => rw [digitsW, List.length_cons, ih]
    rw [List.drop_succ_cons, List.drop_zero, hl, digits_zeros, Nat.add_sub_cancel' k1]
    exact intOf_digits (by norm_num) (by
      calc n * 10 ^ (6 - k) < 10 ^ k * 10 ^ (6 - k) := Nat.mul_lt_mul_of_pos_right hn (by positivity)
        _ = 10 ^ 6 := by rw [← pow_add, Nat.add_sub_cancel' k1])

theorem offsetOf_ok {neg : Bool} {h m us : ℕ} {tail : Str} (hh : h < 100) (hm : m < 60) (ht : TailText [] tail us) :
    offsetOf ((if neg then '-' else '+') :: (digitsW 2 h ++ (digitsW 2 m ++ tail))) =
      .ok ((if neg then -1 else 1) * (((h * 3600 + m * 60) * 1000000 + us : ℕ) : ℤ)) := by
  unfold offsetOf
  generalize hsg : (if neg then '-' else '+') = c
  have e1 : ((c :: (digitsW 2 h ++ (digitsW 2 m ++ tail))).drop 1).take 2 = digitsW 2 h := rfl
  have e2 : ((c :: (digitsW 2 h ++ (digitsW 2 m ++ tail))).drop 3).take 2 = digitsW 2 m := rfl
  have e3 : (c :: (digitsW 2 h ++ (digitsW 2 m ++ tail))).drop 5 = tail := rfl
  have e4 : (c :: (digitsW 2 h ++ (digitsW 2 m ++ tail))).drop 8 = tail.drop 3 := rfl
  have e5 : (c :: (digitsW 2 h ++ (digitsW 2 m ++ tail))).head? = some c := rfl
  rw [e1, e2, e3, e4, e5, intOf_digits (by norm_num) (by norm_num; exact hh), pyOk_bind,
    intOf_digits (by norm_num) (by norm_num; omega), pyOk_bind]
  rcases ht with ⟨rfl, rfl⟩ | ⟨s, f, fr, hs, rfl, rfl, hf⟩
  · rw [show intOf (([] : Str).drop 3 ++ List.replicate (6 - (([] : Str).drop 3).length) '0') = .ok 0 by decide]
    simp only [List.take_nil, if_true, pyOk_bind]
    subst hsg
    cases neg
    · simp only [Bool.false_eq_true, if_false]
      rw [if_neg (by decide)]
      push_cast; congr 1; ring
    · simp only [if_true]
      push_cast; congr 1; ring
  · rw [show (([] : Str) ++ (digitsW 2 s ++ fr)).take 2 = digitsW 2 s from rfl,
      show (([] : Str) ++ (digitsW 2 s ++ fr)).drop 3 = fr.drop 1 from rfl, if_neg (by simp [digitsW]),
      intOf_digits (by norm_num) (by norm_num; omega), pyOk_bind, frac_val hf, pyOk_bind]
    subst hsg
    cases neg
    · simp only [Bool.false_eq_true, if_false]
      rw [if_neg (by decide)]
      push_cast; congr 1; ring
    · simp only [if_true]
      push_cast; congr 1; ring

theorem parseOffset_eq {z w : Str} (hz : z ≠ ['Z']) (h : zoneDigits z = .ok w) : parseOffset z = offsetOf w := by
  unfold parseOffset
  rw [if_neg hz, h, pyOk_bind]
  rfl

theorem sign_notZ (neg : Bool) (r : Str) : (if neg then '-' else '+') :: r ≠ ['Z'] := by
  cases neg <;> simp

/-- The offset of a text with the same before the minutes and the seconds. -/
theorem parseOffset_ok {v : Str} {off : ℤ} (h : OffsetText v off) : parseOffset v = .ok off := by
  rcases h with ⟨rfl, rfl⟩ | ⟨a, ha, neg, h, m, us, tail, hh, hm, rfl, ht, rfl⟩
  · decide
  · change TailText a tail us at ht
    rcases ha with rfl | rfl
    · rw [parseOffset_eq (sign_notZ _ _) (w := (if neg then '-' else '+') :: (digitsW 2 h ++ (digitsW 2 m ++ tail))) ?_]
      · exact offsetOf_ok hh hm ht
      · exact zoneDigits_plain _ _ _ _
    · have key : ∀ tail', TailText [] tail' us →
          zoneDigits ((if neg then '-' else '+') :: (digitsW 2 h ++ ([':'] ++ (digitsW 2 m ++ tail)))) =
            .ok ((if neg then '-' else '+') :: (digitsW 2 h ++ (digitsW 2 m ++ tail'))) →
          parseOffset ((if neg then '-' else '+') :: (digitsW 2 h ++ ([':'] ++ (digitsW 2 m ++ tail)))) =
            .ok ((if neg then -1 else 1) * (((h * 3600 + m * 60) * 1000000 + us : ℕ) : ℤ)) := by
        intro tail' ht' hz
        rw [parseOffset_eq (sign_notZ _ _) hz]
        exact offsetOf_ok hh hm ht'
      rcases ht with ⟨rfl, rfl⟩ | ⟨s, f, fr, hs, rfl, rfl, hf⟩
      · exact key [] (Or.inl ⟨rfl, rfl⟩) rfl
      · exact key _ (Or.inr ⟨s, f, fr, hs, rfl, rfl, hf⟩) rfl

theorem intOf_colon (c : Char) : intOf [':', c] = .error .value := by
  have hs : ∀ c : Char, ∃ t, strip [':', c] = ':' :: t := by
    intro c
    unfold strip
    by_cases h : c = ' '
    · subst h; exact ⟨[], by decide⟩
    · refine ⟨[c], ?_⟩
      simp [List.dropWhile, h]
  obtain ⟨t, e⟩ := hs c
  unfold intOf
  rw [e]
  rfl

/-- The offset, of those texts that the pattern matches. -/
theorem parseOffset_inv {v : Str} {n : ℤ} (hv : v = ['Z'] ∨ ∃ a b off, Colon a ∧ Colon b ∧ ZoneText a b v off)
    (h : parseOffset v = .ok n) : OffsetText v n := by
  rcases hv with rfl | ⟨a, b, off, ha, hb, hz⟩
  · left
    refine ⟨rfl, ?_⟩
    have : parseOffset ['Z'] = .ok 0 := by decide
    rw [this] at h
    injection h with h
    exact h.symm
  · have fin : OffsetText v off → OffsetText v n := by
      intro ho
      rw [parseOffset_ok ho] at h
      injection h with h
      rwa [← h]
    have hz' := hz
    obtain ⟨neg, hh, m, us, tail, h0, h1, rfl, ht, rfl⟩ := hz'
    rcases ht with ⟨rfl, rfl⟩ | ⟨s, f, fr, hs, rfl, rfl, hf⟩
    · exact fin (Or.inr ⟨a, ha, neg, hh, m, 0, [], h0, h1, rfl, Or.inl ⟨rfl, rfl⟩, rfl⟩)
    · rcases ha with rfl | rfl <;> rcases hb with rfl | rfl
      · exact fin (Or.inr ⟨[], Or.inl rfl, hz⟩)
      · exfalso
        rw [List.nil_append] at h
        rw [parseOffset_eq (sign_notZ _ _)
          (w := (if neg then '-' else '+') :: (digitsW 2 hh ++ (digitsW 2 m ++ ([':'] ++ (digitsW 2 s ++ fr))))) (zoneDigits_plain _ _ _ _)] at h
        unfold offsetOf at h
        rw [show ((((if neg then '-' else '+') :: (digitsW 2 hh ++ (digitsW 2 m ++ ([':'] ++ (digitsW 2 s ++ fr))))).drop 1).take 2) =
            digitsW 2 hh from rfl,
          show ((((if neg then '-' else '+') :: (digitsW 2 hh ++ (digitsW 2 m ++ ([':'] ++ (digitsW 2 s ++ fr))))).drop 3).take 2) =
            digitsW 2 m from rfl,
          show ((((if neg then '-' else '+') :: (digitsW 2 hh ++ (digitsW 2 m ++ ([':'] ++ (digitsW 2 s ++ fr))))).drop 5).take 2) =
            [':', dg (s / 10 ^ 1)] from rfl, intOf_digits (by norm_num) (by norm_num; exact h0), pyOk_bind,
          intOf_digits (by norm_num) (by norm_num; omega), pyOk_bind, if_neg (by simp), intOf_colon] at h
        cases h
      · exfalso
        unfold parseOffset at h
        rw [if_neg (sign_notZ _ _)] at h
        rw [List.nil_append, zoneDigits_mixed] at h
        cases h
      · exact fin (Or.inr ⟨[':'], Or.inr rfl, hz⟩)

end Verif
