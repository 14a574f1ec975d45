import Verif.Model.StrText
import Verif.Lemmas.IsoText
import Verif.Spec.Witness

/-!
# C84: `str` loses nothing
-/

namespace Verif

/-! ## Reading numbers off a text -/

theorem take_digits {a r : Str} (ha : ∀ c ∈ a, isDig c = true) (hr : ∀ c ∈ r.head?, isDig c = false) :
    (a ++ r).takeWhile isDig = a := by
  induction a with
  | nil =>
    cases r with
    | nil => rfl
    | cons c r => simp [hr c (by simp)]
  | cons c a ih => simp [ha c (by simp), ih (fun d hd => ha d (by simp [hd]))]

theorem padNat_isDig (w n : ℕ) : ∀ c ∈ padNat w n, isDig c = true := digitsW_isDig _ _

theorem padNat_natVal (w n : ℕ) : natVal (padNat w n) = some n := by
  unfold padNat
  exact natVal_digits (by omega)
    ((Nat.lt_pow_succ_log_self (by norm_num) n).trans_le (Nat.pow_le_pow_right (by norm_num) (by omega)))

theorem peel_nat {w w' a b : ℕ} {r r' : Str} (hr : ∀ c ∈ r.head?, isDig c = false) (hr' : ∀ c ∈ r'.head?, isDig c = false)
    (h : padNat w a ++ r = padNat w' b ++ r') : a = b ∧ r = r' := by
  have e := congrArg (List.takeWhile isDig) h
  rw [take_digits (padNat_isDig _ _) hr, take_digits (padNat_isDig _ _) hr'] at e
  refine ⟨?_, ?_⟩
  · have := padNat_natVal w a
    rw [e, padNat_natVal] at this
    injection this with this
    exact this.symm
  · rw [e] at h
    exact List.append_cancel_left h

theorem padNat_head (w n : ℕ) (r : Str) : '-' ∉ (padNat w n ++ r).head? := by
  intro h
  have l : (padNat w n).length ≠ 0 := by
    unfold padNat
    rw [digitsW_length]
    omega
  cases hp : padNat w n with
  | nil => rw [hp] at l; simp at l
  | cons c p =>
    have := padNat_isDig w n c (by rw [hp]; simp)
    rw [hp] at h
    simp at h
    subst h
    exact absurd this (by decide)

/-- The number at the front of a text and what follows it. -/
theorem peel {w w' : ℕ} {a b : ℤ} {r r' : Str} (hr : ∀ c ∈ r.head?, isDig c = false) (hr' : ∀ c ∈ r'.head?, isDig c = false)
    (h : padInt w a ++ r = padInt w' b ++ r') : a = b ∧ r = r' := by
  unfold padInt at h
  split_ifs at h with h1 h2 h2
  · simp only [List.cons_append, List.cons.injEq, true_and] at h
    obtain ⟨e, e'⟩ := peel_nat hr hr' h
    exact ⟨by omega, e'⟩
  · exact absurd (by rw [← h]; simp) (padNat_head w' b.toNat r')
  · exact absurd (by rw [h]; simp) (padNat_head w a.toNat r)
  · obtain ⟨e, e'⟩ := peel_nat hr hr' h
    exact ⟨by omega, e'⟩

theorem peel_mark {w w' : ℕ} {a b : ℤ} {c : Char} {r r' : Str} (hc : isDig c = false) (h : padInt w a ++ c :: r = padInt w' b ++ c :: r') :
    a = b ∧ r = r' := by
  obtain ⟨e, e'⟩ := peel (by simpa using hc) (by simpa using hc) h
  injection e' with _ e'
  exact ⟨e, e'⟩

theorem offset_mark (o : Option ℤ) : formatOffset o = [] ∨ ∃ c r, formatOffset o = c :: r ∧ (c = '+' ∨ c = '-') := by
  cases o with
  | none => exact Or.inl rfl
  | some n =>
    refine Or.inr ⟨_, _, rfl, ?_⟩
    split_ifs <;> simp

theorem offset_head (o : Option ℤ) : ∀ c ∈ (formatOffset o).head?, isDig c = false := by
  rcases offset_mark o with h | ⟨c, r, h, hc⟩
  · simp [h]
  · rw [h]
    rcases hc with rfl | rfl <;> simp <;> decide

theorem offset_dot (o : Option ℤ) (r : Str) : formatOffset o ≠ '.' :: r := by
  rcases offset_mark o with h | ⟨c, r', h, hc⟩
  · simp [h]
  · rw [h]
    rcases hc with rfl | rfl <;> simp

/-- Different offsets are printed differently. -/
theorem offset_inj {a b : Option ℤ} (h : formatOffset a = formatOffset b) : a = b := by
  cases a with
  | none =>
    cases b with
    | none => rfl
    | some q => simp [formatOffset] at h
  | some p =>
    cases b with
    | none => simp [formatOffset] at h
    | some q =>
      unfold formatOffset at h
      simp only [List.cons_append, List.append_assoc, List.cons.injEq] at h
      obtain ⟨hs, h⟩ := h
      obtain ⟨e1, h⟩ := peel_nat (by simp; decide) (by simp; decide) h
      simp only [List.cons.injEq, true_and] at h
      have nd : ∀ n : ℕ, ∀ c ∈ (if n ≠ 0 then ':' :: padNat 2 (n / 1000000) ++ (if n % 1000000 ≠ 0 then '.' :: padNat 6 (n % 1000000) else [])
          else []).head?, isDig c = false := by
        intro n c
        split_ifs <;> simp <;> rintro rfl <;> decide
      obtain ⟨e2, h⟩ := peel_nat (nd _) (nd _) h
      have e3 : p.natAbs % 3600000000 % 60000000 = q.natAbs % 3600000000 % 60000000 := by
        generalize p.natAbs % 3600000000 % 60000000 = m at h
        generalize q.natAbs % 3600000000 % 60000000 = n at h
        by_cases hm : m = 0 <;> by_cases hn : n = 0 <;> simp only [hm, hn, ne_eq, not_true_eq_false, not_false_eq_true, if_true, if_false] at h ⊢
        · simp at h
        · simp at h
        · simp only [List.cons_append, List.cons.injEq, true_and] at h
          have nd' : ∀ n : ℕ, ∀ c ∈ (if ¬ n % 1000000 = 0 then '.' :: padNat 6 (n % 1000000) else []).head?, isDig c = false := by
            intro n c
            split_ifs
            · simp
            · simp
              rintro rfl
              decide
          obtain ⟨e4, h⟩ := peel_nat (nd' _) (nd' _) h
          by_cases km : m % 1000000 = 0 <;> by_cases kn : n % 1000000 = 0 <;> simp only [km, kn, not_true_eq_false, not_false_eq_true,
            if_true, if_false, reduceCtorEq] at h
          · omega
          · simp only [List.cons.injEq, true_and] at h
            have := peel_nat (r := []) (r' := []) (by simp) (by simp) (by simpa using h)
            omega
      have hs' : p < 0 ↔ q < 0 := by
        split_ifs at hs with a b b
        · exact ⟨fun _ => b, fun _ => a⟩
        · exact absurd hs (by decide)
        · exact absurd hs (by decide)
        · exact ⟨fun h => absurd h a, fun h => absurd h b⟩
      congr 1
      omega

/-- The clock and the offset at the end of a text, with `w` the width of the microseconds. -/
theorem clock_inj {w : ℕ} {h h' mi mi' s s' us us' : ℤ} {o o' : Option ℤ}
    (e : padInt 2 h ++ ':' :: (padInt 2 mi ++ ':' :: (padInt 2 s ++ ((if us ≠ 0 then '.' :: padInt w us else []) ++ formatOffset o))) =
      padInt 2 h' ++ ':' :: (padInt 2 mi' ++ ':' :: (padInt 2 s' ++ ((if us' ≠ 0 then '.' :: padInt w us' else []) ++ formatOffset o')))) :
    (h, mi, s, us) = (h', mi', s', us') ∧ o = o' := by
  obtain ⟨a1, e1⟩ := peel_mark (c := ':') (by decide) e
  obtain ⟨a2, e2⟩ := peel_mark (c := ':') (by decide) e1
  clear e e1
  have nd : ∀ us o, ∀ c ∈ ((if us ≠ 0 then '.' :: padInt w us else []) ++ formatOffset o).head?, isDig c = false := by
    intro us o c
    split_ifs
    · simp
      rintro rfl
      decide
    · exact offset_head o c
  obtain ⟨a3, e⟩ := peel (nd _ _) (nd _ _) e2
  subst a1 a2 a3
  by_cases hu : us = 0 <;> by_cases hv : us' = 0 <;>
    simp only [hu, hv, ne_eq, not_true_eq_false, not_false_eq_true, if_true, if_false, List.nil_append, List.cons_append] at e
  · exact ⟨by rw [hu, hv], offset_inj e⟩
  · exact absurd e (offset_dot _ _)
  · exact absurd e.symm (offset_dot _ _)
  · injection e with _ e
    obtain ⟨a4, e⟩ := peel (offset_head _) (offset_head _) e
    exact ⟨by rw [a4], offset_inj e⟩

/-! ## C84 -/

theorem short_text {y m d : ℤ} {r : Str} : formatDate y m d ++ r = padInt 4 y ++ '-' :: (padInt 2 m ++ '-' :: (padInt 2 d ++ r)) := by
  simp [formatDate]

theorem long_text {k v y m d : ℤ} {r : Str} : longText k v y m d ++ r = padInt (if k < 0 then 3 else 2) k ++ '-' :: (padInt 2 v ++ '-' ::
    (padInt 2 y ++ '-' :: (padInt 2 m ++ '-' :: (padInt 2 d ++ r)))) := by
  simp [longText]

/-- The date at the front of a text. -/
theorem dateText_inj {o o' : DateObj} {r r' : Str} (hr : ∀ c ∈ r.head?, isDig c = false ∧ c ≠ '-')
    (hr' : ∀ c ∈ r'.head?, isDig c = false ∧ c ≠ '-')
    (h : (match o with
      | .short y m d => formatDate y m d
      | .long k v y m d => longText k v y m d) ++ r = (match o' with
      | .short y m d => formatDate y m d
      | .long k v y m d => longText k v y m d) ++ r') : o = o' ∧ r = r' := by
  have g := fun c hc => (hr c hc).1
  have g' := fun c hc => (hr' c hc).1
  cases o with
  | short y m d =>
    cases o' with
    | short y' m' d' =>
      simp only [short_text] at h
      obtain ⟨a1, e1⟩ := peel_mark (c := '-') (by decide) h
      obtain ⟨a2, e2⟩ := peel_mark (c := '-') (by decide) e1
      obtain ⟨a3, e3⟩ := peel g g' e2
      exact ⟨by rw [a1, a2, a3], e3⟩
    | long k' v' y' m' d' =>
      simp only [short_text, long_text] at h
      obtain ⟨a1, e1⟩ := peel_mark (c := '-') (by decide) h
      obtain ⟨a2, e2⟩ := peel_mark (c := '-') (by decide) e1
      obtain ⟨a3, e3⟩ := peel (r' := '-' :: _) g (by simp; decide) e2
      exact absurd rfl (hr '-' (by rw [e3]; simp)).2
  | long k v y m d =>
    cases o' with
    | short y' m' d' =>
      simp only [short_text, long_text] at h
      obtain ⟨a1, e1⟩ := peel_mark (c := '-') (by decide) h
      obtain ⟨a2, e2⟩ := peel_mark (c := '-') (by decide) e1
      obtain ⟨a3, e3⟩ := peel (r := '-' :: _) (by simp; decide) g' e2
      exact absurd rfl (hr' '-' (by rw [← e3]; simp)).2
    | long k' v' y' m' d' =>
      simp only [long_text] at h
      obtain ⟨a1, e1⟩ := peel_mark (c := '-') (by decide) h
      obtain ⟨a2, e2⟩ := peel_mark (c := '-') (by decide) e1
      obtain ⟨a3, e3⟩ := peel_mark (c := '-') (by decide) e2
      obtain ⟨a4, e4⟩ := peel_mark (c := '-') (by decide) e3
      obtain ⟨a5, e5⟩ := peel g g' e4
      exact ⟨by rw [a1, a2, a3, a4, a5], e5⟩

/-- C84 for dates: two dates with the same text are the same, in the same form. -/
theorem C84_date (C : Cal) (o o' : DateObj) (s : Str) (h : C.dateStr o = .ok s) (h' : C.dateStr o' = .ok s) : o = o' := by
  have f : ∀ o, C.dateStr o = .ok (match o with
      | .short y m d => formatDate y m d
      | .long k v y m d => longText k v y m d) := by
    intro o
    cases o <;> rfl
  rw [f] at h h'
  injection h with h
  injection h' with h'
  exact (dateText_inj (r := []) (r' := []) (by simp) (by simp) (by rw [h, h'])).1

example : (Cal.init sixPm).dateStr (.long (-2) 10 10 9 6) = .ok "-02-10-10-09-06".toList ∧
    (Cal.init sixPm).dateStr (.short 181 9 6) = .ok "0181-09-06".toList := by
  constructor <;> decide +kernel

/-- C84 for times: two times with the same text have the same clock and the same offset. -/
theorem C84_time (t t' : TimeObj) (s : Str) (h : timeIso t = .ok s) (h' : timeIso t' = .ok s) :
    (t.h, t.mi, t.s, t.us) = (t'.h, t'.mi, t'.s, t'.us) ∧ utcOffset t.tz = utcOffset t'.tz := by
  unfold timeIso at h h'
  cases ho : utcOffset t.tz with
  | error e => rw [ho] at h; exact absurd h (by simp [bind, Except.bind])
  | ok o =>
    cases ho' : utcOffset t'.tz with
    | error e => rw [ho'] at h'; exact absurd h' (by simp [bind, Except.bind])
    | ok o' =>
      rw [ho] at h
      rw [ho'] at h'
      injection h with h
      injection h' with h'
      rw [← h'] at h
      simp only [formatTime, List.append_assoc, List.cons_append] at h
      obtain ⟨a, b⟩ := clock_inj h
      exact ⟨a, by rw [b]⟩

example : timeIso ⟨12, 30, 0, 5, some ⟨2, -12600000000⟩, 0⟩ = .ok "12:30:00.000005-03:30".toList := by decide +kernel

/-- C84 for datetimes: two datetimes with the same text have the same date in the same form, the same clock and the same offset. -/
theorem C84_datetime (x x' : DT) (s : Str) (h : dtStr x = .ok s) (h' : dtStr x' = .ok s) :
    x.d = x'.d ∧ (x.h, x.mi, x.s, x.us) = (x'.h, x'.mi, x'.s, x'.us) ∧ utcOffset x.tz = utcOffset x'.tz := by
  have f : ∀ x : DT, ∀ s, dtStr x = .ok s → ∃ o w, utcOffset x.tz = .ok o ∧ (w = match x.d with | .short _ _ _ => 6 | .long _ _ _ _ _ => 0) ∧
      s = (match x.d with
      | .short y m d => formatDate y m d
      | .long k v y m d => longText k v y m d) ++ 'T' :: (padInt 2 x.h ++ ':' :: (padInt 2 x.mi ++ ':' :: (padInt 2 x.s ++
        ((if x.us ≠ 0 then '.' :: padInt w x.us else []) ++ formatOffset o)))) := by
    intro x s h
    obtain ⟨d, hh, mi, ss, us, tz, fold⟩ := x
    cases d with
    | short y m d =>
      simp only [dtStr, dtIso] at h
      cases ho : utcOffset tz with
      | error e => rw [ho] at h; exact absurd h (by simp [bind, Except.bind])
      | ok o =>
        rw [ho] at h
        injection h with h
        exact ⟨o, 6, rfl, rfl, by rw [← h]; simp [DateObj.ymd, formatTime]⟩
    | long k v y m d =>
      simp only [dtStr] at h
      cases ho : utcOffset tz with
      | error e => rw [ho] at h; exact absurd h (by simp [bind, Except.bind])
      | ok o =>
        rw [ho] at h
        injection h with h
        exact ⟨o, 0, rfl, rfl, by rw [← h]; simp⟩
  obtain ⟨o, w, ho, hw, hs⟩ := f x s h
  obtain ⟨o', w', ho', hw', hs'⟩ := f x' s h'
  rw [hs] at hs'
  obtain ⟨a, b⟩ := dateText_inj (r := 'T' :: _) (r' := 'T' :: _) (by simp; decide) (by simp; decide) hs'
  have : w = w' := by rw [hw, hw', a]
  subst this
  injection b with _ b
  obtain ⟨c, e⟩ := clock_inj b
  exact ⟨a, c, by rw [ho, ho', e]⟩

example : dtStr ⟨.long 1 10 10 9 6, 12, 30, 0, 0, some ⟨2, -12600000000⟩, 0⟩ = .ok "01-10-10-09-06T12:30:00-03:30".toList := by
  decide +kernel

/-- The number that the digits after the first point of a text are, as a decimal fraction. -/
def fractionOf (s : Str) : ℚ :=
  let b := ((s.dropWhile (· ≠ '.')).drop 1).takeWhile isDig
  (((natVal b).getD 0 : ℕ) : ℚ) / 10 ^ b.length

theorem padInt_dot (w : ℕ) (n : ℤ) : '.' ∉ padInt w n := by
  unfold padInt
  have h : ∀ w n, '.' ∉ padNat w n := fun w n h => absurd (padNat_isDig w n _ h) (by decide)
  split_ifs
  · simp [h]
  · exact h _ _

theorem fraction_skip {p q : Str} (h : '.' ∉ p) : fractionOf (p ++ '.' :: q) = fractionOf ('.' :: q) := by
  have : (p ++ '.' :: q).dropWhile (· ≠ '.') = ('.' :: q).dropWhile (· ≠ '.') := by
    induction p with
    | nil => rfl
    | cons c p ih =>
      simp only [List.mem_cons, not_or] at h
      rw [List.cons_append, List.dropWhile_cons, if_pos (by simpa using fun e => h.1 e.symm), ih h.2]
  unfold fractionOf
  rw [this]

theorem fraction_pad {w : ℕ} {n : ℤ} {q : Str} (hn : 0 ≤ n) (hq : ∀ c ∈ q.head?, isDig c = false) :
    fractionOf ('.' :: (padInt w n ++ q)) = n / 10 ^ max w (Nat.log 10 n.toNat + 1) := by
  unfold fractionOf padInt
  rw [if_neg (by omega)]
  simp only [List.dropWhile_cons, ne_eq, not_true_eq_false, decide_false, Bool.false_eq_true, if_false, List.drop_succ_cons, List.drop_zero]
  rw [take_digits (padNat_isDig _ _) hq, padNat_natVal, padNat, digitsW_length]
  simp only [Option.getD_some]
  congr 1
  rw [← Int.cast_natCast, Int.toNat_of_nonneg hn]

/-- C84: the digits after the point of a short form are the microseconds. -/
theorem C84_fraction_short (x : DT) (y m d : ℤ) (hd : x.d = .short y m d) (s : Str) (h : dtStr x = .ok s) (h0 : 0 < x.us)
    (h1 : x.us < 1000000) : fractionOf s = x.us / 1000000 := by
  simp only [dtStr, hd, dtIso] at h
  cases ho : utcOffset x.tz with
  | error e => rw [ho] at h; exact absurd h (by simp [bind, Except.bind])
  | ok o =>
    rw [ho] at h
    injection h with h
    rw [← h]
    simp only [DateObj.ymd, formatDate, formatTime, ne_eq, h0.ne', not_false_eq_true, if_true]
    have e : padInt 4 y ++ '-' :: padInt 2 m ++ '-' :: padInt 2 d ++ 'T' :: (padInt 2 x.h ++ ':' :: padInt 2 x.mi ++ ':' :: padInt 2 x.s ++
        '.' :: padInt 6 x.us) ++ formatOffset o = (padInt 4 y ++ '-' :: padInt 2 m ++ '-' :: padInt 2 d ++ 'T' :: (padInt 2 x.h ++ ':' ::
        padInt 2 x.mi ++ ':' :: padInt 2 x.s)) ++ '.' :: (padInt 6 x.us ++ formatOffset o) := by simp
    rw [e, fraction_skip (by simp [padInt_dot]), fraction_pad h0.le (offset_head o)]
    have : Nat.log 10 x.us.toNat < 6 := Nat.log_lt_of_lt_pow (by omega) (by omega)
    rw [show max 6 (Nat.log 10 x.us.toNat + 1) = 6 by omega]
    norm_num

example : dtStr ⟨.short 181 9 6, 12, 30, 0, 5, none, 0⟩ = .ok "0181-09-06T12:30:00.000005".toList := by decide +kernel

/-- C84 is false for the long form: the microseconds are not padded, so that the digits after the point are the microseconds
only from 100000 on; 5 microseconds are printed as `.5`. -/
theorem C84_fraction_long (x : DT) (k v y m d : ℤ) (hd : x.d = .long k v y m d) (s : Str) (h : dtStr x = .ok s) (h0 : 0 < x.us)
    (h1 : x.us < 1000000) : fractionOf s = x.us / 1000000 ↔ 100000 ≤ x.us := by
  simp only [dtStr, hd] at h
  cases ho : utcOffset x.tz with
  | error e => rw [ho] at h; exact absurd h (by simp [bind, Except.bind])
  | ok o =>
    rw [ho] at h
    injection h with h
    rw [← h]
    simp only [longText, ne_eq, h0.ne', not_false_eq_true, if_true]
    have e : ∀ a, padInt a k ++ '-' :: padInt 2 v ++ '-' :: padInt 2 y ++ '-' :: padInt 2 m ++ '-' :: padInt 2 d ++ 'T' :: padInt 2 x.h ++
        ':' :: padInt 2 x.mi ++ ':' :: padInt 2 x.s ++ '.' :: padInt 0 x.us ++ formatOffset o = (padInt a k ++ '-' :: padInt 2 v ++ '-' ::
        padInt 2 y ++ '-' :: padInt 2 m ++ '-' :: padInt 2 d ++ 'T' :: (padInt 2 x.h ++ ':' ::
        padInt 2 x.mi ++ ':' :: padInt 2 x.s)) ++ '.' :: (padInt 0 x.us ++ formatOffset o) := by simp
    rw [e, fraction_skip (by simp [padInt_dot]), fraction_pad h0.le (offset_head o)]
    have hu : (0 : ℚ) < x.us := by exact_mod_cast h0
    have l6 : Nat.log 10 x.us.toNat < 6 := Nat.log_lt_of_lt_pow (by omega) (by omega)
    have l5 : 5 ≤ Nat.log 10 x.us.toNat ↔ 100000 ≤ x.us := by
      rw [Nat.le_log_iff_pow_le (by norm_num) (by omega)]
      omega
    rw [← l5, div_eq_mul_inv, div_eq_mul_inv, mul_right_inj' hu.ne', inv_inj, show (1000000 : ℚ) = 10 ^ 6 by norm_num, pow_right_inj₀ (by norm_num) (by norm_num)]
    omega

example : dtStr ⟨.long 1 10 10 9 6, 12, 30, 0, 5, none, 0⟩ = .ok "01-10-10-09-06T12:30:00.5".toList := by decide +kernel

end Verif
