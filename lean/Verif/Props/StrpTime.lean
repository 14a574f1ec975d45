import Verif.Lemmas.StrpTime
import Verif.Props.IsoWeek
import Verif.Props.DateTimeObj

/-!
# C39: `strptime` inverts `strftime`
-/

namespace Verif

/-- The text of a directive for a `datetime` with these fields. -/
def fieldText (t : Tup) (us : ℤ) (c : Char) : Str :=
  match c with
  | 'Y' => signedYear t.year
  | 'm' => padInt 2 t.mon
  | 'd' => padInt 2 t.mday
  | 'H' => padInt 2 t.hour
  | 'M' => padInt 2 t.min
  | 'S' => padInt 2 t.sec
  | 'f' => padInt 6 us
  | 'j' => padInt 3 t.yday
  | 'B' => nameAt monthNames t.mon
  | 'b' => nameAt monthAbbrs t.mon
  | 'A' => nameAt dayNames t.wday
  | 'a' => nameAt dayAbbrs t.wday
  | _ => []

/-- The effect of a group. -/
def fieldUpd (t : Tup) (us : ℤ) (f : Found) (c : Char) : Found :=
  match c with
  | 'Y' => { f with year := some t.year }
  | 'm' => { f with month := t.mon }
  | 'd' => { f with day := t.mday }
  | 'H' => { f with hour := t.hour }
  | 'M' => { f with minute := t.min }
  | 'S' => { f with second := t.sec }
  | 'f' => { f with fraction := us }
  | 'j' => { f with julian := some t.yday }
  | 'B' => { f with month := t.mon }
  | 'b' => { f with month := t.mon }
  | 'A' => { f with weekday := some t.wday }
  | 'a' => { f with weekday := some t.wday }
  | _ => f

/-- Fields in range for the round trip. -/
structure TupOk (t : Tup) (us : ℤ) : Prop where
  short : t.short = true
  y : -1842 ≤ t.year ∧ t.year ≤ 1161
  m : 0 ≤ t.mon ∧ t.mon ≤ 19
  d : 1 ≤ t.mday ∧ t.mday ≤ 19
  h : 0 ≤ t.hour ∧ t.hour ≤ 23
  mi : 0 ≤ t.min ∧ t.min ≤ 59
  s : 0 ≤ t.sec ∧ t.sec ≤ 60
  w : 0 ≤ t.wday ∧ t.wday ≤ 6
  yd : 1 ≤ t.yday ∧ t.yday ≤ 366
  us : 0 ≤ us ∧ us < 1000000

theorem reads_year (y : ℕ) (neg : Bool) :
    readsB ((altsOf 'Y').getD []) ((if neg then ['-'] else []) ++ digitsW 4 y) = true := by
  have e : (altsOf 'Y').getD [] = (digitsUpTo 4).map ((· == '-') :: ·) ++ digitsUpTo 4 := rfl
  have d1 : exactB (List.replicate 4 isDig) (digitsW 4 y) = true := by
    simp [exactB, digitsW, List.replicate, isDig_dg]
  rw [e]
  cases neg with
  | true =>
    simp only [if_true, digitsUpTo, List.map_cons, List.cons_append, readsB, exactB, List.nil_append]
    simp [List.replicate, exactB, digitsW, isDig_dg]
  | false =>
    have hm : (dg (y / 10 ^ 3) == '-') = false := by
      rw [beq_eq_false_iff_ne]; exact dg_ne _ _ (by decide)
    simp only [digitsUpTo, digitsW, List.map_cons, List.map_nil, List.cons_append, List.nil_append, Bool.false_eq_true,
      if_false, readsB, clashB, hm, exactB, List.replicate, isDig_dg]
    simp

theorem reads_frac (us : ℕ) : readsB ((altsOf 'f').getD []) (digitsW 6 us) = true := by
  have e : (altsOf 'f').getD [] = digitsUpTo 6 := rfl
  rw [e]
  simp [digitsUpTo, readsB, exactB, digitsW, List.replicate, isDig_dg]

theorem reads_tables :
    (∀ k < 20, readsB ((altsOf 'm').getD []) (digitsW 2 k) = true) ∧
    (∀ k < 20, 1 ≤ k → readsB ((altsOf 'd').getD []) (digitsW 2 k) = true) ∧
    (∀ k < 24, readsB ((altsOf 'H').getD []) (digitsW 2 k) = true) ∧
    (∀ k < 60, readsB ((altsOf 'M').getD []) (digitsW 2 k) = true) ∧
    (∀ k < 61, readsB ((altsOf 'S').getD []) (digitsW 2 k) = true) ∧
    (∀ k < 367, 1 ≤ k → readsB ((altsOf 'j').getD []) (digitsW 3 k) = true) ∧
    (∀ k < 20, readsB ((altsOf 'B').getD []) (nameAt monthNames (k : ℕ)) = true ∧
      nameIndex monthNames (nameAt monthNames (k : ℕ)) = .ok (k : ℤ) ∧
      (nameAt monthNames (k : ℕ)).head?.any (fun c => !isSpaceC c) = true) ∧
    (∀ k < 20, readsB ((altsOf 'b').getD []) (nameAt monthAbbrs (k : ℕ)) = true ∧
      (k ≠ 15 → nameIndex monthAbbrs (nameAt monthAbbrs (k : ℕ)) = .ok (k : ℤ)) ∧
      (nameAt monthAbbrs (k : ℕ)).head?.any (fun c => !isSpaceC c) = true) ∧
    (∀ k < 7, readsB ((altsOf 'A').getD []) (nameAt dayNames (k : ℕ)) = true ∧
      nameIndex dayNames (nameAt dayNames (k : ℕ)) = .ok (k : ℤ) ∧
      (nameAt dayNames (k : ℕ)).head?.any (fun c => !isSpaceC c) = true) ∧
    (∀ k < 7, readsB ((altsOf 'a').getD []) (nameAt dayAbbrs (k : ℕ)) = true ∧
      nameIndex dayAbbrs (nameAt dayAbbrs (k : ℕ)) = .ok (k : ℤ) ∧
      (nameAt dayAbbrs (k : ℕ)).head?.any (fun c => !isSpaceC c) = true) := by
  refine ⟨?_, ?_, ?_, ?_, ?_, ?_, ?_, ?_, ?_, ?_⟩ <;> decide +kernel

theorem dig_not_space {c : Char} (h : isDig c = true) : isSpaceC c = false := by
  unfold isDig at h
  unfold isSpaceC
  simp only [Bool.and_eq_true, decide_eq_true_eq] at h
  have hc : c ≠ ' ' := by rintro rfl; revert h; decide
  simp [hc]
  omega

theorem digits_head {w n : ℕ} (hw : 0 < w) : ∃ x r, digitsW w n = x :: r ∧ isSpaceC x = false := by
  cases w with
  | zero => omega
  | succ w => exact ⟨_, _, rfl, dig_not_space (isDig_dg _)⟩

theorem head_any {s : Str} (h : s.head?.any (fun c => !isSpaceC c) = true) : ∃ x r, s = x :: r ∧ isSpaceC x = false := by
  cases s with
  | nil => simp at h
  | cons x r => exact ⟨x, r, rfl, by simpa using h⟩

theorem signedYear_eq {y : ℤ} (h0 : -1842 ≤ y) (h1 : y ≤ 1161) :
    signedYear y = (if decide (y < 0) then ['-'] else []) ++ digitsW 4 y.natAbs := by
  unfold signedYear
  rw [padNat_eq (by norm_num) (by norm_num; omega)]
  simp

theorem intOf_signedYear {y : ℤ} (h0 : -1842 ≤ y) (h1 : y ≤ 1161) : intOf (signedYear y) = .ok y := by
  rw [signedYear_eq h0 h1]
  by_cases hy : y < 0
  · simp only [hy, decide_true, if_true, List.cons_append, List.nil_append]
    rw [intOf_neg_digits (by norm_num) (by norm_num; omega)]
    congr 1; omega
  · simp only [hy, decide_false, Bool.false_eq_true, if_false, List.nil_append]
    rw [intOf_digits (by norm_num) (by norm_num; omega)]
    congr 1; omega

theorem field_facts {t : Tup} {us : ℤ} (ht : TupOk t us) {c : Char} (hc : c ∈ "YmdHMSfjBbAa".toList)
    (hb : c = 'b' → t.mon ≠ 15) :
    readsB ((altsOf c).getD []) (fieldText t us c) = true ∧
    (∃ x r, fieldText t us c = x :: r ∧ isSpaceC x = false) ∧
    ∀ f, setGroup f (c, fieldText t us c) = .ok (fieldUpd t us f c) := by
  obtain ⟨r1, r2, r3, r4, r5, r6, r7, r8, r9, r10⟩ := reads_tables
  obtain ⟨-, hy, hm, hd, hh, hmi, hs, hw, hyd, hus⟩ := ht
  have num : ∀ (w : ℕ) (n : ℤ), 0 < w → 0 ≤ n → n.toNat < 10 ^ w → padInt w n = digitsW w n.toNat ∧
      intOf (padInt w n) = .ok n ∧ ∃ x r, padInt w n = x :: r ∧ isSpaceC x = false := by
    intro w n hw h0 h1
    have e : padInt w n = digitsW w n.toNat := by
      have := padInt_nat (w := w) (n := n.toNat) hw h1
      rwa [Int.toNat_of_nonneg h0] at this
    refine ⟨e, ?_, ?_⟩
    · rw [e, intOf_digits hw h1, Int.toNat_of_nonneg h0]
    · rw [e]; exact digits_head hw
  have name : ∀ (names : List String) (n : ℤ), 0 ≤ n → nameAt names n = nameAt names (n.toNat : ℕ) := by
    intro names n h0; rw [Int.toNat_of_nonneg h0]
  have hc' : c = 'Y' ∨ c = 'm' ∨ c = 'd' ∨ c = 'H' ∨ c = 'M' ∨ c = 'S' ∨ c = 'f' ∨ c = 'j' ∨ c = 'B' ∨ c = 'b' ∨ c = 'A' ∨
      c = 'a' := by simpa using hc
  rcases hc' with rfl | rfl | rfl | rfl | rfl | rfl | rfl | rfl | rfl | rfl | rfl | rfl
  · refine ⟨?_, ?_, fun f => ?_⟩
    · change readsB _ (signedYear t.year) = true
      rw [signedYear_eq hy.1 hy.2]
      exact reads_year _ _
    · change ∃ x r, signedYear t.year = x :: r ∧ _
      rw [signedYear_eq hy.1 hy.2]
      split_ifs
      · exact ⟨_, _, rfl, by decide⟩
      · exact digits_head (by norm_num)
    · change (intOf (signedYear t.year)).map _ = _
      rw [intOf_signedYear hy.1 hy.2]; rfl
  · obtain ⟨a, b, d⟩ := num 2 t.mon (by norm_num) hm.1 (by norm_num; omega)
    exact ⟨by change readsB _ (padInt 2 t.mon) = true; rw [a]; exact r1 _ (by omega), d,
      fun f => by change (intOf (padInt 2 t.mon)).map _ = _; rw [b]; rfl⟩
  · obtain ⟨a, b, d⟩ := num 2 t.mday (by norm_num) (by omega) (by norm_num; omega)
    exact ⟨by change readsB _ (padInt 2 t.mday) = true; rw [a]; exact r2 _ (by omega) (by omega), d,
      fun f => by change (intOf (padInt 2 t.mday)).map _ = _; rw [b]; rfl⟩
  · obtain ⟨a, b, d⟩ := num 2 t.hour (by norm_num) hh.1 (by norm_num; omega)
    exact ⟨by change readsB _ (padInt 2 t.hour) = true; rw [a]; exact r3 _ (by omega), d,
      fun f => by change (intOf (padInt 2 t.hour)).map _ = _; rw [b]; rfl⟩
  · obtain ⟨a, b, d⟩ := num 2 t.min (by norm_num) hmi.1 (by norm_num; omega)
    exact ⟨by change readsB _ (padInt 2 t.min) = true; rw [a]; exact r4 _ (by omega), d,
      fun f => by change (intOf (padInt 2 t.min)).map _ = _; rw [b]; rfl⟩
  · obtain ⟨a, b, d⟩ := num 2 t.sec (by norm_num) hs.1 (by norm_num; omega)
    exact ⟨by change readsB _ (padInt 2 t.sec) = true; rw [a]; exact r5 _ (by omega), d,
      fun f => by change (intOf (padInt 2 t.sec)).map _ = _; rw [b]; rfl⟩
  · obtain ⟨a, b, d⟩ := num 6 us (by norm_num) hus.1 (by norm_num; omega)
    refine ⟨by change readsB _ (padInt 6 us) = true; rw [a]; exact reads_frac _, d, fun f => ?_⟩
    change (intOf (padInt 6 us ++ List.replicate (6 - (padInt 6 us).length) '0')).map _ = _
    rw [show (padInt 6 us).length = 6 by rw [a, digitsW_length]]
    simp only [Nat.sub_self, List.replicate_zero, List.append_nil]
    rw [b]; rfl
  · obtain ⟨a, b, d⟩ := num 3 t.yday (by norm_num) (by omega) (by norm_num; omega)
    exact ⟨by change readsB _ (padInt 3 t.yday) = true; rw [a]; exact r6 _ (by omega) (by omega), d,
      fun f => by change (intOf (padInt 3 t.yday)).map _ = _; rw [b]; rfl⟩
  · obtain ⟨a, b, d⟩ := r7 t.mon.toNat (by omega)
    rw [← name _ _ hm.1] at a b d
    exact ⟨a, head_any d, fun f => by
      change (nameIndex monthNames (nameAt monthNames t.mon)).map _ = _
      rw [b, Int.toNat_of_nonneg hm.1]; rfl⟩
  · obtain ⟨a, b, d⟩ := r8 t.mon.toNat (by omega)
    have b := b (by have := hb rfl; omega)
    rw [← name _ _ hm.1] at a b d
    exact ⟨a, head_any d, fun f => by
      change (nameIndex monthAbbrs (nameAt monthAbbrs t.mon)).map _ = _
      rw [b, Int.toNat_of_nonneg hm.1]; rfl⟩
  · obtain ⟨a, b, d⟩ := r9 t.wday.toNat (by omega)
    rw [← name _ _ hw.1] at a b d
    exact ⟨a, head_any d, fun f => by
      change (nameIndex dayNames (nameAt dayNames t.wday)).map _ = _
      rw [b, Int.toNat_of_nonneg hw.1]; rfl⟩
  · obtain ⟨a, b, d⟩ := r10 t.wday.toNat (by omega)
    rw [← name _ _ hw.1] at a b d
    exact ⟨a, head_any d, fun f => by
      change (nameIndex dayAbbrs (nameAt dayAbbrs t.wday)).map _ = _
      rw [b, Int.toNat_of_nonneg hw.1]; rfl⟩

/-- The directives of a list of pieces. -/
def dirsOf (ts : List Tok) : List Char := ts.filterMap (fun t => match t with | .dir c _ => some c | .lit _ => none)

theorem mem_dirsOf {ts : List Tok} (hm : ∀ c m, Tok.dir c m ∈ ts → m = none) (c : Char) :
    c ∈ dirsOf ts ↔ Tok.dir c none ∈ ts := by
  unfold dirsOf
  rw [List.mem_filterMap]
  constructor
  · rintro ⟨t, ht, he⟩
    cases t with
    | lit x => simp at he
    | dir x m =>
      simp at he; subst he
      obtain rfl := hm _ _ ht
      exact ht
  · intro h; exact ⟨_, h, rfl⟩

theorem parse_groups {t : Tup} {us : ℤ} (ht : TupOk t us) {ts : List Tok} (h : ∀ x ∈ ts, x.Readable)
    (hb : Tok.dir 'b' none ∈ ts → t.mon ≠ 15) (f : Found) :
    (groupsOf (fieldText t us) ts).foldlM setGroup f = .ok ((dirsOf ts).foldl (fieldUpd t us) f) := by
  induction ts generalizing f with
  | nil => rfl
  | cons x ts ih =>
    have ih := ih (fun y hy => h y (List.mem_cons_of_mem _ hy)) (fun hy => hb (List.mem_cons_of_mem _ hy))
    cases x with
    | lit c => exact ih f
    | dir c m =>
      obtain ⟨rfl, hc⟩ : m = none ∧ c ∈ "YmdHMSfjBbAa".toList := h _ List.mem_cons_self
      change ((c, fieldText t us c) :: groupsOf (fieldText t us) ts).foldlM setGroup f = _
      rw [List.foldlM_cons, (field_facts ht hc (fun e => hb (by subst e; exact List.mem_cons_self))).2.2 f, pyOk_bind]
      exact ih _

/-- The fields after all groups. -/
theorem foldl_upd {t : Tup} {us : ℤ} (cs : List Char) (h : ∀ c ∈ cs, c ∈ "YmdHMSfjBbAa".toList) (f : Found) :
    (cs.foldl (fieldUpd t us) f).year = (if 'Y' ∈ cs then some t.year else f.year) ∧
    (cs.foldl (fieldUpd t us) f).month = (if 'm' ∈ cs ∨ 'B' ∈ cs ∨ 'b' ∈ cs then t.mon else f.month) ∧
    (cs.foldl (fieldUpd t us) f).day = (if 'd' ∈ cs then t.mday else f.day) ∧
    (cs.foldl (fieldUpd t us) f).hour = (if 'H' ∈ cs then t.hour else f.hour) ∧
    (cs.foldl (fieldUpd t us) f).minute = (if 'M' ∈ cs then t.min else f.minute) ∧
    (cs.foldl (fieldUpd t us) f).second = (if 'S' ∈ cs then t.sec else f.second) ∧
    (cs.foldl (fieldUpd t us) f).fraction = (if 'f' ∈ cs then us else f.fraction) ∧
    (cs.foldl (fieldUpd t us) f).julian = (if 'j' ∈ cs then some t.yday else f.julian) ∧
    (cs.foldl (fieldUpd t us) f).isoYear = f.isoYear ∧ (cs.foldl (fieldUpd t us) f).isoWeek = f.isoWeek ∧
    (cs.foldl (fieldUpd t us) f).weekOfYear = f.weekOfYear ∧ (cs.foldl (fieldUpd t us) f).gmtoff = f.gmtoff ∧
    (cs.foldl (fieldUpd t us) f).ampm = f.ampm := by
  induction cs generalizing f with
  | nil => simp
  | cons c cs ih =>
    have hc := h c List.mem_cons_self
    have hc' : c = 'Y' ∨ c = 'm' ∨ c = 'd' ∨ c = 'H' ∨ c = 'M' ∨ c = 'S' ∨ c = 'f' ∨ c = 'j' ∨ c = 'B' ∨ c = 'b' ∨ c = 'A' ∨
      c = 'a' := by simpa using hc
    obtain ⟨h1, h2, h3, h4, h5, h6, h7, h8, h9, h10, h11, h12, h13⟩ :=
      ih (fun x hx => h x (List.mem_cons_of_mem _ hx)) (fieldUpd t us f c)
    rw [List.foldl_cons, h1, h2, h3, h4, h5, h6, h7, h8, h9, h10, h11, h12, h13]
    rcases hc' with rfl | rfl | rfl | rfl | rfl | rfl | rfl | rfl | rfl | rfl | rfl | rfl <;>
      simp [fieldUpd]

/-- A piece that is copied by the scanning of the format: a literal, or `%f`, which has been replaced before. -/
def Tok.copied (t : Tok) : Bool := t.isLit || t = .dir 'f' none

theorem subF_ne {us : Str} (hus : us ≠ []) (t : Tok) : subF us t ≠ [] := by
  unfold subF
  split
  · simpa using hus
  · simp

theorem subF_cases (us : Str) (t : Tok) : (t = .dir 'f' none ∧ subF us t = us.map .lit) ∨
    (t ≠ .dir 'f' none ∧ subF us t = [t]) := by
  unfold subF
  split
  · exact Or.inl ⟨rfl, rfl⟩
  · rename_i h; exact Or.inr ⟨h, rfl⟩

theorem subF_head {us : Str} {ts : List Tok} {a : Tok} (h : (ts.flatMap (subF us)).head? = some a) :
    ∃ b, ts.head? = some b ∧ (a.isLit = true → b.copied = true) := by
  cases ts with
  | nil => simp at h
  | cons t ts =>
    refine ⟨t, rfl, fun hl => ?_⟩
    rcases subF_cases us t with ⟨rfl, e⟩ | ⟨-, e⟩
    · decide
    · rw [List.flatMap_cons, e] at h
      simp at h
      subst h
      unfold Tok.copied
      simp [hl]

theorem subF_last {us : Str} (hus : us ≠ []) (hd : ∀ c ∈ us, isDig c = true) {ts : List Tok} {a : Tok}
    (h : (ts.flatMap (subF us)).getLast? = some a) : ∃ b, ts.getLast? = some b ∧ (a.isDash = true → b.isDash = true) := by
  rcases List.eq_nil_or_concat ts with rfl | ⟨pre, t, rfl⟩
  · simp at h
  · refine ⟨t, by simp, fun hl => ?_⟩
    rw [List.concat_eq_append, List.flatMap_append, List.flatMap_cons, List.flatMap_nil, List.append_nil,
      List.getLast?_append_of_ne_nil _ (subF_ne hus t)] at h
    rcases subF_cases us t with ⟨rfl, e⟩ | ⟨-, e⟩
    · rw [e] at h
      have := List.mem_of_getLast? h
      rw [List.mem_map] at this
      obtain ⟨c, hc, rfl⟩ := this
      have h1 := hd c hc
      unfold Tok.isDash at hl
      simp at hl
      rcases hl with rfl | rfl <;> revert h1 <;> decide
    · rw [e] at h
      simp at h
      subst h; exact hl

theorem digit_not_dash {c : Char} (h : isDig c = true) : (Tok.lit c).isDash = false := by
  unfold Tok.isDash
  simp
  constructor <;> rintro rfl <;> revert h <;> decide

theorem subF_chain {us : Str} (hd : ∀ c ∈ us, isDig c = true) {ts : List Tok}
    (hc : ts.IsChain (fun a b => ¬ (a.isDash = true ∧ b.copied = true))) : NoDash (ts.flatMap (subF us)) := by
  induction ts with
  | nil => exact List.IsChain.nil
  | cons t ts ih =>
    have hc' := List.isChain_cons.1 hc
    have ih := ih hc'.2
    rw [List.flatMap_cons]
    unfold NoDash at ih ⊢
    rcases subF_cases us t with ⟨rfl, e⟩ | ⟨-, e⟩
    · rw [e, List.isChain_append]
      have hm : ∀ l : Str, (∀ c ∈ l, isDig c = true) →
          (l.map Tok.lit).IsChain (fun a b => ¬ (a.isDash = true ∧ b.isLit = true)) := by
        intro l
        induction l with
        | nil => intro _; exact List.IsChain.nil
        | cons c l ih =>
          intro h
          rw [List.map_cons, List.isChain_cons]
          refine ⟨fun y _ hy => ?_, ih (fun x hx => h x (List.mem_cons_of_mem _ hx))⟩
          rw [digit_not_dash (h c List.mem_cons_self)] at hy
          exact absurd hy.1 (by decide)
      refine ⟨hm us hd, ih, fun x hx y _ hxy => ?_⟩
      have := List.mem_of_getLast? hx
      rw [List.mem_map] at this
      obtain ⟨c, hc, rfl⟩ := this
      rw [digit_not_dash (hd c hc)] at hxy
      exact absurd hxy.1 (by decide)
    · rw [e, List.singleton_append, List.isChain_cons]
      refine ⟨fun y hy hxy => ?_, ih⟩
      obtain ⟨b, hb, hl⟩ := subF_head hy
      exact hc'.1 b hb ⟨hxy.1, hl hxy.2⟩

/-- The text of the format after the replacement of `%f`. -/
theorem values_subF {dir : Directives} {val : Char → Str} {us : Str} {ts : List Tok} (hf : val 'f' = us)
    (hv : ∀ c m, Tok.dir c m ∈ ts → m = none ∧ (c ≠ 'f' → dir c none = .ok (val c))) :
    tokValues dir (ts.flatMap (subF us)) = .ok (outOf val ts) := by
  have app : ∀ (u : Str) (l : List Tok) (r : Str), tokValues dir l = .ok r →
      tokValues dir (u.map Tok.lit ++ l) = .ok (u ++ r) := by
    intro u l r hr
    induction u with
    | nil => exact hr
    | cons c u ih =>
      rw [List.map_cons, List.cons_append, tokValues, show Tok.value dir (.lit c) = .ok [c] from rfl, pyOk_bind, ih, pyOk_bind]
      rfl
  induction ts with
  | nil => rfl
  | cons t ts ih =>
    have ih := ih (fun c m h => hv c m (List.mem_cons_of_mem _ h))
    rw [List.flatMap_cons]
    rcases subF_cases us t with ⟨rfl, e⟩ | ⟨hne, e⟩
    · rw [e, app _ _ _ ih]
      change _ = Except.ok (val 'f' ++ outOf val ts)
      rw [hf]
    · rw [e, List.singleton_append, tokValues, ih]
      cases t with
      | lit c => rfl
      | dir c m =>
        obtain ⟨rfl, hvc⟩ := hv c m List.mem_cons_self
        rw [show Tok.value dir (.dir c none) = dir c none from rfl,
          hvc (fun h => hne (by rw [h])), pyOk_bind, pyOk_bind]
        rfl

/-- The tuple of a date, and that its fields are in range. -/
theorem buildStruct_ok {A : Astro} (hE : TehranEvening A) (hO : NewYearOrder (Cal.init A)) {y m d n h mi s us : ℤ}
    (hd : DayNumber (Cal.init A) y m d n) (hy : -1842 ≤ y) (hh : 0 ≤ h ∧ h ≤ 23) (hmi : 0 ≤ mi ∧ mi ≤ 59)
    (hs : 0 ≤ s ∧ s ≤ 60) (hus : 0 ≤ us ∧ us < 1000000) :
    ∃ t, (Cal.init A).buildStruct y m d h mi s = .ok t ∧ TupOk t us ∧ (Cal.init A).checktm t = .ok () ∧
      t = ⟨true, 0, 0, y, m, d, h, mi, s, (n + 1) % 7, n - ysInt y + 1⟩ := by
  obtain ⟨y0, y1, hv, hn⟩ := (dayNumber_iff hE).mp hd
  obtain ⟨-, -, n0, n1⟩ := dayNumber_year hE hd
  have hlen := leapOf_len (y := y) (by omega) y1
  have hl : ysInt (y + 1) ≤ ysInt y + 366 := by split_ifs at hlen <;> omega
  obtain ⟨c, hc, c1, c2, c3, c4⟩ := cycleOf_valid (init_isLeap hE y0 y1) hv
  have hm19 : d ≤ 19 := by rcases hv with ⟨-, -, -, h⟩ | ⟨-, -, h⟩ <;> [exact h; (split_ifs at h <;> omega)]
  refine ⟨⟨true, 0, 0, y, m, d, h, mi, s, (n + 1) % 7, n - ysInt y + 1⟩, ?_, ?_, ?_, rfl⟩
  · unfold Cal.buildStruct
    rw [dayOfWeek_ok hE hO hd, pyOk_bind, daysBeforeMonth_ok (init_isLeap hE y0 y1) hv, pyOk_bind]
    congr 2
    change dBefore (leapOf y) m + d = n - ysInt y + 1
    omega
  · exact ⟨rfl, ⟨hy, y1⟩, ⟨c3, c4⟩, ⟨c1, hm19⟩, hh, hmi, hs, by simp only; omega, by simp only; omega, hus⟩
  · have e1 : minYear = -1842 := rfl
    have e2 : maxYear = 1161 := rfl
    unfold Cal.checktm Tup.fullYear
    simp only [if_true]
    rw [pyAssert_true (by omega), pyOk_bind, pyAssert_true (by simp), pyOk_bind, pyAssert_true (by simp), pyOk_bind,
      pyAssert_true (by simp), pyOk_bind, pyAssert_true (by omega), pyOk_bind, hc, pyOk_bind, pyAssert_true (by omega),
      pyOk_bind, pyAssert_true (by omega), pyOk_bind, pyAssert_true (by omega), pyOk_bind, pyAssert_true (by omega),
      pyOk_bind, pyAssert_true (by omega), pyOk_bind, pyAssert_true (by omega)]

/-- A format for the round trip. The pieces are literals other than the percent sign, and the directives of the year,
month (number, name or short name), day, day of the year, weekday name, hour, minute, second and microsecond, without
modifiers and none of them twice. The year is there, and with it the month and day or the day of the year. No literal
and no `%f` directly follows a literal dash or colon, nor begins a format that ends with a literal dash or colon. -/
structure RoundTripFormat (ts : List Tok) : Prop where
  pieces : ∀ t ∈ ts, t.Readable
  once : (ts.filter (fun t => !t.isLit)).Nodup
  year : Tok.dir 'Y' none ∈ ts
  date : (Tok.dir 'd' none ∈ ts ∧ (Tok.dir 'm' none ∈ ts ∨ Tok.dir 'B' none ∈ ts ∨ Tok.dir 'b' none ∈ ts)) ∨
    Tok.dir 'j' none ∈ ts
  dash : ts.IsChain (fun a b => ¬ (a.isDash = true ∧ b.copied = true))
  ends : ∀ a b, ts.head? = some a → ts.getLast? = some b → ¬ (a.copied = true ∧ b.isDash = true)

/-- A field of the clock is kept when its directive is in the format; otherwise it is read as 0. -/
def keptField (ts : List Tok) (c : Char) (v : ℤ) : ℤ := if Tok.dir c none ∈ ts then v else 0

theorem strftime_toks {A : Astro} {other : Directives} {t : Tup} {us : ℤ} (ht : TupOk t us)
    (hck : (Cal.init A).checktm t = .ok ()) {ts : List Tok} (hF : RoundTripFormat ts) :
    (Cal.init A).strftime other (wrapFormat (padInt 6 us) (tokText ts)) t = .ok (outOf (fieldText t us) ts) := by
  have hus : padInt 6 us = digitsW 6 us.toNat := by
    have := padInt_nat (w := 6) (n := us.toNat) (by norm_num) (by have := ht.us; norm_num; omega)
    rwa [Int.toNat_of_nonneg ht.us.1] at this
  have hne : padInt 6 us ≠ [] := by rw [hus]; simp [digitsW]
  have hdig : ∀ c ∈ padInt 6 us, isDig c = true := by rw [hus]; exact digitsW_isDig _ _
  rw [wrap_toks hF.pieces]
  have hdoc : ∀ x ∈ ts.flatMap (subF (padInt 6 us)), x.Documented := by
    intro x hx
    rw [List.mem_flatMap] at hx
    obtain ⟨z, hz, hx⟩ := hx
    have hr := hF.pieces z hz
    rcases subF_cases (padInt 6 us) z with ⟨rfl, e⟩ | ⟨-, e⟩
    · rw [e, List.mem_map] at hx
      obtain ⟨c, hc, rfl⟩ := hx
      have := hdig c hc
      change c ≠ '%'
      rintro rfl
      revert this; decide
    · rw [e, List.mem_singleton] at hx
      subst hx
      cases x with
      | lit c => exact hr
      | dir c m =>
        obtain ⟨rfl, hc⟩ := hr
        have all : ∀ x ∈ "YmdHMSfjBbAa".toList, x ∈ "aAbBcCdDefGhHIjkKlmMnprSTuUVWxXyYzZ".toList := by decide
        exact all c hc
  have hcopy := C40_copies_partial ((Cal.init A).directives other t) (ts.flatMap (subF (padInt 6 us))) (by
      intro h0
      rw [List.flatMap_eq_nil_iff] at h0
      exact subF_ne hne _ (h0 _ hF.year)) hdoc (subF_chain hdig hF.dash) (by
      intro a b ha hb hab
      obtain ⟨a', ha', h1⟩ := subF_head ha
      obtain ⟨b', hb', h2⟩ := subF_last hne hdig hb
      exact hF.ends a' b' ha' hb' ⟨h1 hab.1, h2 hab.2⟩)
  have hval := values_subF (dir := (Cal.init A).directives other t) (val := fieldText t us) (us := padInt 6 us) (ts := ts)
    rfl (by
      intro c m hcm
      obtain ⟨rfl, hc⟩ : m = none ∧ c ∈ "YmdHMSfjBbAa".toList := hF.pieces _ hcm
      refine ⟨rfl, fun hf => ?_⟩
      have hc' : c = 'Y' ∨ c = 'm' ∨ c = 'd' ∨ c = 'H' ∨ c = 'M' ∨ c = 'S' ∨ c = 'f' ∨ c = 'j' ∨ c = 'B' ∨ c = 'b' ∨ c = 'A' ∨
        c = 'a' := by simpa using hc
      have hfy : t.fullYear = t.year := by unfold Tup.fullYear; rw [ht.short]; rfl
      rcases hc' with rfl | rfl | rfl | rfl | rfl | rfl | rfl | rfl | rfl | rfl | rfl | rfl
      · change Except.ok (signedYear t.fullYear) = _; rw [hfy]; rfl
      all_goals first | rfl | exact absurd rfl hf)
  rw [hval] at hcopy
  unfold strftimeWith at hcopy
  unfold Cal.strftime
  cases hcf : checkFormat (tokText (ts.flatMap (subF (padInt 6 us)))) with
  | error e => rw [hcf] at hcopy; cases hcopy
  | ok u =>
    rw [hcf] at hcopy
    simp only at hcopy ⊢
    rw [hck, pyOk_bind]
    exact hcopy

theorem ampmOf_none {gs : List (Char × Str)} (h : ∀ v, ('p', v) ∉ gs) : ampmOf gs = [] := by
  have : gs.lookup 'p' = none := by
    rw [List.lookup_eq_none_iff]
    rintro ⟨c, v⟩ hc
    simp only [bne_iff_ne, ne_eq]
    rintro rfl
    exact h v hc
  unfold ampmOf
  rw [this]
  rfl

theorem groups_keys {val : Char → Str} {ts : List Tok} {c : Char} {v : Str} (h : (c, v) ∈ groupsOf val ts) :
    ∃ m, Tok.dir c m ∈ ts := by
  induction ts with
  | nil => simp [groupsOf] at h
  | cons t ts ih =>
    cases t with
    | lit x =>
      obtain ⟨m, hm⟩ := ih h
      exact ⟨m, List.mem_cons_of_mem _ hm⟩
    | dir x m =>
      rcases List.mem_cons.mp h with h | h
      · simp only [Prod.mk.injEq] at h
        obtain ⟨rfl, -⟩ := h
        exact ⟨m, List.mem_cons_self⟩
      · obtain ⟨m', hm⟩ := ih h
        exact ⟨m', List.mem_cons_of_mem _ hm⟩

theorem ampmOf_append {gs zs : List (Char × Str)} (h : ∀ v, ('p', v) ∉ gs) : ampmOf (gs ++ zs) = ampmOf zs := by
  unfold ampmOf
  induction gs with
  | nil => rfl
  | cons g gs ih =>
    obtain ⟨c, v⟩ := g
    have hc : ('p' == c) = false := by
      rw [beq_eq_false_iff_ne]
      rintro rfl
      exact h v List.mem_cons_self
    rw [List.cons_append, List.lookup_cons, hc]
    exact ih (fun v hv => h v (List.mem_cons_of_mem _ hv))

/-- The values that are found in the text of a valid datetime, perhaps with groups after it that give an offset and an hour. -/
theorem strptimeFound_more {A : Astro} (hE : TehranEvening A) (hO : NewYearOrder (Cal.init A)) {y m d h mi s us n : ℤ}
    (hd : DayNumber (Cal.init A) y m d n)
    (htok : TupOk ⟨true, 0, 0, y, m, d, h, mi, s, (n + 1) % 7, n - ysInt y + 1⟩ us)
    {ts : List Tok} (hF : RoundTripFormat ts) (hb : Tok.dir 'b' none ∈ ts → m ≠ 15)
    (hj : Tok.dir 'j' none ∈ ts → Convertible (Cal.init A) n) {fresh : ℕ} {zs : List (Char × Str)} {off : Option ℤ}
    {hr : ℤ → ℤ} (hz : ∀ f : Found, f.ampm = ampmOf zs → f.gmtoff = none →
      zs.foldlM setGroup f = .ok { f with gmtoff := off, hour := hr f.hour }) :
    (Cal.init A).strptimeFound
        (groupsOf (fieldText ⟨true, 0, 0, y, m, d, h, mi, s, (n + 1) % 7, n - ysInt y + 1⟩ us) ts ++ zs) fresh =
      (do
        let z ← Found.zone fresh { gmtoff := off }
        (Cal.init A).newDT ⟨.short y m d, hr (keptField ts 'H' h), keptField ts 'M' mi, keptField ts 'S' s, keptField ts 'f' us, z, 0⟩) := by
  obtain ⟨y0, y1, hv, hn⟩ := (dayNumber_iff hE).mp hd
  have hmod : ∀ c m', Tok.dir c m' ∈ ts → m' = none := fun c m' hc => (hF.pieces _ hc).1
  have hmem := fun c => mem_dirsOf hmod c
  unfold Cal.strptimeFound parseFound
  rw [ampmOf_append (by
    intro v hv
    obtain ⟨m', hm⟩ := groups_keys hv
    exact absurd (hF.pieces _ hm).2 (by decide)), List.foldlM_append, parse_groups htok hF.pieces hb, pyOk_bind]
  obtain ⟨f1, f2, f3, f4, f5, f6, f7, f8, f9, f10, f11, f12, f13⟩ := foldl_upd
    (t := ⟨true, 0, 0, y, m, d, h, mi, s, (n + 1) % 7, n - ysInt y + 1⟩) (us := us) (dirsOf ts)
    (fun c hc => by rw [hmem] at hc; exact (hF.pieces _ hc).2) { ampm := ampmOf zs }
  generalize (dirsOf ts).foldl (fieldUpd _ us) { ampm := ampmOf zs } = f' at f1 f2 f3 f4 f5 f6 f7 f8 f9 f10 f11 f12 f13 ⊢
  rw [hz f' f13 f12, pyOk_bind]
  generalize hf : ({ f' with gmtoff := off, hour := hr f'.hour } : Found) = f
  have g1 : f.year = f'.year := by rw [← hf]
  have g2 : f.month = f'.month := by rw [← hf]
  have g3 : f.day = f'.day := by rw [← hf]
  have g4 : f.hour = hr f'.hour := by rw [← hf]
  have g5 : f.minute = f'.minute := by rw [← hf]
  have g6 : f.second = f'.second := by rw [← hf]
  have g7 : f.fraction = f'.fraction := by rw [← hf]
  have g8 : f.julian = f'.julian := by rw [← hf]
  have g9 : f.isoYear = f'.isoYear := by rw [← hf]
  have g10 : f.isoWeek = f'.isoWeek := by rw [← hf]
  have g11 : f.weekOfYear = f'.weekOfYear := by rw [← hf]
  have g12 : Found.zone fresh f = Found.zone fresh { gmtoff := off } := by
    rw [← hf]; rfl
  rw [← g1] at f1
  rw [← g2] at f2
  rw [← g3] at f3
  rw [f4] at g4
  replace f4 := g4
  rw [← g5] at f5
  rw [← g6] at f6
  rw [← g7] at f7
  rw [← g8] at f8
  rw [← g9] at f9
  rw [← g10] at f10
  rw [← g11] at f11
  clear g1 g2 g3 g4 g5 g6 g7 g8 g9 g10 g11 hf
  simp only [hmem] at f1 f2 f3 f4 f5 f6 f7 f8
  rw [if_pos hF.year] at f1
  have hck2 : checkIsoWeek f = .ok () := by
    unfold checkIsoWeek
    rw [f9, f10]
    rfl
  rw [hck2, pyOk_bind]
  have hgy : f.guessYear = y := by unfold Found.guessYear; rw [f1]
  have hfw : (Cal.init A).fromWeeks f = .ok (y, f.month, f.day, f.julian) := by
    unfold Cal.fromWeeks
    rw [f9, f10, f11, hgy]
    cases f.julian <;> cases f.weekday <;> rfl
  rw [hfw, pyOk_bind]
  have hfirst : IsDay (Cal.init A) (.short y 1 1) (ysInt y) :=
    (dayNumber_iff hE).mpr ⟨y0, y1, Or.inl ⟨by omega, by omega, by omega, by omega⟩, by simp [dBefore]⟩
  have hfj : (Cal.init A).fromJulian y f.month f.day f.julian = .ok (y, m, d) := by
    rw [f8]
    unfold Cal.fromJulian
    by_cases hjm : Tok.dir 'j' none ∈ ts
    · rw [if_pos hjm]
      simp only
      rw [newDate_ok hE hfirst, pyOk_bind, toOrdinal_ok hE hO hfirst, pyOk_bind,
        show n - ysInt y + 1 - 1 + ysInt y = n by ring]
      obtain ⟨o, e, ho, hos⟩ := fromOrdinal_ok hE (hj hjm) true
      rw [e, pyOk_bind]
      obtain rfl : o = .short y m d := isDay_unique hE ho (p := .short y m d) hd (by rw [hos]; rfl)
      rfl
    · rw [if_neg hjm]
      simp only
      rcases hF.date with ⟨hdd, hmm⟩ | hjj
      · rw [if_pos hmm] at f2
        rw [if_pos hdd] at f3
        rw [f2, f3, newDate_ok hE (o := .short y m d) hd, pyOk_bind, toOrdinal_ok hE hO (o := .short y m d) hd, pyOk_bind,
          newDate_ok hE hfirst, pyOk_bind, toOrdinal_ok hE hO hfirst, pyOk_bind]
      · exact absurd hjj hjm
  rw [hfj, pyOk_bind]
  have hmw : (Cal.init A).missingWeekday f y m d = .ok () := by
    unfold Cal.missingWeekday
    split_ifs
    · rw [newDate_ok hE (o := .short y m d) hd, pyOk_bind]
      unfold Cal.weekday
      rw [show (Cal.init A).dateShort (.short y m d) = .ok (y, m, d) from rfl, pyOk_bind]
      simp only
      rw [dayOfWeek_ok hE hO hd]
      rfl
    · rfl
  rw [hmw, pyOk_bind, f4, f5, f6, f7, g12]
  rfl

/-- The values that are found in the text of a valid datetime, perhaps with an offset after it. -/
theorem strptimeFound_toks {A : Astro} (hE : TehranEvening A) (hO : NewYearOrder (Cal.init A)) {y m d h mi s us n : ℤ}
    (hd : DayNumber (Cal.init A) y m d n)
    (htok : TupOk ⟨true, 0, 0, y, m, d, h, mi, s, (n + 1) % 7, n - ysInt y + 1⟩ us)
    {ts : List Tok} (hF : RoundTripFormat ts) (hb : Tok.dir 'b' none ∈ ts → m ≠ 15)
    (hj : Tok.dir 'j' none ∈ ts → Convertible (Cal.init A) n) {fresh : ℕ} {zs : List (Char × Str)} {off : Option ℤ}
    (hz : (zs = [] ∧ off = none) ∨ ∃ v o, zs = [('z', v)] ∧ parseOffset v = .ok o ∧ off = some o) :
    (Cal.init A).strptimeFound
        (groupsOf (fieldText ⟨true, 0, 0, y, m, d, h, mi, s, (n + 1) % 7, n - ysInt y + 1⟩ us) ts ++ zs) fresh =
      (do
        let z ← Found.zone fresh { gmtoff := off }
        (Cal.init A).newDT ⟨.short y m d, keptField ts 'H' h, keptField ts 'M' mi, keptField ts 'S' s, keptField ts 'f' us, z, 0⟩) := by
  apply strptimeFound_more hE hO hd htok hF hb hj (hr := fun x => x)
  intro f hp hg
  rcases hz with ⟨rfl, rfl⟩ | ⟨v, o, rfl, ho, rfl⟩
  · cases f
    simp only at hg
    subst hg
    rfl
  · rw [List.foldlM_cons, show setGroup f ('z', v) = (parseOffset v).map (fun n => { f with gmtoff := some n }) from rfl, ho]
    rfl

/-- The clock that a format keeps is valid. -/
theorem kept_valid {y m d h mi s us : ℤ} {z : Option Tz} {ts : List Tok}
    (ht : ValidTime (DT.timetz ⟨.short y m d, h, mi, s, us, z, 0⟩)) :
    ValidTime (DT.timetz ⟨.short y m d, keptField ts 'H' h, keptField ts 'M' mi, keptField ts 'S' s, keptField ts 'f' us, z, 0⟩) := by
  obtain ⟨h0, h1, mi0, mi1, s0, s1, us0, us1, -⟩ := ht
  unfold DT.timetz at h0 h1 mi0 mi1 s0 s1 us0 us1
  simp only at h0 h1 mi0 mi1 s0 s1 us0 us1
  have hk : ∀ c (v b : ℤ), 0 ≤ v → v ≤ b → 0 ≤ keptField ts c v ∧ keptField ts c v ≤ b := by
    intro c v b h0 h1
    unfold keptField
    split_ifs <;> omega
  exact ⟨(hk 'H' h 24 h0 h1).1, (hk 'H' h 24 h0 h1).2, (hk 'M' mi 59 mi0 mi1).1,
      (hk 'M' mi 59 mi0 mi1).2, (hk 'S' s 60 s0 s1).1, (hk 'S' s 60 s0 s1).2, (hk 'f' us 999999 us0 us1).1,
      (hk 'f' us 999999 us0 us1).2, Or.inl rfl⟩

/-- C39: for every valid naive datetime in the short form from MINYEAR on, with an hour of at most 23, and every format
of the class above, `strftime` gives a text that `strptime` reads back to the same date, and to the same clock as far
as the format mentions it. Missing from the full property: the hour 24, the month name `%b` in month 15 and
`%j` on days that cannot be made from their ordinal, and the ISO year, week and weekday; for these it is false. -/
theorem C39_round_trip_partial (A : Astro) (hE : TehranEvening A) (hO : NewYearOrder (Cal.init A)) (other : Directives)
    (y m d h mi s us n : ℤ) (hx : IsDT (Cal.init A) ⟨.short y m d, h, mi, s, us, none, 0⟩ n) (hy : -1842 ≤ y) (hh : h ≤ 23)
    (ts : List Tok) (hF : RoundTripFormat ts) (hb : Tok.dir 'b' none ∈ ts → m ≠ 15)
    (hj : Tok.dir 'j' none ∈ ts → Convertible (Cal.init A) n) :
    ∃ text, (Cal.init A).dtStrftime other y m d h mi s us (tokText ts) = .ok text ∧
      (Cal.init A).strptime text (tokText ts) = some (.ok ⟨.short y m d, keptField ts 'H' h, keptField ts 'M' mi,
        keptField ts 'S' s, keptField ts 'f' us, none, 0⟩) := by
  have hd : DayNumber (Cal.init A) y m d n := hx.day
  obtain ⟨h0, h1, mi0, mi1, s0, s1, us0, us1, -⟩ := hx.time
  unfold DT.timetz at h0 h1 mi0 mi1 s0 s1 us0 us1
  simp only at h0 h1 mi0 mi1 s0 s1 us0 us1
  obtain ⟨y0, y1, hv, hn⟩ := (dayNumber_iff hE).mp hd
  obtain ⟨t, hbuild, htok, hck, rfl⟩ := buildStruct_ok hE hO hd hy ⟨h0, hh⟩ ⟨mi0, mi1⟩ ⟨s0, s1⟩ ⟨us0, by omega⟩
  have hmod : ∀ c m', Tok.dir c m' ∈ ts → m' = none := fun c m' hc => (hF.pieces _ hc).1
  have hmem := fun c => mem_dirsOf hmod c
  refine ⟨outOf (fieldText ⟨true, 0, 0, y, m, d, h, mi, s, (n + 1) % 7, n - ysInt y + 1⟩ us) ts, ?_, ?_⟩
  · unfold Cal.dtStrftime
    rw [hbuild, pyOk_bind]
    exact strftime_toks htok hck hF
  · unfold Cal.strptime
    rw [compile_toks hF.pieces]
    simp only
    have hmatch := (match_toks (ts := ts)
      (val := fieldText ⟨true, 0, 0, y, m, d, h, mi, s, (n + 1) % 7, n - ysInt y + 1⟩ us)
      (fun c hc => by
        obtain ⟨a, b, -⟩ := field_facts htok (hF.pieces _ hc).2 (fun e => hb (by subst e; exact hc))
        exact ⟨a, b⟩) hmod).1
    unfold findRegex
    rw [hmatch]
    simp only [if_true]
    rw [pyOk_bind]
    have hfound := strptimeFound_toks hE hO hd htok hF hb hj (fresh := 2) (zs := []) (off := none) (Or.inl ⟨rfl, rfl⟩)
    rw [List.append_nil] at hfound
    rw [hfound, show Found.zone 2 { gmtoff := none } = .ok none from rfl, pyOk_bind]
    congr 1
    exact newDT_ok hE (n := n) ⟨hd, kept_valid hx.time⟩

/-- `%Y-%m-%d %H:%M:%S.%f` -/
def isoLike : List Tok := [.dir 'Y' none, .lit '-', .dir 'm' none, .lit '-', .dir 'd' none, .lit ' ', .dir 'H' none, .lit ':',
  .dir 'M' none, .lit ':', .dir 'S' none, .lit '.', .dir 'f' none]

/-- The format with all fields, the one with the year and the day of the year, and one with names meet the conditions;
so do the witness datetimes. -/
example : tokText isoLike = "%Y-%m-%d %H:%M:%S.%f".toList ∧ RoundTripFormat isoLike ∧
    RoundTripFormat [.dir 'Y' none, .lit '-', .dir 'j' none] ∧
    RoundTripFormat [.dir 'A' none, .lit ' ', .lit ' ', .dir 'd' none, .dir 'B' none, .dir 'Y' none] ∧
    IsDT (Cal.init newYearSun) ⟨.short 182 0 5, 23, 30, 0, 250000, none, 0⟩ 739675 ∧
    Convertible (Cal.init newYearSun) 739675 := by
  have mk : ∀ ts : List Tok, (∀ t ∈ ts, t.Readable) → (ts.filter (fun t => !t.isLit)).Nodup → Tok.dir 'Y' none ∈ ts →
      ((Tok.dir 'd' none ∈ ts ∧ (Tok.dir 'm' none ∈ ts ∨ Tok.dir 'B' none ∈ ts ∨ Tok.dir 'b' none ∈ ts)) ∨
        Tok.dir 'j' none ∈ ts) → ts.IsChain (fun a b => ¬ (a.isDash = true ∧ b.copied = true)) →
      (∀ a, ts.head? = some a → a.copied = false) → RoundTripFormat ts := by
    intro ts a b c d e f
    refine ⟨a, b, c, d, e, fun x y hx hy hxy => ?_⟩
    rw [f x hx] at hxy
    exact absurd hxy.1 (by decide)
  refine ⟨by decide, mk _ ?_ (by decide) (by decide) (by decide) (by decide) ?_,
    mk _ ?_ (by decide) (by decide) (by decide) (by decide) ?_,
    mk _ ?_ (by decide) (by decide) (by decide) (by decide) ?_, ⟨witness_days.1, ?_⟩,
    convertible_modern newYearSun_tehran (by omega) (by omega)⟩
  · intro t ht
    simp only [isoLike, List.mem_cons, List.not_mem_nil, or_false] at ht
    rcases ht with rfl | rfl | rfl | rfl | rfl | rfl | rfl | rfl | rfl | rfl | rfl | rfl | rfl <;> simp [Tok.Readable]
  · intro a ha; simp [isoLike] at ha; subst ha; decide
  · intro t ht
    simp only [List.mem_cons, List.not_mem_nil, or_false] at ht
    rcases ht with rfl | rfl | rfl <;> simp [Tok.Readable]
  · intro a ha; simp at ha; subst ha; decide
  · intro t ht
    simp only [List.mem_cons, List.not_mem_nil, or_false] at ht
    rcases ht with rfl | rfl | rfl | rfl | rfl | rfl <;> simp [Tok.Readable]
  · intro a ha; simp at ha; subst ha; decide
  · constructor <;> decide

/-! ## Where the round trip fails -/

/-- A format with a modifier, which `strftime` accepts, is refused by `strptime` whatever the text. -/
theorem C39_modifier_negation (C : Cal) (ts : List Tok) (h : ∀ t ∈ ts, t.Readable) (md : Char) (hm : md = '-' ∨ md = ':')
    (rest text : Str) : C.strptime text (tokText ts ++ '%' :: md :: rest) = some (.error .value) := by
  have key : ∀ b, compileFmt b (tokText ts ++ '%' :: md :: rest) = some (.error .value) := by
    induction ts with
    | nil =>
      intro b
      rcases hm with rfl | rfl
      · change compileFmt b ('%' :: '-' :: rest) = _
        rw [compileFmt]
        rfl
      · change compileFmt b ('%' :: ':' :: rest) = _
        rw [compileFmt]
        rfl
    | cons t ts ih =>
      intro b
      have ht := h _ List.mem_cons_self
      have ih := ih (fun x hx => h x (List.mem_cons_of_mem _ hx))
      generalize hr : tokText ts ++ '%' :: md :: rest = r at ih
      cases t with
      | lit c =>
        have hc : c ≠ '%' := ht
        change compileFmt b (c :: (tokText ts ++ '%' :: md :: rest)) = _
        rw [hr]
        have e : compileFmt b (c :: r) = if isSpaceC c then
            if b then compileFmt true r else (compileFmt true r).map (·.map (.space :: ·))
          else (compileFmt false r).map (·.map (.lit c :: ·)) := by
          rw [compileFmt.eq_def]
          split
          · contradiction
          · rename_i heq; simp at heq; exact absurd heq.1 hc
          · rename_i heq; simp at heq; exact absurd heq.1 hc
          · rename_i heq
            simp at heq
            obtain ⟨rfl, rfl⟩ := heq
            rfl
        rw [e, ih, ih]
        split_ifs <;> rfl
      | dir c m =>
        obtain ⟨rfl, hm⟩ := ht
        change compileFmt b ('%' :: c :: (tokText ts ++ '%' :: md :: rest)) = _
        rw [hr]
        have all : ∀ x ∈ "YmdHMSfjBbAa".toList, x ≠ '%' ∧ inSet "cxXZ" x = false ∧ (altsOf x).isNone = false := by
          decide
        obtain ⟨h1, h2, h3⟩ := all c hm
        have e : compileFmt b ('%' :: c :: r) =
            if c = '%' then (compileFmt false r).map (·.map (.lit '%' :: ·))
            else if inSet "cxXZ" c then none
            else if (altsOf c).isNone then some (.error .value)
            else (compileFmt false r).map (·.map (.dir c :: ·)) := by
          rw [compileFmt]
        rw [e, if_neg h1, h2, h3, ih]
        rfl
  unfold Cal.strptime
  rw [key]

/-- "%Y/%m/%-d" -/
example : ∃ ts : List Tok, (∀ t ∈ ts, t.Readable) ∧ "%Y/%m/%-d".toList = tokText ts ++ '%' :: '-' :: ['d'] :=
  ⟨[.dir 'Y' none, .lit '/', .dir 'm' none, .lit '/'], by
    intro t ht
    simp only [List.mem_cons, List.not_mem_nil, or_false] at ht
    rcases ht with rfl | rfl | rfl | rfl <;> simp [Tok.Readable], by decide⟩

/-- The tuple of a valid date and time, for any hour up to 24. -/
theorem buildStruct_24 {A : Astro} (hE : TehranEvening A) (hO : NewYearOrder (Cal.init A)) {y m d n mi s us h : ℤ}
    (hd : DayNumber (Cal.init A) y m d n) (hy : -1842 ≤ y) (hh : 0 ≤ h ∧ h ≤ 24) (hmi : 0 ≤ mi ∧ mi ≤ 59)
    (hs : 0 ≤ s ∧ s ≤ 60) (hus : 0 ≤ us ∧ us < 1000000) :
    (Cal.init A).buildStruct y m d h mi s = .ok ⟨true, 0, 0, y, m, d, h, mi, s, (n + 1) % 7, n - ysInt y + 1⟩ ∧
    TupOk ⟨true, 0, 0, y, m, d, 0, mi, s, (n + 1) % 7, n - ysInt y + 1⟩ us ∧
    (Cal.init A).checktm ⟨true, 0, 0, y, m, d, h, mi, s, (n + 1) % 7, n - ysInt y + 1⟩ = .ok () := by
  obtain ⟨t, hb, hok, -, rfl⟩ := buildStruct_ok hE hO hd hy (h := 0) ⟨by omega, by omega⟩ hmi hs hus
  obtain ⟨y0, y1, hv, hn⟩ := (dayNumber_iff hE).mp hd
  refine ⟨?_, hok, ?_⟩
  · unfold Cal.buildStruct at hb ⊢
    rw [dayOfWeek_ok hE hO hd, pyOk_bind, daysBeforeMonth_ok (init_isLeap hE y0 y1) hv, pyOk_bind] at hb ⊢
    injection hb with hb
    injection hb with _ _ _ _ _ _ _ _ _ _ hb
    rw [hb]
  · obtain ⟨-, ⟨a1, a2⟩, ⟨b1, b2⟩, ⟨c1, c2⟩, -, -, -, ⟨e1, e2⟩, ⟨f1, f2⟩, -⟩ := hok
    simp only at a1 a2 b1 b2 c1 c2 e1 e2 f1 f2
    obtain ⟨c, hc, c1, c2, c3, c4⟩ := cycleOf_valid (init_isLeap hE y0 y1) hv
    have e1 : minYear = -1842 := rfl
    have e2 : maxYear = 1161 := rfl
    unfold Cal.checktm Tup.fullYear
    simp only [if_true]
    rw [pyAssert_true (by omega), pyOk_bind, pyAssert_true (by simp), pyOk_bind, pyAssert_true (by simp), pyOk_bind,
      pyAssert_true (by simp), pyOk_bind, pyAssert_true (by omega), pyOk_bind, hc, pyOk_bind, pyAssert_true (by omega),
      pyOk_bind, pyAssert_true (by omega), pyOk_bind, pyAssert_true (by omega), pyOk_bind, pyAssert_true (by omega),
      pyOk_bind, pyAssert_true (by omega), pyOk_bind, pyAssert_true (by omega)]

/-- `strftime` of a naive short form datetime when the format has no `%f`. -/
theorem dtStrftime_eq {A : Astro} {other : Directives} {y m d h mi s us : ℤ} {t : Tup} {f : Str}
    (hb : (Cal.init A).buildStruct y m d h mi s = .ok t) (hck : (Cal.init A).checktm t = .ok ())
    {ts : List Tok} (hw : wrapFormat (padInt 6 us) f = tokText ts) (hne : ts ≠ []) (hd : ∀ t ∈ ts, t.Documented)
    (hs : ts.IsChain (fun a b => ¬ (a.isDash = true ∧ b.isLit = true)))
    (hf : ∀ a b, ts.head? = some a → ts.getLast? = some b → ¬ (a.isLit = true ∧ b.isDash = true)) :
    (Cal.init A).dtStrftime other y m d h mi s us f = tokValues ((Cal.init A).directives other t) ts := by
  unfold Cal.dtStrftime
  rw [hb, pyOk_bind, hw]
  have := C40_copies_partial ((Cal.init A).directives other t) ts hne hd hs hf
  unfold strftimeWith at this
  unfold Cal.strftime
  cases hcf : checkFormat (tokText ts) with
  | error e => rw [hcf] at this; exact this
  | ok u =>
    rw [hcf] at this
    simp only at this ⊢
    rw [hck, pyOk_bind, this]

/-- `%Y/%m/%d %H` -/
def hourFormat : List Tok := [.dir 'Y' none, .lit '/', .dir 'm' none, .lit '/', .dir 'd' none, .lit ' ', .dir 'H' none]

/-- C39 is false at hour 24, on every day: `strftime` gives a text that `strptime` refuses. -/
theorem C39_hour_24_negation (A : Astro) (hE : TehranEvening A) (hO : NewYearOrder (Cal.init A)) (other : Directives)
    (y m d mi s us n : ℤ) (hx : IsDT (Cal.init A) ⟨.short y m d, 24, mi, s, us, none, 0⟩ n) (hy : -1842 ≤ y) :
    ∃ text, (Cal.init A).dtStrftime other y m d 24 mi s us "%Y/%m/%d %H".toList = .ok text ∧
      (Cal.init A).strptime text "%Y/%m/%d %H".toList = some (.error .value) := by
  have hd : DayNumber (Cal.init A) y m d n := hx.day
  obtain ⟨-, -, mi0, mi1, s0, s1, us0, us1, -⟩ := hx.time
  unfold DT.timetz at mi0 mi1 s0 s1 us0 us1
  simp only at mi0 mi1 s0 s1 us0 us1
  obtain ⟨hb, hok, hck⟩ := buildStruct_24 hE hO hd hy (h := 24) ⟨by omega, by omega⟩ ⟨mi0, mi1⟩ ⟨s0, s1⟩
    ⟨us0, (by omega : us < 1000000)⟩
  have hF : ∀ t ∈ hourFormat, t.Readable := by
    intro t ht
    simp only [hourFormat, List.mem_cons, List.not_mem_nil, or_false] at ht
    rcases ht with rfl | rfl | rfl | rfl | rfl | rfl | rfl <;> simp [Tok.Readable]
  have hfy : Tup.fullYear ⟨true, 0, 0, y, m, d, 24, mi, s, (n + 1) % 7, n - ysInt y + 1⟩ = y := rfl
  refine ⟨signedYear y ++ '/' :: (padInt 2 m ++ '/' :: (padInt 2 d ++ ' ' :: ['2', '4'])), ?_, ?_⟩
  · rw [dtStrftime_eq (us := us) hb hck (ts := hourFormat) rfl (by decide) (by
      intro t ht
      simp only [hourFormat, List.mem_cons, List.not_mem_nil, or_false] at ht
      rcases ht with rfl | rfl | rfl | rfl | rfl | rfl | rfl <;> simp [Tok.Documented]) (by decide) (by
      intro a b ha hb; simp [hourFormat] at ha hb; subst ha hb; decide)]
    have h24 : padInt 2 24 = ['2', '4'] := by decide
    change Except.ok (signedYear (Tup.fullYear _) ++ '/' :: (padInt 2 m ++ '/' :: (padInt 2 d ++ ' ' :: (padInt 2 24 ++ [])))) = _
    rw [h24, hfy]
    rfl
  · have e : "%Y/%m/%d %H".toList = tokText hourFormat := by decide
    rw [e]
    unfold Cal.strptime
    rw [compile_toks hF]
    simp only
    have hlast : (matchAll [.dir 'H'] ['2', '4']).head? = some ([('H', ['2'])], ['4']) := by decide
    have hsp : (matchAll [.space, .dir 'H'] (' ' :: ['2', '4'])).head? = some ([('H', ['2'])], ['4']) :=
      matchAll_space (by decide) (by exact hlast)
    have f1 := field_facts hok (c := 'd') (by decide) (by simp)
    have f2 := field_facts hok (c := 'm') (by decide) (by simp)
    have f3 := field_facts hok (c := 'Y') (by decide) (by simp)
    have m1 := matchAll_dir f1.1 hsp
    have m2 := matchAll_dir f2.1 (matchAll_lit (c := '/') m1)
    have m3 : ∃ g, (matchAll [.dir 'Y', .lit '/', .dir 'm', .lit '/', .dir 'd', .space, .dir 'H']
        (signedYear y ++ '/' :: (padInt 2 m ++ '/' :: (padInt 2 d ++ ' ' :: ['2', '4'])))).head? = some (g, ['4']) :=
      ⟨_, matchAll_dir f3.1 (matchAll_lit (c := '/') m2)⟩
    have hp : piecesOf false hourFormat = [.dir 'Y', .lit '/', .dir 'm', .lit '/', .dir 'd', .space, .dir 'H'] := by decide
    obtain ⟨g, m3⟩ := m3
    unfold findRegex
    rw [hp, m3]
    rfl

example : IsDT (Cal.init newYearSun) ⟨.short 182 0 5, 24, 0, 0, 0, none, 0⟩ 739675 :=
  ⟨witness_days.1, by constructor <;> decide⟩

end Verif
