import Verif.Model.FormatSpec
import Verif.Model.TimeSpec
import Verif.Props.StrpZone

/-!
# Property C117: `format()` of dates, times and datetimes, and the texts of `isoformat` and `str`
-/

namespace Verif

/-- A format of literals other than the percent sign and of the directives `%Y %m %d %H %M %S %f %j %B %b %A %a`. No literal
and no `%f` directly follows a literal dash or colon, nor begins a format that ends with a literal dash or colon. -/
structure PlainFormat (ts : List Tok) : Prop where
  ne : ts ≠ []
  pieces : ∀ t ∈ ts, t.Readable
  dash : ts.IsChain (fun a b => ¬ (a.isDash = true ∧ b.copied = true))
  ends : ∀ a b, ts.head? = some a → ts.getLast? = some b → ¬ (a.copied = true ∧ b.isDash = true)

theorem plain_text_ne {ts : List Tok} (h : PlainFormat ts) (r : Str) : (tokText ts ++ r).length ≠ 0 := by
  cases ts with
  | nil => exact absurd rfl h.ne
  | cons t ts => cases t with
    | lit c => simp [tokText, Tok.text]
    | dir c m => cases m <;> simp [tokText, Tok.text]

/-- The texts of a plain format, with or without `%:z` at its end. -/
theorem plain_loop {dir : Directives} {val : Char → Str} {us : ℤ} (hu : 0 ≤ us ∧ us ≤ 999999) {ts : List Tok} (hF : PlainFormat ts)
    (hf : val 'f' = padInt 6 us) (hv : ∀ c ∈ "YmdHMSfjBbAa".toList, c ≠ 'f' → dir c none = .ok (val c)) {ks : List Tok}
    (hk : ks = [] ∨ ks = [.dir 'z' (some ':')]) {r : Str} (hr : tokValues dir ks = .ok r) :
    checkFormat (wrapFormat (padInt 6 us) (tokText ts ++ tokText ks)) = .ok () ∧
    formatLoop dir (lastChar (wrapFormat (padInt 6 us) (tokText ts ++ tokText ks)))
      (wrapFormat (padInt 6 us) (tokText ts ++ tokText ks)) = .ok (outOf val ts ++ r) := by
  have hus : padInt 6 us = digitsW 6 us.toNat := by
    have := padInt_nat (w := 6) (n := us.toNat) (by norm_num) (by norm_num; omega)
    rwa [Int.toNat_of_nonneg hu.1] at this
  have hne : padInt 6 us ≠ [] := by rw [hus]; simp [digitsW]
  have hdig : ∀ c ∈ padInt 6 us, isDig c = true := by rw [hus]; exact digitsW_isDig _ _
  have hw : wrapFormat (padInt 6 us) (tokText ks) = tokText ks := by
    rcases hk with rfl | rfl
    · rfl
    · simp [tokText, Tok.text, wrapFormat]
  rw [wrap_app hF.pieces, hw]
  rw [show tokText (ts.flatMap (subF (padInt 6 us))) ++ tokText ks = tokText (ts.flatMap (subF (padInt 6 us)) ++ ks) by
    unfold tokText; rw [List.flatMap_append]]
  have hdoc : ∀ x ∈ ts.flatMap (subF (padInt 6 us)), x.Documented := by
    intro x hx
    rw [List.mem_flatMap] at hx
    obtain ⟨z, hz, hx⟩ := hx
    have hr := hF.pieces z hz
    rcases subF_cases (padInt 6 us) z with ⟨rfl, e⟩ | ⟨-, e⟩
    · rw [e, List.mem_map] at hx
      obtain ⟨c, hc, rfl⟩ := hx
      have := hdig c hc
      change c ≠ '%'
      rintro rfl
      revert this; decide
    · rw [e, List.mem_singleton] at hx
      subst hx
      cases x with
      | lit c => exact hr
      | dir c m =>
        obtain ⟨rfl, hc⟩ := hr
        have all : ∀ x ∈ "YmdHMSfjBbAa".toList, x ∈ "aAbBcCdDefGhHIjkKlmMnprSTuUVWxXyYzZ".toList := by decide
        exact all c hc
  have hval : tokValues dir (ts.flatMap (subF (padInt 6 us)) ++ ks) = .ok (outOf val ts ++ r) := by
    apply tokValues_append _ hr
    apply values_subF hf
    intro c m hcm
    obtain ⟨rfl, hc⟩ : m = none ∧ c ∈ "YmdHMSfjBbAa".toList := hF.pieces _ hcm
    exact ⟨rfl, hv c hc⟩
  have hcopy := C40_copies_partial dir (ts.flatMap (subF (padInt 6 us)) ++ ks) (by
      intro h0
      rw [List.append_eq_nil_iff, List.flatMap_eq_nil_iff] at h0
      obtain ⟨t, ht⟩ := List.exists_mem_of_ne_nil _ hF.ne
      exact subF_ne hne _ (h0.1 _ ht)) (by
      intro x hx
      rcases List.mem_append.mp hx with hx | hx
      · exact hdoc x hx
      · rcases hk with rfl | rfl
        · simp at hx
        · rw [List.mem_singleton] at hx; subst hx; simp [Tok.Documented]) (by
      rcases hk with rfl | rfl
      · rw [List.append_nil]; exact subF_chain hdig hF.dash
      · rw [List.isChain_append]
        refine ⟨subF_chain hdig hF.dash, by simp, fun a _ b hb hab => ?_⟩
        obtain rfl : Tok.dir 'z' (some ':') = b := by simpa using hb
        exact absurd hab.2 (by simp [Tok.isLit])) (by
      intro a b ha hb hab
      rcases hk with rfl | rfl
      · rw [List.append_nil] at ha hb
        obtain ⟨a', ha', h1⟩ := subF_head ha
        obtain ⟨b', hb', h2⟩ := subF_last hne hdig hb
        exact hF.ends a' b' ha' hb' ⟨h1 hab.1, h2 hab.2⟩
      · rw [List.getLast?_append_of_ne_nil _ (by simp)] at hb
        obtain rfl : Tok.dir 'z' (some ':') = b := by simpa using hb
        exact absurd hab.2 (by simp [Tok.isDash]))
  rw [hval] at hcopy
  unfold strftimeWith at hcopy
  cases hcf : checkFormat (tokText (ts.flatMap (subF (padInt 6 us)) ++ ks)) with
  | error e => rw [hcf] at hcopy; cases hcopy
  | ok u => rw [hcf] at hcopy; exact ⟨rfl, hcopy⟩

/-- The texts of the directives for a `struct_time`. -/
def structText (s : Struct) (us : ℤ) (c : Char) : Str :=
  match c with
  | 'Y' => signedYear s.tup.fullYear
  | 'm' => padInt 2 s.tup.mon
  | 'd' => padInt 2 s.tup.mday
  | 'H' => padInt 2 s.tup.hour
  | 'M' => padInt 2 s.tup.min
  | 'S' => padInt 2 s.tup.sec
  | 'f' => padInt 6 us
  | 'j' => padInt 3 s.tup.yday
  | 'B' => nameAt monthNames s.tup.mon
  | 'b' => nameAt monthAbbrs s.tup.mon
  | 'A' => nameAt dayNames s.tup.wday
  | _ => nameAt dayAbbrs s.tup.wday

theorem struct_dirs (C : Cal) (L : Locale) (s : Struct) (us : ℤ) :
    ∀ c ∈ "YmdHMSfjBbAa".toList, c ≠ 'f' → C.allDirectives L s c none = .ok (structText s us c) := by
  intro c hc hf
  have all : ∀ x ∈ "YmdHMSfjBbAa".toList, x ≠ 'z' ∧ x ≠ 'Z' := by decide
  unfold Cal.allDirectives
  rw [if_neg (all c hc).1, if_neg (all c hc).2]
  have hc' : c = 'Y' ∨ c = 'm' ∨ c = 'd' ∨ c = 'H' ∨ c = 'M' ∨ c = 'S' ∨ c = 'f' ∨ c = 'j' ∨ c = 'B' ∨ c = 'b' ∨ c = 'A' ∨
    c = 'a' := by simpa using hc
  rcases hc' with rfl | rfl | rfl | rfl | rfl | rfl | rfl | rfl | rfl | rfl | rfl | rfl
  all_goals first | rfl | exact absurd rfl hf

theorem zone_value (C : Cal) (L : Locale) (s : Struct) :
    tokValues (C.allDirectives L s) [.dir 'z' (some ':')] = .ok (dirZ s.gmtoff (some ':')) := by
  simp [tokValues, Tok.value, Cal.allDirectives, bind, Except.bind]

/-- The first day of the era. -/
theorem era_first_day {A : Astro} (hE : TehranEvening A) : DayNumber (Cal.init A) 1 1 1 (ysInt 1) := by
  rw [dayNumber_iff hE]
  have e : dBefore (leapOf 1) 1 = 0 := by decide +kernel
  refine ⟨by norm_num, by norm_num, ?_, by rw [e]; ring⟩
  unfold ValidMD
  omega

/-- `strftime` of a time with a plain format, with or without `%:z`. -/
theorem plain_time_text {A : Astro} (hE : TehranEvening A) (L : Locale) {t : TimeObj} (ht : ValidTime t) (z : Option TzInfo)
    {ts : List Tok} (hF : PlainFormat ts) {ks : List Tok} (hk : ks = [] ∨ ks = [.dir 'z' (some ':')]) {r : Str}
    (hr : r = if ks = [] then [] else dirZ (offsetSeconds z) (some ':')) :
    (Cal.init A).timeFormat L t z (tokText ts ++ tokText ks) =
      .ok (outOf (structText (structOf ⟨.short 1 1 1, t.h, t.mi, t.s, t.us, t.tz, t.fold⟩ z 0 1) t.us) ts ++ r) := by
  obtain ⟨a0, a1, a2, a3, a4, a5, a6, a7, -⟩ := ht
  have hd : IsDay (Cal.init A) (.short 1 1 1) (ysInt 1) := era_first_day hE
  have hx : IsDT (Cal.init A) ⟨.short 1 1 1, t.h, t.mi, t.s, 0, z.map (fun i => i.zone.tz), 0⟩ (ysInt 1) :=
    ⟨hd, ⟨a0, a1, a2, a3, a4, a5, by simp [DT.timetz], by simp [DT.timetz], Or.inl rfl⟩⟩
  have hs : (Cal.init A).structTime (.short 1 1 1) t.h t.mi t.s 0 1 (-1) z =
      .ok (structOf ⟨.short 1 1 1, t.h, t.mi, t.s, t.us, t.tz, t.fold⟩ z 0 1) := by
    unfold Cal.structTime
    rw [if_neg (by simp), newDT_ok hE hx, pyOk_bind]
    rfl
  have hc : (Cal.init A).checktm (tupOf (.short 1 1 1) t.h t.mi t.s 0 1) = .ok () :=
    checktm_tupOf hE hd (show (-1842 : ℤ) ≤ 1 by norm_num) ⟨a0, a1⟩ ⟨a2, a3⟩ ⟨a4, by omega⟩ ⟨by omega, by omega⟩ ⟨by omega, by omega⟩
  have hv : tokValues ((Cal.init A).allDirectives L (structOf ⟨.short 1 1 1, t.h, t.mi, t.s, t.us, t.tz, t.fold⟩ z 0 1)) ks =
      .ok r := by
    rcases hk with rfl | rfl
    · rw [hr]; rfl
    · rw [hr, zone_value]; rfl
  obtain ⟨h1, h2⟩ := plain_loop ⟨a6, a7⟩ hF rfl (struct_dirs (Cal.init A) L _ t.us) hk hv
  unfold Cal.timeFormat
  rw [if_pos (plain_text_ne hF _)]
  unfold Cal.timeStrftime
  simp only
  rw [h1]
  simp only
  rw [hc, pyOk_bind, hs, pyOk_bind]
  exact h2

/-- What a format shows of a time: the fields of the clock, and the first day of the first month of the first year. The weekday
is always the first. -/
def timeFieldText (t : TimeObj) (c : Char) : Str :=
  match c with
  | 'H' => padInt 2 t.h
  | 'M' => padInt 2 t.mi
  | 'S' => padInt 2 t.s
  | 'f' => padInt 6 t.us
  | 'Y' => "0001".toList
  | 'm' => "01".toList
  | 'd' => "01".toList
  | 'j' => "001".toList
  | 'B' => "Bahá".toList
  | 'b' => "Bah".toList
  | 'A' => "Jalál".toList
  | _ => "Jal".toList

theorem padInt_small (w : ℕ) (n : ℤ) (k : ℕ) (hn : n = k) (hw : 0 < w) (h : k < 10 ^ w) : padInt w n = digitsW w k := by
  rw [hn, padInt_nat hw h]

theorem time_field (t : TimeObj) (z : Option TzInfo) :
    structText (structOf ⟨.short 1 1 1, t.h, t.mi, t.s, t.us, t.tz, t.fold⟩ z 0 1) t.us = timeFieldText t := by
  funext c
  have p4 : signedYear 1 = "0001".toList := by
    unfold signedYear
    rw [if_neg (by norm_num), show (1 : ℤ).natAbs = 1 from rfl, padNat_eq (by norm_num) (by norm_num)]; decide
  have p2 : padInt 2 1 = "01".toList := by rw [padInt_small 2 1 1 rfl (by norm_num) (by norm_num)]; decide
  have p3 : padInt 3 1 = "001".toList := by rw [padInt_small 3 1 1 rfl (by norm_num) (by norm_num)]; decide
  unfold structText timeFieldText structOf tupOf Tup.fullYear
  simp only [if_true]
  split <;> first | exact p4 | exact p2 | exact p3 | rfl | (simp; decide)

/-- C117: `format(t, f)` of a time with a plain format is the format with every directive replaced: the clock is that of the
time and the date is the first of the first month of year 1. -/
theorem C117_time (A : Astro) (hE : TehranEvening A) (L : Locale) (t : TimeObj) (z : Option TzInfo) (ht : ValidTime t)
    (ts : List Tok) (hF : PlainFormat ts) :
    (Cal.init A).timeFormat L t z (tokText ts) = .ok (outOf (timeFieldText t) ts) := by
  have := plain_time_text hE L ht z hF (ks := []) (Or.inl rfl) (r := []) rfl
  rw [time_field, List.append_nil] at this
  simpa [tokText] using this

/-- `%H:%M:%S`, with `.%f` after it or not. -/
def hmsToks (f : Bool) : List Tok :=
  [.dir 'H' none, .lit ':', .dir 'M' none, .lit ':', .dir 'S' none] ++ if f then [.lit '.', .dir 'f' none] else []

theorem hmsToks_plain (f : Bool) : PlainFormat (hmsToks f) := by
  cases f
  · exact ⟨by simp [hmsToks], by simp [hmsToks, Tok.Readable], by decide, by
      intro a b ha hb; simp [hmsToks] at ha; subst ha; simp [Tok.copied, Tok.isLit]⟩
  · exact ⟨by simp [hmsToks], by simp [hmsToks, Tok.Readable], by decide, by
      intro a b ha hb; simp [hmsToks] at ha; subst ha; simp [Tok.copied, Tok.isLit]⟩

/-- `%Y-%m-%d`. -/
def ymdToks : List Tok := [.dir 'Y' none, .lit '-', .dir 'm' none, .lit '-', .dir 'd' none]

theorem ymdToks_plain : PlainFormat ymdToks :=
  ⟨by simp [ymdToks], by simp [ymdToks, Tok.Readable], by decide, by
    intro a b ha hb; simp [ymdToks] at ha; subst ha; simp [Tok.copied, Tok.isLit]⟩

theorem dtToks_plain (f : Bool) : PlainFormat (ymdToks ++ .lit 'T' :: hmsToks f) := by
  cases f
  · exact ⟨by simp [ymdToks], by simp [ymdToks, hmsToks, Tok.Readable], by decide, by
      intro a b ha hb; simp [ymdToks] at ha; subst ha; simp [Tok.copied, Tok.isLit]⟩
  · exact ⟨by simp [ymdToks], by simp [ymdToks, hmsToks, Tok.Readable], by decide, by
      intro a b ha hb; simp [ymdToks] at ha; subst ha; simp [Tok.copied, Tok.isLit]⟩

theorem clock_out (val : Char → Str) (f : Bool) : outOf val (hmsToks f) =
    val 'H' ++ ':' :: val 'M' ++ ':' :: val 'S' ++ (if f then '.' :: val 'f' else []) := by
  cases f <;> simp [hmsToks, outOf]

theorem dt_out (val : Char → Str) (f : Bool) : outOf val (ymdToks ++ .lit 'T' :: hmsToks f) =
    val 'Y' ++ '-' :: val 'm' ++ '-' :: val 'd' ++ 'T' :: (val 'H' ++ ':' :: val 'M' ++ ':' :: val 'S' ++
      (if f then '.' :: val 'f' else [])) := by
  cases f <;> simp [hmsToks, ymdToks, outOf]

/-- C117: for a time without a zone, `%H:%M:%S` is `isoformat(timespec='seconds')` and with `.%f` it is
`isoformat(timespec='microseconds')`; the empty format, which is `str`, is the first for a whole second and the second
otherwise. -/
theorem C117_time_iso (A : Astro) (hE : TehranEvening A) (L : Locale) (t : TimeObj) (ht : ValidTime t) (hz : t.tz = none) :
    (Cal.init A).timeFormat L t none "%H:%M:%S".toList = timeIsoSpec t "seconds".toList ∧
    (Cal.init A).timeFormat L t none "%H:%M:%S.%f".toList = timeIsoSpec t "microseconds".toList ∧
    (Cal.init A).timeFormat L t none [] =
      (Cal.init A).timeFormat L t none (if t.us = 0 then "%H:%M:%S".toList else "%H:%M:%S.%f".toList) := by
  have e1 := C117_time A hE L t none ht _ (hmsToks_plain false)
  have e2 := C117_time A hE L t none ht _ (hmsToks_plain true)
  rw [show tokText (hmsToks false) = "%H:%M:%S".toList by decide, clock_out] at e1
  rw [show tokText (hmsToks true) = "%H:%M:%S.%f".toList by decide, clock_out] at e2
  refine ⟨?_, ?_, ?_⟩
  · rw [e1]
    unfold timeIsoSpec formatTimeSpec
    rw [hz]
    simp [timeFieldText, utcOffset, formatOffset, bind, Except.bind]
  · rw [e2]
    unfold timeIsoSpec formatTimeSpec
    rw [hz]
    simp [timeFieldText, utcOffset, formatOffset, bind, Except.bind]
  · have : (Cal.init A).timeFormat L t none [] = timeIso t := by unfold Cal.timeFormat; simp
    rw [this]
    unfold timeIso formatTime
    rw [hz]
    by_cases hu : t.us = 0
    · rw [if_pos hu, e1]
      simp [timeFieldText, utcOffset, formatOffset, hu, bind, Except.bind]
    · rw [if_neg hu, e2]
      simp [timeFieldText, utcOffset, formatOffset, hu, bind, Except.bind]

theorem hours_text {h : ℤ} (h1 : |h| ≤ 23) : hundredths (4 * h) true = formatOffset (some (3600000000 * h)) := by
  have q0 : |h| = ((h.natAbs : ℕ) : ℤ) := Int.abs_eq_natAbs h
  have q1 : |4 * h| = 4 * |h| := by rw [abs_mul]; norm_num
  have s0 : padInt 2 0 = "00".toList := by decide
  unfold hundredths
  rw [q1, show 4 * |h| / 4 = |h| by omega, show 4 * |h| % 4 = 0 by omega,
    formatOffset_min (by omega) (by rcases abs_cases h with a | a <;> omega) (by rcases abs_cases h with a | a <;> omega)]
  unfold offText
  have e1 : (3600000000 * h).natAbs / 3600000000 = h.natAbs := by omega
  have e2 : (3600000000 * h).natAbs % 3600000000 / 60000000 = 0 := by omega
  rw [e1, e2, q0, padInt_nat (by norm_num) (by norm_num; omega)]
  have s1 : digitsW 2 0 = "00".toList := by decide
  by_cases hn : h < 0
  · simp [show 4 * h < 0 by omega, show 3600000000 * h < 0 by omega, s0, s1]
  · simp [show ¬ 4 * h < 0 by omega, show ¬ 3600000000 * h < 0 by omega, s0, s1]

theorem quarters_text {q : ℤ} (h0 : q % 4 ≠ 0) (h1 : |q| ≤ 95) : hundredths q true ≠ formatOffset (some (900000000 * q)) := by
  rw [formatOffset_min (by omega) (by rcases abs_cases q with a | a <;> omega) (by rcases abs_cases q with a | a <;> omega)]
  unfold hundredths offText
  have q0 : |q| = ((q.natAbs : ℕ) : ℤ) := Int.abs_eq_natAbs q
  have e1 : (900000000 * q).natAbs / 3600000000 = q.natAbs / 4 := by omega
  have e2 : (900000000 * q).natAbs % 3600000000 / 60000000 = 15 * (q.natAbs % 4) := by omega
  rw [e1, e2, show |q| / 4 = ((q.natAbs / 4 : ℕ) : ℤ) by omega, show 25 * (|q| % 4) = ((25 * (q.natAbs % 4) : ℕ) : ℤ) by omega,
    padInt_nat (by norm_num) (by norm_num; omega), padInt_nat (by norm_num) (by norm_num; omega)]
  intro h
  have hs : q.natAbs % 4 ≠ 0 := by omega
  have h3 : q.natAbs % 4 < 4 := by omega
  simp only [if_true, List.cons_append, List.cons.injEq, List.append_assoc, List.nil_append] at h
  have h := List.append_cancel_left h.2
  simp only [List.cons.injEq, true_and] at h
  generalize q.natAbs % 4 = r at h hs h3
  interval_cases r
  · exact hs rfl
  all_goals revert h; decide

theorem dirZ_of {i : TzInfo} {q : ℤ} (hz : i.zone.off = 900000000 * q) (h0 : q ≠ 0) (h1 : |q| ≤ 95) :
    dirZ (offsetSeconds (some i)) (some ':') = hundredths q true := by
  rw [offsetSeconds_quarters hz h0 h1]
  have := dirZ_quarters h0 h1 true
  simpa using this

theorem valid_utcOffset {i : TzInfo} {tz : Option Tz} {q : ℤ} (ht : tz = some i.zone.tz) (hz : i.zone.off = 900000000 * q)
    (h1 : |q| ≤ 95) : utcOffset tz = .ok (some (900000000 * q)) := by
  subst ht
  have e : i.zone.tz.off = i.zone.off := rfl
  unfold utcOffset checkOffset
  simp only [e, hz]
  have a : -usPerDay < 900000000 * q ∧ 900000000 * q < usPerDay := by
    have u : usPerDay = 86400000000 := rfl
    rcases abs_cases q with a | a <;> omega
  simp [a, bind, Except.bind]

/-- `%H:%M:%S` with `.%f` when there are microseconds. -/
def clockFmt (us : ℤ) : Str := if us = 0 then "%H:%M:%S".toList else "%H:%M:%S.%f".toList

theorem time_zone_text {A : Astro} (hE : TehranEvening A) (L : Locale) {t : TimeObj} (z : Option TzInfo) (ht : ValidTime t) :
    (Cal.init A).timeFormat L t z (clockFmt t.us ++ "%:z".toList) =
      .ok (formatTime t.h t.mi t.s t.us ++ dirZ (offsetSeconds z) (some ':')) := by
  have e := fun f => plain_time_text hE L ht z (hmsToks_plain f) (ks := [.dir 'z' (some ':')]) (Or.inr rfl) rfl
  have k : tokText [.dir 'z' (some ':')] = "%:z".toList := by decide
  unfold clockFmt formatTime
  by_cases hu : t.us = 0
  · have := e false
    rw [time_field, clock_out, k, show tokText (hmsToks false) = "%H:%M:%S".toList by decide] at this
    rw [if_pos hu, this]
    simp [timeFieldText, hu]
  · have := e true
    rw [time_field, clock_out, k, show tokText (hmsToks true) = "%H:%M:%S.%f".toList by decide] at this
    rw [if_neg hu, this]
    simp [timeFieldText, hu]

/-- C117: for a time in a zone a whole number of hours from UTC, `isoformat` and the empty format are the clock followed by
`%:z`. Missing from the full property: the other zones, for which it is false (below) at the quarters of an hour and at
zero. -/
theorem C117_time_zone_partial (A : Astro) (hE : TehranEvening A) (L : Locale) (t : TimeObj) (i : TzInfo) (h : ℤ)
    (ht : ValidTime t) (hi : t.tz = some i.zone.tz) (hz : i.zone.off = 3600000000 * h) (h0 : h ≠ 0) (h1 : |h| ≤ 23) :
    (Cal.init A).timeFormat L t (some i) (clockFmt t.us ++ "%:z".toList) = timeIso t ∧
    (Cal.init A).timeFormat L t (some i) [] = timeIso t := by
  refine ⟨?_, by unfold Cal.timeFormat; simp⟩
  have q1 : |4 * h| = 4 * |h| := by rw [abs_mul]; norm_num
  rw [time_zone_text hE L _ ht, dirZ_of (q := 4 * h) (by omega) (by omega) (by omega), hours_text h1]
  unfold timeIso
  rw [valid_utcOffset (q := 4 * h) hi (by omega) (by omega), pyOk_bind, show 900000000 * (4 * h) = 3600000000 * h by ring]

/-- C117: with a quarter, a half or three quarters of an hour in the offset, and with a zero offset, the clock followed by
`%:z` is not `isoformat`. -/
theorem C117_time_zone_negation (A : Astro) (hE : TehranEvening A) (L : Locale) (t : TimeObj) (i : TzInfo) (q : ℤ)
    (ht : ValidTime t) (hi : t.tz = some i.zone.tz) (hz : i.zone.off = 900000000 * q) (h0 : q % 4 ≠ 0 ∨ q = 0) (h1 : |q| ≤ 95) :
    ∃ a b, (Cal.init A).timeFormat L t (some i) (clockFmt t.us ++ "%:z".toList) = .ok a ∧ timeIso t = .ok b ∧ a ≠ b := by
  refine ⟨_, _, time_zone_text hE L _ ht, by unfold timeIso; rw [valid_utcOffset hi hz h1, pyOk_bind], ?_⟩
  intro e
  have e := List.append_cancel_left e
  rcases h0 with h0 | rfl
  · rw [dirZ_of hz (by omega) h1] at e
    exact quarters_text h0 h1 e
  · have : offsetSeconds (some i) = none := by unfold offsetSeconds; simp [hz]
    rw [this] at e
    simp [dirZ, formatOffset] at e

/-- 23:30:00.25 without a zone, five hours, five and a half hours, and nothing east of UTC. -/
example : ValidTime ⟨23, 30, 0, 250000, none, 0⟩ ∧ (⟨1, 18000000000, none⟩ : Zone).off = 3600000000 * 5 ∧
    (⟨1, 19800000000, none⟩ : Zone).off = 900000000 * 22 ∧ (22 : ℤ) % 4 ≠ 0 ∧ |(22 : ℤ)| ≤ 95 ∧
    PlainFormat [.dir 'A' none, .lit ' ', .dir 'H' none, .lit '-', .dir 'M' none] := by
  refine ⟨?_, by norm_num, by norm_num, by norm_num, by norm_num [abs_of_pos], ?_⟩
  · constructor <;> simp
  · exact ⟨by simp, by simp [Tok.Readable], by decide, by
      intro a b ha hb; simp at ha; subst ha; simp [Tok.copied, Tok.isLit]⟩

/-- The text of a datetime with a plain format. -/
theorem plain_dt_text {A : Astro} (hE : TehranEvening A) (hO : NewYearOrder (Cal.init A)) (L : Locale) {x : DT} {n : ℤ}
    (hx : IsDT (Cal.init A) x n) (hc : x.d.isShort = true ∨ OrdinaryClock x) (hy : YearShown x.d) (z : Option TzInfo)
    {ts : List Tok} (hF : PlainFormat ts) {ks : List Tok} (hk : ks = [] ∨ ks = [.dir 'z' (some ':')]) {r : Str}
    (hr : r = if ks = [] then [] else dirZ (offsetSeconds z) (some ':')) :
    ∃ yd, (Cal.init A).datetimeStrftime L x z (tokText ts ++ tokText ks) =
      .ok (outOf (structText (structOf x z ((n + 1) % 7) yd) x.us) ts ++ r) := by
  obtain ⟨w, yd, -, rfl, e1, e2⟩ := dtTimetuple_ok hE hO hx hc hy z
  refine ⟨yd, ?_⟩
  have hu : 0 ≤ x.us := hx.2.us0
  have hu' : x.us ≤ 999999 := hx.2.us1
  have hv : tokValues ((Cal.init A).allDirectives L (structOf x z ((n + 1) % 7) yd)) ks = .ok r := by
    rcases hk with rfl | rfl
    · rw [hr]; rfl
    · rw [hr, zone_value]; rfl
  obtain ⟨h1, h2⟩ := plain_loop ⟨hu, hu'⟩ hF rfl (struct_dirs (Cal.init A) L _ x.us) hk hv
  unfold Cal.datetimeStrftime
  rw [e1, pyOk_bind]
  unfold Cal.strftimeStruct
  rw [h1]
  simp only
  rw [e2, pyOk_bind]
  exact h2

/-- The text of a date with a plain format. -/
theorem plain_date_text {A : Astro} (hE : TehranEvening A) (hO : NewYearOrder (Cal.init A)) (L : Locale) {d : DateObj} {n : ℤ}
    (hd : IsDay (Cal.init A) d n) (hy : YearShown d) {ts : List Tok} (hF : PlainFormat ts) :
    ∃ yd, (Cal.init A).dateFormat L d (tokText ts) =
      .ok (outOf (structText (structOf ⟨d, 0, 0, 0, 0, none, 0⟩ none ((n + 1) % 7) yd) 0) ts) := by
  have hx : IsDT (Cal.init A) ⟨d, 0, 0, 0, 0, none, 0⟩ n :=
    ⟨hd, by constructor <;> simp [DT.timetz]⟩
  obtain ⟨yd, e⟩ := plain_dt_text hE hO L hx (Or.inr (by unfold OrdinaryClock; simp)) hy none hF (ks := []) (Or.inl rfl) (r := []) rfl
  refine ⟨yd, ?_⟩
  have p := plain_text_ne hF []
  rw [List.append_nil] at p
  unfold Cal.dateFormat
  rw [if_pos p]
  rw [List.append_nil] at e
  rw [← e]
  simp only [tokText, List.flatMap_nil, List.append_nil]
  rfl

/-- C117: `%A` of a time is the first weekday of the week, though the date whose year, month and day it shows, the first of
the first month of year 1, is another weekday. -/
theorem C117_weekday_negation (A : Astro) (hE : TehranEvening A) (hO : NewYearOrder (Cal.init A)) (L : Locale) (t : TimeObj)
    (z : Option TzInfo) (ht : ValidTime t) :
    (Cal.init A).timeFormat L t z "%Y-%m-%d %A".toList = .ok "0001-01-01 Jalál".toList ∧
    (Cal.init A).dateFormat L (.short 1 1 1) "%Y-%m-%d %A".toList = .ok "0001-01-01 Fiḍāl".toList := by
  have hF : PlainFormat (ymdToks ++ [.lit ' ', .dir 'A' none]) :=
    ⟨by simp [ymdToks], by simp [ymdToks, Tok.Readable], by decide, by
      intro a b ha hb; simp [ymdToks] at ha; subst ha; simp [Tok.copied, Tok.isLit]⟩
  have k : tokText (ymdToks ++ [.lit ' ', .dir 'A' none]) = "%Y-%m-%d %A".toList := by decide
  have e1 := C117_time A hE L t z ht _ hF
  obtain ⟨yd, e2⟩ := plain_date_text hE hO L (d := .short 1 1 1) (era_first_day hE) (show (-1842 : ℤ) ≤ 1 by norm_num) hF
  rw [k] at e1 e2
  refine ⟨by rw [e1]; simp [ymdToks, outOf, timeFieldText], ?_⟩
  rw [e2]
  have w : (ysInt 1 + 1) % 7 = 3 := by decide +kernel
  have p4 : signedYear 1 = "0001".toList := by
    unfold signedYear
    rw [if_neg (by norm_num), show (1 : ℤ).natAbs = 1 from rfl, padNat_eq (by norm_num) (by norm_num)]; decide
  have p2 : padInt 2 1 = "01".toList := by rw [padInt_small 2 1 1 rfl (by norm_num) (by norm_num)]; decide
  have p3 : nameAt dayNames 3 = "Fiḍāl".toList := by decide
  simp [ymdToks, outOf, structText, structOf, tupOf, Tup.fullYear, w, p4, p2, p3]

/-- C117: for years from 0 on and before -999, `%Y-%m-%d` of a date in either form is `isoformat`, and for the short form it
is `str`, the empty format. Missing from the full property: the years -999 to -1, for which it is false (below). -/
theorem C117_date_partial (A : Astro) (hE : TehranEvening A) (hO : NewYearOrder (Cal.init A)) (L : Locale) (d : DateObj) (n : ℤ)
    (hd : IsDay (Cal.init A) d n) (hy : -1842 ≤ d.fullYear) (hs : 0 ≤ d.fullYear ∨ d.fullYear ≤ -1000) :
    (Cal.init A).dateFormat L d "%Y-%m-%d".toList = (Cal.init A).dateIso d ∧
    (d.isShort = true → (Cal.init A).dateFormat L d [] = (Cal.init A).dateFormat L d "%Y-%m-%d".toList) := by
  have hy' : YearShown d := by
    cases d with
    | long k v y m d => trivial
    | short y m d => exact hy
  obtain ⟨yd, e⟩ := plain_date_text hE hO L hd hy' ymdToks_plain
  rw [show tokText ymdToks = "%Y-%m-%d".toList by decide] at e
  obtain ⟨y, m, dd, hn, f1, f2, f3⟩ := fullYear_ok (h := 0) (mi := 0) (s := 0) (w := (n + 1) % 7) (yd := yd) hd
  obtain ⟨y', m', d', hn', es⟩ := dateShort_ok hE hd
  obtain ⟨rfl, rfl, rfl⟩ := dayNumber_unique hE hn hn'
  have fy : d.fullYear = y := by
    rw [← f1]
    cases d with
    | short y m d => rfl
    | long k v y m d =>
      change _ = longYear k v y
      unfold DateObj.fullYear longYear
      ring
  have sp : padInt 4 y = signedYear y := signed_pad.mpr (by rw [← fy]; omega)
  have main : (Cal.init A).dateFormat L d "%Y-%m-%d".toList = (Cal.init A).dateIso d := by
    rw [e]
    unfold Cal.dateIso
    rw [es, pyOk_bind]
    simp only
    unfold formatDate
    simp only [ymdToks, outOf, structText, structOf, f1, f2, f3, sp]
    simp
  refine ⟨main, fun h => ?_⟩
  rw [main]
  unfold Cal.dateFormat
  cases d with
  | long k v y m d => cases h
  | short y m d => simp [Cal.dateStr]

/-- C117: for the years -999 to -1 in the short form, `str` and `isoformat` write one digit less of the year than `%Y-%m-%d`. -/
theorem C117_year_negation (A : Astro) (hE : TehranEvening A) (hO : NewYearOrder (Cal.init A)) (L : Locale) (y m d n : ℤ)
    (hd : DayNumber (Cal.init A) y m d n) (h0 : -999 ≤ y) (h1 : y ≤ -1) :
    ∃ a b, (Cal.init A).dateFormat L (.short y m d) "%Y-%m-%d".toList = .ok a ∧ (Cal.init A).dateIso (.short y m d) = .ok b ∧
      (Cal.init A).dateFormat L (.short y m d) [] = .ok b ∧ a.length = b.length + 1 := by
  obtain ⟨yd, e⟩ := plain_date_text hE hO L (d := .short y m d) hd (show (-1842 : ℤ) ≤ y by omega) ymdToks_plain
  rw [show tokText ymdToks = "%Y-%m-%d".toList by decide] at e
  refine ⟨_, formatDate y m d, e, rfl, by unfold Cal.dateFormat; simp [Cal.dateStr]; rfl, ?_⟩
  have k : signedYear y = '-' :: digitsW 4 y.natAbs := by
    unfold signedYear
    rw [if_pos (by omega), padNat_eq (by norm_num) (by norm_num; omega)]
    rfl
  have k' : padInt 4 y = '-' :: digitsW 3 y.natAbs := by
    unfold padInt
    rw [if_pos (by omega), padNat_eq (by norm_num) (by norm_num; omega)]
  have f1 : (tupOf (.short y m d) 0 0 0 ((n + 1) % 7) yd).fullYear = y := rfl
  have f2 : (tupOf (.short y m d) 0 0 0 ((n + 1) % 7) yd).mon = m := rfl
  have f3 : (tupOf (.short y m d) 0 0 0 ((n + 1) % 7) yd).mday = d := rfl
  unfold formatDate
  simp only [ymdToks, outOf, structText, structOf, f1, f2, f3, k, k']
  simp [digitsW_length]
  omega

/-- C117: for a datetime in the short form without a zone, and in a zone a whole number of hours from UTC with `%:z` after it,
the empty format, `str` and `isoformat` are `%Y-%m-%dT` followed by the clock. Missing from the full property: the long form,
whose `str` shows the cycles; the years -999 to -1 and the other zones, for which it is false as for dates and times. -/
theorem C117_datetime_partial (A : Astro) (hE : TehranEvening A) (hO : NewYearOrder (Cal.init A)) (L : Locale) (x : DT) (n : ℤ)
    (z : Option TzInfo) (hx : IsDT (Cal.init A) x n) (hf : x.d.isShort = true) (hy : -1842 ≤ x.d.fullYear)
    (hs : 0 ≤ x.d.fullYear ∨ x.d.fullYear ≤ -1000) (hz : x.tz = z.map (fun i => i.zone.tz))
    (hq : ∀ i, z = some i → ∃ h, i.zone.off = 3600000000 * h ∧ h ≠ 0 ∧ |h| ≤ 23) :
    (Cal.init A).dtFormat L x z ("%Y-%m-%dT".toList ++ (clockFmt x.us ++ if z = none then [] else "%:z".toList)) = dtIso x 'T' ∧
    (Cal.init A).dtFormat L x z [] = dtIso x 'T' := by
  obtain ⟨xd, xh, xmi, xs, xus, xtz, xfold⟩ := x
  cases xd with
  | long k v y m d => cases hf
  | short y m d =>
  simp only at hz
  have hs : 0 ≤ y ∨ y ≤ -1000 := hs
  refine ⟨?_, by unfold Cal.dtFormat dtStr; simp⟩
  have sp : padInt 4 y = signedYear y := signed_pad.mpr (by omega)
  have e := fun f => plain_dt_text hE hO L hx (Or.inl rfl) hy z (dtToks_plain f) (ks := if z = none then [] else [.dir 'z' (some ':')])
    (by split_ifs <;> simp) rfl
  have k : tokText (if z = none then [] else [.dir 'z' (some ':')]) = (if z = none then [] else "%:z".toList) := by
    split_ifs <;> decide
  have off : ∃ o, utcOffset xtz = .ok o ∧ formatOffset o =
      (if (if z = none then [] else [Tok.dir 'z' (some ':')]) = [] then [] else dirZ (offsetSeconds z) (some ':')) := by
    cases z with
    | none => subst hz; exact ⟨none, rfl, rfl⟩
    | some i =>
      obtain ⟨h, a1, a2, a3⟩ := hq i rfl
      have q1 : |4 * h| = 4 * |h| := by rw [abs_mul]; norm_num
      refine ⟨_, valid_utcOffset (q := 4 * h) hz (by omega) (by omega), ?_⟩
      rw [dirZ_of (q := 4 * h) (by omega) (by omega) (by omega), hours_text a3]
      simp [show 900000000 * (4 * h) = 3600000000 * h by ring]
  obtain ⟨o, o1, o2⟩ := off
  have iso : dtIso ⟨.short y m d, xh, xmi, xs, xus, xtz, xfold⟩ 'T' =
      .ok (formatDate y m d ++ 'T' :: formatTime xh xmi xs xus ++ formatOffset o) := by
    unfold dtIso
    simp only
    rw [o1, pyOk_bind]
    rfl
  rw [iso, o2]
  have pl : ∀ r, ("%Y-%m-%dT".toList ++ r).length ≠ 0 := by intro r; simp
  unfold Cal.dtFormat
  rw [if_pos (pl _)]
  simp only
  unfold clockFmt formatTime formatDate
  by_cases hu : xus = 0
  · obtain ⟨yd, e⟩ := e false
    rw [dt_out, k, show tokText (ymdToks ++ .lit 'T' :: hmsToks false) = "%Y-%m-%dT".toList ++ "%H:%M:%S".toList by decide,
      List.append_assoc] at e
    rw [if_pos hu, e, if_neg (not_not.mpr hu)]
    simp [structText, structOf, tupOf, Tup.fullYear, sp]
  · obtain ⟨yd, e⟩ := e true
    rw [dt_out, k, show tokText (ymdToks ++ .lit 'T' :: hmsToks true) = "%Y-%m-%dT".toList ++ "%H:%M:%S.%f".toList by decide,
      List.append_assoc] at e
    rw [if_neg hu, e, if_pos hu]
    simp [structText, structOf, tupOf, Tup.fullYear, sp]

/-- The evening of the last day of Ayyám-i-Há without a zone and five hours east; the first day of year -150; the calendar of
the witnesses. -/
example : TehranEvening newYearSun ∧ NewYearOrder (Cal.init newYearSun) ∧
    IsDT (Cal.init newYearSun) (witnessDT none 0) 739675 ∧ (witnessDT none 0).d.isShort = true ∧
    (witnessDT none 0).d.fullYear = 182 ∧ IsDay (Cal.init newYearSun) (witnessDT none 0).d 739675 ∧
    (∃ n, DayNumber (Cal.init newYearSun) (-150) 1 1 n) := by
  refine ⟨newYearSun_tehran, newYearSun_order, witnessDT_is _ (Or.inl rfl), rfl, rfl, (witnessDT_is none (Or.inl rfl)).1, _,
    (dayNumber_iff newYearSun_tehran).mpr ⟨by norm_num, by norm_num, ?_, rfl⟩⟩
  unfold ValidMD
  omega

end Verif
