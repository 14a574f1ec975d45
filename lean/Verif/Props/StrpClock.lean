import Verif.Props.StrpZone
import Verif.Props.Clock12

/-!
# C86: the 12 hour clock is written by `strftime` and read by `strptime` with `%I` and `%p`
-/

namespace Verif

/-- `%I %p` -/
def clockToks : List Tok := [.dir 'I' none, .lit ' ', .dir 'p' none]

theorem clockToks_text : tokText clockToks = "%I %p".toList := by decide

theorem clock_compile (b : Bool) : compileFmt b "%I %p".toList = some (.ok [.dir 'I', .space, .dir 'p']) := by cases b <;> decide

/-- The texts `AM` and `PM` of the locale, with which the model of `strptime` is made. -/
def EnglishHalves (L : Locale) : Prop := L.am = "AM".toList ∧ L.pm = "PM".toList

/-- The text of the 12 hour clock after other pieces. -/
theorem strftime_clock {A : Astro} (hE : TehranEvening A) (hO : NewYearOrder (Cal.init A)) (hG : GreenwichSteady A) (L : Locale)
    {y m d h mi s us n : ℤ} {tz : Option Tz} {z : Option TzInfo}
    (hx : IsDT (Cal.init A) ⟨.short y m d, h, mi, s, us, tz, 0⟩ n) (hc : h ≤ 23 ∧ s ≤ 59) (hn : ClockDay n)
    (hm : 3600 * h + 60 * mi + s < 43080 ∨ 43320 ≤ 3600 * h + 60 * mi + s) {ts : List Tok} (hF : RoundTripFormat ts) :
    -1842 ≤ y ∧ (Cal.init A).datetimeStrftime L ⟨.short y m d, h, mi, s, us, tz, 0⟩ z (tokText ts ++ "%I %p".toList) =
      .ok (outOf (fieldText (tupleOf y m d h mi s n) us) ts ++
        (padInt 2 (h % 12) ++ ' ' :: (if h < 12 then L.am else L.pm))) := by
  obtain ⟨a0, a1, a2, a3, a4, a5, a6, a7, -⟩ := hx.time
  simp only [DT.timetz] at a0 a1 a2 a3 a4 a5 a6 a7
  have hy : -1842 ≤ y := by
    obtain ⟨y0, -, n0, n1⟩ := dayNumber_year hE hx.day
    by_contra hlt
    obtain rfl : y = -1843 := by omega
    have : ysInt (-1843 + 1) = 78 := ysInt_m1842
    have := hn.1
    omega
  refine ⟨hy, ?_⟩
  have key := halfDay (w := (n + 1) % 7) (yd := n - ysInt y + 1) hE hG hx.day hn a0 hc.1 a2 a3 a4 hc.2 hm
  have hmod : (if decide (12 ≤ h) = true then h - 12 else h) = h % 12 := by
    simp only [decide_eq_true_eq]
    split_ifs <;> omega
  rw [← clockToks_text]
  refine strftime_more hE hO L hx hy hc.1 hF (ks := clockToks) rfl (fun us => by rw [clockToks_text]; rfl) ?_ (by decide) ?_ ?_
  · intro t ht
    simp only [clockToks, List.mem_cons, List.not_mem_nil, or_false] at ht
    rcases ht with rfl | rfl | rfl <;> simp [Tok.Documented]
  · intro b hb
    simp [clockToks] at hb
    subst hb
    rfl
  · change (do
      let a ← (Cal.init A).dirI (tupOf (.short y m d) h mi s ((n + 1) % 7) (n - ysInt y + 1)) 'I' none
      let r ← (do
        let r ← (do
          let p ← (Cal.init A).dirP L (tupOf (.short y m d) h mi s ((n + 1) % 7) (n - ysInt y + 1))
          let r ← (.ok [] : Py Str)
          .ok (p ++ r))
        .ok ([' '] ++ r))
      .ok (a ++ r)) = _
    unfold Cal.dirI Cal.hour12 Cal.dirP
    rw [key, pyOk_bind, pyOk_bind, if_neg (by decide), if_neg (by decide)]
    simp only [pyOk_bind, List.append_nil]
    rw [(tupOf_clock _ _ _ _ _ _).1, hmod]
    congr 3
    change ' ' :: _ = _
    congr 1
    simp only [decide_eq_true_eq]
    split_ifs <;> first | rfl | omega

theorem reads_I : ∀ k < 12, 1 ≤ k → readsB ((altsOf 'I').getD []) (digitsW 2 k) = true := by decide +kernel

theorem reads_half : firstLen (namePats ["AM", "PM"]) "AM".toList = some 2 ∧ firstLen (namePats ["AM", "PM"]) "PM".toList = some 2 := by
  decide +kernel

/-- C86: a datetime of the short form, on every day of `ClockDay`, is written with its 12 hour clock and read back to the
same hour, unless the hour is 0 or 12 or the clock is within two minutes of noon. The format is any of those for which the
round trip of the other fields holds, followed by `%I %p`. Missing from the full property: the hours 0 and 12,
for which it is false (below), and the first year and the 41 days left out by `ClockDay`. -/
theorem C86_round_trip_partial (A : Astro) (hE : TehranEvening A) (hO : NewYearOrder (Cal.init A)) (hG : GreenwichSteady A)
    (L : Locale) (hL : EnglishHalves L) (y m d h mi s us n : ℤ) (z : Option TzInfo)
    (hx : IsDT (Cal.init A) ⟨.short y m d, h, mi, s, us, none, 0⟩ n) (hc : h ≤ 23 ∧ s ≤ 59) (hn : ClockDay n)
    (hm : 3600 * h + 60 * mi + s < 43080 ∨ 43320 ≤ 3600 * h + 60 * mi + s) (h0 : h ≠ 0 ∧ h ≠ 12)
    (ts : List Tok) (hF : RoundTripFormat ts) (hb : Tok.dir 'b' none ∈ ts → m ≠ 15)
    (hj : Tok.dir 'j' none ∈ ts → Convertible (Cal.init A) n) (fresh : ℕ) :
    ∃ text, (Cal.init A).datetimeStrftime L ⟨.short y m d, h, mi, s, us, none, 0⟩ z (tokText ts ++ "%I %p".toList) = .ok text ∧
      (Cal.init A).strptime text (tokText ts ++ "%I %p".toList) fresh = some (.ok ⟨.short y m d, h, keptField ts 'M' mi,
        keptField ts 'S' s, keptField ts 'f' us, none, 0⟩) := by
  obtain ⟨a0, a1, a2, a3, a4, a5, a6, a7, -⟩ := hx.time
  simp only [DT.timetz] at a0 a1 a2 a3 a4 a5 a6 a7
  obtain ⟨hy, e⟩ := strftime_clock hE hO hG L (z := z) hx hc hn hm hF
  refine ⟨_, e, ?_⟩
  obtain ⟨htok, -⟩ := tupleOf_ok hE hO hx hy hc.1
  have hp : padInt 2 (h % 12) = digitsW 2 (h % 12).toNat := by
    have := padInt_nat (w := 2) (n := (h % 12).toNat) (by norm_num) (by norm_num; omega)
    rwa [Int.toNat_of_nonneg (by omega)] at this
  have hw : (if h < 12 then L.am else L.pm) = "AM".toList ∨ (if h < 12 then L.am else L.pm) = "PM".toList := by
    rw [hL.1, hL.2]
    split_ifs <;> simp
  have hwv : ∀ w, w = (if h < 12 then L.am else L.pm) → hourOf12 (lowerS w) (h % 12) = h := by
    rintro w rfl
    rw [hL.1, hL.2]
    split_ifs with hlt
    · rw [show lowerS "AM".toList = "am".toList by decide]
      unfold hourOf12
      rw [if_pos (Or.inr rfl), if_neg (by omega)]
      omega
    · rw [show lowerS "PM".toList = "pm".toList by decide]
      unfold hourOf12
      rw [if_neg (by decide), if_pos rfl, if_pos (by omega)]
      omega
  generalize hwg : (if h < 12 then L.am else L.pm) = w at hw
  have hwv := hwv w hwg.symm
  have hend : (matchAll [.dir 'p'] w).head? = some ([('p', w)], []) := by
    apply match_end (alts := namePats ["AM", "PM"]) rfl
    rcases hw with rfl | rfl
    · exact reads_half.1
    · exact reads_half.2
  have hsp : w.dropWhile isSpaceC = w := by rcases hw with rfl | rfl <;> decide
  have hmid : (matchAll [.dir 'I', .space, .dir 'p'] (padInt 2 (h % 12) ++ ' ' :: w)).head? =
      some ([('I', padInt 2 (h % 12)), ('p', w)], []) := by
    rw [hp]
    refine matchAll_dir (reads_I _ (by omega) (by omega)) (matchAll_space (by decide) ?_)
    rw [hsp]
    exact hend
  have hmatch := (match_toks_app (ts := ts) (val := fieldText (tupleOf y m d h mi s n) us)
    (fun c hc => by
      obtain ⟨a, b, -⟩ := field_facts htok (hF.pieces _ hc).2 (fun e => hb (by subst e; exact hc))
      exact ⟨a, b⟩) (fun c m' hc => (hF.pieces _ hc).1) hmid (by
    rw [hp]
    obtain ⟨x, r, hr, hs⟩ := digits_head (w := 2) (n := (h % 12).toNat) (by norm_num)
    rw [hr, List.cons_append, List.dropWhile_cons, hs]
    simp)).1
  unfold Cal.strptime
  rw [compile_toks_app hF.pieces clock_compile]
  simp only
  unfold findRegex
  rw [hmatch]
  simp only [if_true]
  rw [pyOk_bind, strptimeFound_more hE hO hx.day htok hF hb hj (off := none) (hr := fun _ => h) (by
    intro f fa fg
    have fa : f.ampm = lowerS w := fa
    have hi : intOf (padInt 2 (h % 12)) = .ok (h % 12) := by
      rw [hp, intOf_digits (by norm_num) (by norm_num; omega), Int.toNat_of_nonneg (by omega)]
    rw [List.foldlM_cons, show setGroup f ('I', padInt 2 (h % 12)) =
      (intOf (padInt 2 (h % 12))).map (fun n => { f with hour := hourOf12 f.ampm n }) from rfl, hi, fa]
    change Except.ok _ = _
    simp only
    rw [hwv]
    cases f
    simp only at fg
    subst fg
    rfl)]
  congr 1
  have hk := kept_valid (ts := ts) hx.time
  refine newDT_ok hE (n := n) ⟨hx.day, ?_⟩
  exact ⟨a0, a1, hk.mi0, hk.mi1, hk.s0, hk.s1, hk.us0, hk.us1, Or.inl rfl⟩

/-- `%Y-%m-%d %M:%S.%f ` -/
def minuteFormat : List Tok := [.dir 'Y' none, .lit '-', .dir 'm' none, .lit '-', .dir 'd' none, .lit ' ', .dir 'M' none, .lit ':',
  .dir 'S' none, .lit '.', .dir 'f' none, .lit ' ']

/-- The evening of the last day of Ayyám-i-Há. -/
example : RoundTripFormat minuteFormat ∧
    EnglishHalves (localeOf "AM".toList "PM".toList "%m/%d/%y".toList ':' true) ∧
    IsDT (Cal.init greenwichSun) ⟨.short 182 0 5, 23, 30, 0, 250000, none, 0⟩ 739675 ∧ GreenwichSteady greenwichSun ∧ ClockDay 739675 ∧
    43320 ≤ 3600 * (23 : ℤ) + 60 * 30 + 0 := by
  refine ⟨⟨?_, by decide, by decide, by decide, by decide, ?_⟩, ⟨rfl, rfl⟩, ⟨greenwichSun_day witness_days.1, ?_⟩, greenwichSun_steady, by unfold ClockDay; decide, by norm_num⟩
  · intro t ht
    simp only [minuteFormat, List.mem_cons, List.not_mem_nil, or_false] at ht
    rcases ht with rfl | rfl | rfl | rfl | rfl | rfl | rfl | rfl | rfl | rfl | rfl | rfl <;> simp [Tok.Readable]
  · intro a b ha _ hab
    simp [minuteFormat] at ha
    subst ha
    exact absurd hab.1 (by decide)
  · constructor <;> decide

theorem twelve_digits {v : Str} (h : NumText 2 1 12 v) (hl : v.getLast? = some '0') : v = ['1', '0'] := by
  obtain ⟨h1, h2, hd, n, hn, n0, n1⟩ := h
  obtain ⟨k, hk, e⟩ := text_digits hd
  have hv : n = k := by
    rw [e, intOf_digits h1 hk] at hn
    injection hn with hn
    exact hn.symm
  have hk12 : 1 ≤ k ∧ k ≤ 12 := by omega
  have : v.length = 1 ∨ v.length = 2 := by omega
  rcases this with hl' | hl'
  · rw [hl'] at e
    rw [e] at hl
    have all : ∀ k ≤ 12, 1 ≤ k → k < 10 → (digitsW 1 k).getLast? ≠ some '0' := by decide
    exact absurd hl (all k hk12.2 hk12.1 (by rw [hl'] at hk; simpa using hk))
  · rw [hl'] at e
    rw [e] at hl ⊢
    have all : ∀ k ≤ 12, 1 ≤ k → (digitsW 2 k).getLast? = some '0' → digitsW 2 k = ['1', '0'] := by decide
    exact all k hk12.2 hk12.1 hl

/-- C86: the hours 0 and 12 are written as `00`, and the text is refused with ValueError by the same format. -/
theorem C86_noon_negation (A : Astro) (hE : TehranEvening A) (hO : NewYearOrder (Cal.init A)) (hG : GreenwichSteady A)
    (L : Locale) (hL : EnglishHalves L) (y m d h mi s us n : ℤ) (z : Option TzInfo)
    (hx : IsDT (Cal.init A) ⟨.short y m d, h, mi, s, us, none, 0⟩ n) (hc : h ≤ 23 ∧ s ≤ 59) (hn : ClockDay n)
    (hm : 3600 * h + 60 * mi + s < 43080 ∨ 43320 ≤ 3600 * h + 60 * mi + s) (h0 : h = 0 ∨ h = 12)
    (ts : List Tok) (hF : RoundTripFormat ts) (fresh : ℕ) :
    ∃ text, (Cal.init A).datetimeStrftime L ⟨.short y m d, h, mi, s, us, none, 0⟩ z (tokText ts ++ "%I %p".toList) = .ok text ∧
      (Cal.init A).strptime text (tokText ts ++ "%I %p".toList) fresh = some (.error .value) := by
  obtain ⟨hy, e⟩ := strftime_clock hE hO hG L (z := z) hx hc hn hm hF
  refine ⟨_, e, ?_⟩
  rw [show padInt 2 (h % 12) = ['0', '0'] by rcases h0 with rfl | rfl <;> decide]
  have hw : (if h < 12 then L.am else L.pm) = "AM".toList ∨ (if h < 12 then L.am else L.pm) = "PM".toList := by
    rw [hL.1, hL.2]
    split_ifs <;> simp
  generalize (if h < 12 then L.am else L.pm) = w at hw
  unfold Cal.strptime
  rw [compile_toks_app hF.pieces clock_compile]
  simp only
  generalize outOf (fieldText (tupleOf y m d h mi s n) us) ts = s0
  have key : findRegex (s0 ++ (['0', '0'] ++ ' ' :: w)) (piecesOf false ts ++ [.dir 'I', .space, .dir 'p']) = .error .value := by
    unfold findRegex
    split
    · rfl
    · rename_i g r hh
      rw [if_neg]
      rintro rfl
      obtain ⟨s1, s2, g1, g2, e, -, -, h2⟩ := pieces_split (matchAll_sound (List.mem_of_mem_head? hh))
      cases h2 with
      | dir hi h2 =>
        rename_i v s3 g3
        cases h2 with
        | space hb1 hb2 h2 =>
          rename_i b s4
          cases h2 with
          | dir hp h2 =>
            cases h2
            rename_i w'
            have hl : w'.length = 2 := by
              obtain ⟨t, ht, hlo⟩ := hp
              have := congrArg List.length hlo
              unfold lowerS at this
              rw [List.length_map, List.length_map] at this
              simp only [List.mem_cons, List.not_mem_nil, or_false] at ht
              rcases ht with rfl | rfl <;> simpa using this
            have hl' : w.length = 2 := by rcases hw with rfl | rfl <;> decide
            have e : (s0 ++ ['0', '0', ' ']) ++ w = (s1 ++ v ++ b) ++ w' := by
              simp only [List.append_nil] at e
              simpa using e
            have e := (List.append_inj' e (by rw [hl, hl'])).1
            obtain ⟨b', x, rfl⟩ : ∃ b' x, b = b' ++ [x] := ⟨b.dropLast, b.getLast hb1, (List.dropLast_append_getLast hb1).symm⟩
            have e : (s0 ++ ['0', '0']) ++ [' '] = (s1 ++ v ++ b') ++ [x] := by simpa using e
            have e := (List.append_inj' e rfl).1
            have hb' : b' = [] := by
              rcases List.eq_nil_or_concat b' with h | ⟨b2, y, rfl⟩
              · exact h
              · exfalso
                rw [List.concat_eq_append] at e hb2
                have e : (s0 ++ ['0']) ++ ['0'] = (s1 ++ v ++ b2) ++ [y] := by simpa using e
                have := (List.append_inj' e rfl).2
                simp at this
                subst this
                exact absurd (hb2 '0' (by simp)) (by decide)
            subst hb'
            rw [List.append_nil] at e
            have hv1 : v ≠ [] := by
              rintro rfl
              exact absurd hi.1 (by simp)
            have hlast : v.getLast? = some '0' := by
              have := congrArg List.getLast? e
              rw [List.getLast?_append_of_ne_nil _ (by simp), List.getLast?_append_of_ne_nil _ hv1] at this
              rw [← this]
              rfl
            have hv := twelve_digits hi hlast
            subst hv
            have := (List.append_inj' e rfl).2
            simp at this
  rw [key]
  rfl

/-- A quarter past midnight and half past twelve. -/
example : IsDT (Cal.init greenwichSun) ⟨.short 182 0 5, 12, 30, 0, 0, none, 0⟩ 739675 ∧
    IsDT (Cal.init greenwichSun) ⟨.short 182 0 5, 0, 15, 0, 0, none, 0⟩ 739675 ∧ RoundTripFormat isoLike := by
  refine ⟨⟨greenwichSun_day witness_days.1, ?_⟩, ⟨greenwichSun_day witness_days.1, ?_⟩, zone_format⟩ <;> constructor <;> decide

end Verif
