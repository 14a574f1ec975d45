import Verif.Model.LocaleTime
import Verif.Props.Composite
import Verif.Props.Clock12

/-!
# Lemmas for the formats that `LocaleTime` finds
-/

namespace Verif

/-! ## Replacing the names of zones -/

/-- The characters of the names of time zones. -/
def zoneChar (c : Char) : Bool := isDig c || range 'a' 'z' c || c == '+' || c == '-'

/-- Any three characters in a row have one that no name of a zone has. -/
def guardedB : Str → Bool
  | a :: b :: c :: r => (!zoneChar a || !zoneChar b || !zoneChar c) && guardedB (b :: c :: r)
  | _ => true

theorem guarded_tail {a : Char} {s : Str} (h : guardedB (a :: s) = true) : guardedB s = true := by
  match s with
  | [] => rfl
  | [b] => rfl
  | b :: c :: r =>
    unfold guardedB at h
    rw [Bool.and_eq_true] at h
    exact h.2

theorem replace_guarded {z new : Str} (hz : 3 ≤ z.length) (hc : ∀ c ∈ z, zoneChar c = true) {s : Str}
    (h : guardedB s = true) : replaceGo z new 0 s = s := by
  induction s with
  | nil => rfl
  | cons a s ih =>
    unfold replaceGo
    rw [if_neg, ih (guarded_tail h)]
    intro hp
    rw [List.isPrefixOf_iff_prefix] at hp
    obtain ⟨t, e⟩ := hp
    match z, hz with
    | p :: q :: r :: z', _ =>
      simp only [List.cons_append, List.cons.injEq] at e
      obtain ⟨rfl, e⟩ := e
      cases s with
      | nil => simp at e
      | cons b s =>
        simp only [List.cons.injEq] at e
        obtain ⟨rfl, e⟩ := e
        cases s with
        | nil => simp at e
        | cons c s =>
          simp only [List.cons.injEq] at e
          obtain ⟨rfl, -⟩ := e
          have h1 := hc p (by simp)
          have h2 := hc q (by simp)
          have h3 := hc r (by simp)
          unfold guardedB at h
          simp [h1, h2, h3] at h

theorem zones_guarded {zones : List Str} (hz : ∀ z ∈ zones, 3 ≤ z.length ∧ ∀ c ∈ z, zoneChar c = true) {s : Str}
    (h : guardedB s = true) : (zones.map (fun z => (z, "%Z".toList))).foldl (fun s p => replaceText s p.1 p.2) s = s := by
  induction zones with
  | nil => rfl
  | cons z zs ih =>
    have h1 := hz z (by simp)
    rw [List.map_cons, List.foldl_cons]
    have e : replaceText s z "%Z".toList = s := by
      unfold replaceText
      split_ifs
      · rfl
      · exact replace_guarded h1.1 h1.2 h
    simp only [e]
    exact ih fun z hz' => hz z (by simp [hz'])

/-- The replacements without those of the zones. -/
def guessShort (pm s : Str) : Str := (replacementPairs pm []).foldl (fun s p => replaceText s p.1 p.2) s

theorem guess_split {pm : Str} {zones : List Str} (hz : ∀ z ∈ zones, 3 ≤ z.length ∧ ∀ c ∈ z, zoneChar c = true) {s f : Str}
    (h : guessShort pm s = f) (hg : guardedB f = true) (hU : replaceText f "11".toList "%U".toList = f) :
    guessFormat pm zones s = f := by
  unfold guessFormat
  have e : replacementPairs pm zones = replacementPairs pm [] ++ zones.map (fun z => (z, "%Z".toList)) := by
    simp [replacementPairs]
  rw [e, List.foldl_append]
  change replaceText ((zones.map (fun z => (z, "%Z".toList))).foldl _ (guessShort pm s)) _ _ = _
  rw [h, zones_guarded hz hg, hU]

/-! ## The formats of the locale -/

/-- The separators of the formats of dates and times. -/
def separators : List Char := ['/', '-', '.', ':', ' ', ',']

/-- The texts of the fields of the sample. -/
def sampleText : Char → Str
  | 'm' => "03".toList
  | 'd' => "17".toList
  | 'y' => "99".toList
  | 'Y' => "0199".toList
  | 'H' => "22".toList
  | 'I' => "10".toList
  | 'M' => "04".toList
  | _ => "30".toList

def goodFormat (pm : Str) (a b c sep : Char) : Bool :=
  guessShort pm (lowerS (sampleText a ++ sep :: sampleText b ++ sep :: sampleText c)) == threeOf a b c sep &&
    guardedB (threeOf a b c sep) && replaceText (threeOf a b c sep) "11".toList "%U".toList == threeOf a b c sep

theorem good_dates : ∀ pm ∈ [[], "pm".toList], ∀ a ∈ ['m', 'd', 'y', 'Y'], ∀ b ∈ ['m', 'd', 'y', 'Y'], ∀ c ∈ ['m', 'd', 'y', 'Y'],
    ∀ sep ∈ separators, goodFormat pm a b c sep = true := by decide +kernel

theorem good_times : ∀ pm ∈ [[], "pm".toList], ∀ a ∈ ['H', 'I'], ∀ sep ∈ separators, goodFormat pm a 'M' 'S' sep = true := by
  decide +kernel

theorem good_dateTime : ∀ pm ∈ [[], "pm".toList], guessShort pm (lowerS "Kam Jam 17 22:04:30 0199".toList) = "%a %b %d %H:%M:%S %Y".toList ∧
    guardedB "%a %b %d %H:%M:%S %Y".toList = true ∧
    replaceText "%a %b %d %H:%M:%S %Y".toList "11".toList "%U".toList = "%a %b %d %H:%M:%S %Y".toList := by decide +kernel

/-! ## The sample -/

theorem flag_zero {C : Cal} {x : DT} {w yd : ℤ} (h : C.dtTimetuple x none = .ok (structOf x none w yd)) :
    C.buildStructTime x.d x.h x.mi x.s 0 none = .ok ⟨tupOf x.d x.h x.mi x.s w yd, dstFlag 0 none, none, offsetSeconds none⟩ := by
  unfold Cal.dtTimetuple at h
  unfold Cal.buildStructTime at h ⊢
  cases h1 : C.structYmd x.d x.h x.mi x.s with
  | error e => rw [h1] at h; cases h
  | ok r =>
    obtain ⟨y, m, d⟩ := r
    rw [h1, pyOk_bind] at h
    rw [pyOk_bind]
    simp only at h ⊢
    cases h2 : C.dayOfWeek y m d with
    | error e => rw [h2] at h; cases h
    | ok w' =>
      rw [h2, pyOk_bind] at h
      rw [pyOk_bind]
      cases h3 : C.daysBeforeMonth y m with
      | error e => rw [h3] at h; cases h
      | ok b =>
        rw [h3, pyOk_bind] at h
        rw [pyOk_bind]
        unfold Cal.structTime at h ⊢
        rw [if_neg (by simp)] at h ⊢
        cases h4 : C.newDT ⟨x.d, x.h, x.mi, x.s, 0, Option.map (fun i : TzInfo => i.zone.tz) none, 0⟩ with
        | error e => rw [h4] at h; cases h
        | ok u =>
          rw [h4, pyOk_bind] at h
          rw [pyOk_bind]
          injection h with h
          have ht := congrArg Struct.tup h
          simp only [structOf] at ht
          rw [ht]
          rfl

theorem sample_days {A : Astro} (hE : TehranEvening A) :
    DayNumber (Cal.init A) 199 1 1 745538 ∧ DayNumber (Cal.init A) 199 3 17 745592 := by
  have e : ysInt 199 = 745538 := by decide +kernel
  refine ⟨(dayNumber_iff hE).mpr ⟨by omega, by omega, Or.inl ⟨by omega, by omega, by omega, by omega⟩, ?_⟩,
    (dayNumber_iff hE).mpr ⟨by omega, by omega, Or.inl ⟨by omega, by omega, by omega, by omega⟩, ?_⟩⟩
  · rw [show dBefore (leapOf 199) 1 = 0 by decide +kernel, e]; omega
  · rw [show dBefore (leapOf 199) 3 = 38 by decide +kernel, e]; omega

theorem sample_clock : ClockDay 745538 ∧ ClockDay 745592 := by
  unfold ClockDay
  decide

/-- A sample and its tuple. -/
theorem sample_struct {A : Astro} (hE : TehranEvening A) (hO : NewYearOrder (Cal.init A)) {m d n h mi s : ℤ}
    (hd : DayNumber (Cal.init A) 199 m d n) (hh : 0 ≤ h ∧ h ≤ 23) (hmi : 0 ≤ mi ∧ mi ≤ 59) (hs : 0 ≤ s ∧ s ≤ 59) :
    ∃ yd, (Cal.init A).buildStructTime (.short 199 m d) h mi s 0 none =
        .ok ⟨tupOf (.short 199 m d) h mi s ((n + 1) % 7) yd, dstFlag 0 none, none, offsetSeconds none⟩ ∧
      (Cal.init A).checktm (tupOf (.short 199 m d) h mi s ((n + 1) % 7) yd) = .ok () := by
  have hx : IsDT (Cal.init A) ⟨.short 199 m d, h, mi, s, 0, none, 0⟩ n :=
    ⟨hd, ⟨hh.1, by simp only [DT.timetz]; omega, hmi.1, hmi.2, hs.1, by simp only [DT.timetz]; omega, by simp [DT.timetz],
      by simp [DT.timetz], Or.inl rfl⟩⟩
  obtain ⟨w, yd, -, rfl, e1, e2⟩ := dtTimetuple_ok hE hO hx (Or.inl rfl) (by change (-1842 : ℤ) ≤ 199; omega) none
  exact ⟨yd, flag_zero e1, e2⟩

end Verif
