import Verif.Props.BadiGregorian
import Verif.Props.StampPlace

/-!
# C94 (order, days of more than 24 hours), C56 and C57 at places other than Tehran
-/

namespace Verif

/-! ## C94 -/

/-- The date found for an instant: that of the sunset before it, or the next one from 24 hours after that sunset on. -/
theorem long_of_instant_place {A : Astro} (hE : TehranEvening A) {lat lon x : ℚ} (hS : SunSets A lat lon)
    (hl : |fl (lon / 360)| ≤ 1 / 2) (hx : IsF64 x) {P : ℤ} (hP : Quiet P) (h0 : 1721510 ≤ P)
    (hx0 : ssP A lat lon P ≤ x) (hx1 : x < ssP A lat lon (P + 1)) {trim : Bool} {l : LongT}
    (h : (Cal.init A).badiDateFromJd x lat lon { trim := trim } = .ok (.long l)) :
    ∃ y d n : ℤ, DenotesYear l.k l.v l.y y ∧ l.d = (d : ℚ) ∧ DayNumber (Cal.init A) y l.m d n ∧
      n + 1721423 = if x < ssP A lat lon P + 1 then P else P + 1 := by
  have h1 := hP.2.1
  have fin : ∀ (a fr : ℚ) (Q : ℤ), (Cal.init A).utcToBadiTime x lat lon = .ok (a, fr) → 0 ≤ fr → 1721500 ≤ Q →
      civilDay a (fl (lon / 360)) = Q →
      ∃ y d n : ℤ, DenotesYear l.k l.v l.y y ∧ l.d = (d : ℚ) ∧ DayNumber (Cal.init A) y l.m d n ∧
        n + 1721423 = Q := by
    intro a fr Q hu hf q0 hc
    by_cases hn : Q - 1721423 ≤ 1096902
    · obtain ⟨y, m, d, hd⟩ := dayNumber_exists hE (n := Q - 1721423) (by omega) (by omega)
      have hy := ymd_ok hE hu (n := Q - 1721423) (by rw [hc]; ring) hn hd
      obtain ⟨k, v, w, hden, e⟩ := badiDate_ok hE false trim hd hy hf (by simp)
      rw [h] at e
      simp only [Bool.false_eq_true, if_false, Except.ok.injEq, BDate.long.injEq] at e
      subst e
      exact ⟨y, d, _, hden, rfl, hd, by ring⟩
    · have := ymd_late hE hu (n := Q - 1721423) (by rw [hc]; ring) (by omega)
      unfold Cal.badiDateFromJd at h
      rw [show xorBoolean [false, false, false] = true by decide] at h
      simp only [pyAssert, this] at h
      cases h
  by_cases c : x < ssP A lat lon P + 1
  · rw [if_pos c]
    exact fin _ _ P (utc_place (A := A) rfl hS hl hx hP hx0 hx1 c) (by linarith) (by omega) (civilDay_ssP hS hl (by omega) h1)
  · rw [if_neg c]
    push Not at c
    exact fin _ _ (P + 1) (utc_place_long (A := A) rfl hS hl hx hP c hx1) (by linarith) (by omega)
      (civilDay_ssP_long hS hl (by omega) h1)

theorem OrdinaryInstant.quiet {x : ℚ} {A : Astro} {lat lon : ℚ} (h : OrdinaryInstant x) (hS : SunSets A lat lon)
    (hl : |fl (lon / 360)| ≤ 1 / 2) (h0 : 1721520 ≤ x) {P : ℤ} (p0 : 1721100 ≤ P) (p1 : P ≤ 2819700)
    (p2 : ssP A lat lon P ≤ x) (p3 : x < ssP A lat lon (P + 1)) : Quiet P ∧ 1721510 ≤ P := by
  obtain ⟨-, -, s1⟩ := ssP_bounds hS hl (P := P + 1) (by omega) (by omega)
  obtain ⟨-, s0, -⟩ := ssP_bounds hS hl (P := P) (by omega) (by omega)
  have ha := abs_le.mp hl
  push_cast at s1
  have hlo : x < P + 2 := by linarith
  have hhi : (P : ℚ) - 1 ≤ x := by linarith
  obtain ⟨a, b, c⟩ := h
  have lt : ∀ k : ℤ, x ≤ k → P ≤ k + 1 := by
    intro k hk
    have : (P : ℚ) ≤ ((k + 1 : ℤ) : ℚ) := by push_cast; linarith
    exact_mod_cast this
  have gt : ∀ k : ℤ, (k : ℚ) ≤ x → k - 1 ≤ P := by
    intro k hk
    have : ((k - 2 : ℤ) : ℚ) < P := by push_cast; linarith
    have := Int.cast_lt.mp this
    omega
  refine ⟨⟨p0, p1, ?_, ?_, ?_⟩, ?_⟩
  · intro k hk
    rcases a k hk with h | h
    · have := lt (k + 1721423 - 5) (by push_cast; linarith)
      omega
    · have := gt (k + 1721423 + 5) (by push_cast; linarith)
      omega
  · rcases b with h | h
    · have := lt 2299144 (by push_cast; linarith)
      omega
    · have := gt 2299164 (by push_cast; linarith)
      omega
  · rcases c with h | h
    · have := lt 2097137 (by push_cast; linarith)
      omega
    · have := gt 2097151 (by push_cast; linarith)
      omega
  · have := gt 1721520 (by push_cast; linarith)
    omega

/-- C94, order: at every place of longitude -180 to 180 where the sun sets on every local civil day, a later instant is
never given an earlier date, whatever the sunset times are, for any two instants from year -1842 on that are five days
or more away from the changes of the scales of Julian days, from the days left out in 1582 and from the power of two
2097152. Missing from the full property: the instants nearer to these. -/
theorem C94_monotone_partial (A : Astro) (hE : TehranEvening A) (lat lon zone : ℚ) (l0 : -180 ≤ lon) (l1 : lon ≤ 180)
    (hS : SunSets A lat lon) (x1 x2 : ℚ) (hx1 : IsF64 x1) (hx2 : IsF64 x2) (hlo : 1721520 ≤ x1) (hle : x1 ≤ x2)
    (hhi : x2 ≤ 2819690) (o1 : OrdinaryInstant x1) (o2 : OrdinaryInstant x2) (trim : Bool) (a b : LongT)
    (h1 : (Cal.init A).badiDateFromJdAt x1 (some lat) (some lon) (some zone) { trim := trim } = .ok (.long a))
    (h2 : (Cal.init A).badiDateFromJdAt x2 (some lat) (some lon) (some zone) { trim := trim } = .ok (.long b)) :
    ∃ y1 y2 d1 d2 n1 n2 : ℤ, DenotesYear a.k a.v a.y y1 ∧ DenotesYear b.k b.v b.y y2 ∧ a.d = d1 ∧ b.d = d2 ∧
      DayNumber (Cal.init A) y1 a.m d1 n1 ∧ DayNumber (Cal.init A) y2 b.m d2 n2 ∧ n1 ≤ n2 := by
  have hl := lonFrac_abs l0 l1
  obtain ⟨P, p0, p1, p2, p3⟩ := day_of_instant_place hS hl (x := x1) (by linarith) (by linarith)
  obtain ⟨Q, q0, q1, q2, q3⟩ := day_of_instant_place hS hl (x := x2) (by linarith) hhi
  obtain ⟨y1, d1, n1, e1, f1, g1, c1⟩ := long_of_instant_place hE hS hl hx1 (o1.quiet hS hl hlo p0 p1 p2 p3).1 (o1.quiet hS hl hlo p0 p1 p2 p3).2 p2 p3 h1
  obtain ⟨y2, d2, n2, e2, f2, g2, c2⟩ := long_of_instant_place hE hS hl hx2 (o2.quiet hS hl (by linarith) q0 q1 q2 q3).1
    (o2.quiet hS hl (by linarith) q0 q1 q2 q3).2 q2 q3 h2
  refine ⟨y1, y2, d1, d2, n1, n2, e1, e2, f1, f2, g1, g2, ?_⟩
  have up : ∀ R S : ℤ, 1721010 ≤ R → S ≤ 2819702 → R < S → ssP A lat lon R < ssP A lat lon S := by
    intro R S r0 s1 hRS
    obtain ⟨-, -, u⟩ := ssP_bounds hS hl (P := R) r0 (by omega)
    obtain ⟨-, v, -⟩ := ssP_bounds hS hl (P := S) (by omega) (by omega)
    have : (R : ℚ) + 1 ≤ S := by exact_mod_cast hRS
    linarith
  have hPQ : P ≤ Q := by
    by_contra hc
    rcases eq_or_lt_of_le (show Q + 1 ≤ P by omega) with e | e
    · rw [e] at q3; linarith
    · have := up (Q + 1) P (by omega) (by omega) e
      linarith
  rcases eq_or_lt_of_le hPQ with e | e
  · subst e
    by_cases c : x1 < ssP A lat lon P + 1
    · rw [if_pos c] at c1
      split at c2 <;> omega
    · rw [if_neg c] at c1
      rw [if_neg (by linarith)] at c2
      omega
  · split at c1 <;> split at c2 <;> omega

/-- The hypotheses are met by two instants of one day of year 182 on the date line. -/
example : SunSets sixPm (-17) 180 ∧ IsF64 2460830 ∧ IsF64 2460830.25 ∧ OrdinaryInstant 2460830 ∧
    OrdinaryInstant 2460830.25 ∧
    (∃ a, (Cal.init sixPm).badiDateFromJdAt 2460830 (some (-17)) (some 180) (some 12) { trim := true } = .ok (.long a)) ∧
    ∃ b, (Cal.init sixPm).badiDateFromJdAt 2460830.25 (some (-17)) (some 180) (some 12) { trim := true }
      = .ok (.long b) := by
  refine ⟨fun D _ _ => by constructor <;> norm_num [sunsetTime, sixPm], by unfold IsF64; decide +kernel,
    by unfold IsF64; decide +kernel, by decide +kernel, by decide +kernel, ⟨⟨1, 10, 11, 5, 3, [6]⟩, ?_⟩, ⟨⟨1, 10, 11, 5, 3, [12]⟩, ?_⟩⟩ <;> decide +kernel

/-- C94 is false at the end of days of more than 24 hours: at every place west of longitude 179.9999 where the sun sets
on every local civil day, from 24 hours after the start of a date to the start of the next date `badi_date_from_jd`
gives the next date, up to its last two milliseconds, with the time elapsed since those 24 hours. For all ordinary days
(all from year -260 on) to the last but one before the first day of 1161. -/
theorem C94_long_day_negation (A : Astro) (hE : TehranEvening A) (lat lon zone : ℚ)
    (l0 : -180 ≤ lon) (l1 : lon ≤ 179.9999) (hS : SunSets A lat lon)
    (y m d n last : ℤ) (hd : DayNumber (Cal.init A) y m d n) (ho : OrdinaryDay n)
    (hlast : (Cal.init A).yearStart 1161 = some last) (hn : n < last)
    (y' m' d' : ℤ) (hnext : DayNumber (Cal.init A) y' m' d' (n + 1)) (j j' x : ℚ)
    (hj : (Cal.init A).jdFromBadiDateAt ⟨y, m, d, []⟩ (some lat) (some lon) (some zone) = .ok j)
    (hj' : (Cal.init A).jdFromBadiDateAt ⟨y', m', d', []⟩ (some lat) (some lon) (some zone) = .ok j')
    (hx : IsF64 x) (hx0 : j + 1 ≤ x) (hx1 : x < j') (trim : Bool) :
    ∃ (h mi : ℤ) (s : ℚ),
      (Cal.init A).badiDateFromJdAt x (some lat) (some lon) (some zone) { short := true, trim := trim }
        = .ok (.short ⟨y', m', d', trimHms [(h : ℚ), (mi : ℚ), s]⟩) ∧
      0 ≤ h ∧ h ≤ 24 ∧ 0 ≤ mi ∧ mi < 60 ∧ 0 ≤ s ∧ s < 60 ∧
      |(3600 * h + 60 * mi + s) - 86400 * (x - (j + 1))| ≤ 1 / 400 := by
  rw [init_yearStart hE, if_pos (by omega), ysInt_1161] at hlast
  obtain rfl := Option.some.inj hlast
  have hl := lonFrac_abs l0 (by norm_num at l1; linarith : lon ≤ 180)
  have n0 := day_lo hE hd
  have q0 := ho.quiet n0 (by omega)
  have q1 := ho.quiet_next n0 (by omega)
  change (Cal.init A).jdFromBadiDate _ lat lon = _ at hj hj'
  rw [start_place hE hS l0 l1 hd q0] at hj
  rw [start_place hE hS l0 l1 hnext q1] at hj'
  injection hj with hj
  injection hj' with hj'
  rw [show n + 1 + 1721423 = n + 1721423 + 1 by ring] at hj'
  subst hj hj'
  have hu := utc_place_long (A := A) (C := Cal.init A) rfl hS hl hx q0 hx0 hx1
  have hc := civilDay_ssP_long hS hl (P := n + 1721423) (by omega) (by omega)
  have hyy := ymd_ok hE hu (n := n + 1) (by rw [hc]; ring) (by omega) hnext
  obtain ⟨-, s0, -⟩ := ssP_bounds hS hl (P := n + 1721423) (by omega) (by omega)
  obtain ⟨-, -, s1⟩ := ssP_bounds hS hl (P := n + 1721423 + 1) (by omega) (by omega)
  push_cast at s0 s1
  have f0 : 0 ≤ x - (ssP A lat lon (n + 1721423) + 1) := by linarith
  have hs := hms_spec f0
  simp only at hs
  rw [Int.fract_eq_self.mpr ⟨f0, by linarith⟩] at hs
  obtain ⟨a1, a2, a3, a4, a5, a6, a7, a8, -⟩ := hs
  obtain ⟨k, v, w, hden, e⟩ := badiDate_ok hE true trim hnext hyy f0 (fun _ => by linarith)
  exact ⟨_, _, _, by simpa [Cal.badiDateFromJdAt, placeOr] using e, a1, a2, a3, a4, a5, a6, a7.trans (by norm_num)⟩

/-- The hypotheses are met by an instant of the last 14 minutes of a day of 24 hours and 14 minutes of year 182 at
longitude 150 west. -/
example : TehranEvening laterSun ∧ SunSets laterSun 60 (-150) ∧
    ∃ (n : ℤ) (j j' x : ℚ), DayNumber (Cal.init laterSun) 182 5 7 n ∧ DayNumber (Cal.init laterSun) 182 5 8 (n + 1) ∧
    n < 1096902 ∧
    (Cal.init laterSun).jdFromBadiDateAt ⟨182, 5, 7, []⟩ (some 60) (some (-150)) (some (-9)) = .ok j ∧
    (Cal.init laterSun).jdFromBadiDateAt ⟨182, 5, 8, []⟩ (some 60) (some (-150)) (some (-9)) = .ok j' ∧
    IsF64 x ∧ j + 1 ≤ x ∧ x < j' := by
  refine ⟨laterSun_tehran, laterSun_sets (by decide +kernel), ?_⟩
  have hd : ∀ d : ℤ, 1 ≤ d → d ≤ 19 → DayNumber (Cal.init laterSun) 182 5 d (ysInt 182 + 76 + d - 1) :=
    fun d h1 h2 => (dayNumber_iff laterSun_tehran).mpr
      ⟨by omega, by omega, Or.inl ⟨by omega, by omega, h1, h2⟩, by
        rw [show dBefore (leapOf 182) 5 = 76 by decide +kernel]⟩
  have h7 := hd 7 (by omega) (by omega)
  have h8 := hd 8 (by omega) (by omega)
  have e : ysInt 182 = 739329 := by decide +kernel
  rw [e] at h7 h8
  have c0 : ∃ j : ℚ, (Cal.init laterSun).jdFromBadiDateAt ⟨182, 5, 7, []⟩ (some 60)
      (some (-150)) (some (-9)) = .ok j ∧ j < 2460834 + 43 / 64 := by
    refine ⟨((Cal.init laterSun).jdFromBadiDateAt ⟨182, 5, 7, []⟩ (some 60)
      (some (-150)) (some (-9))).toOption.getD 0, ?_, ?_⟩ <;> decide +kernel
  have c1 : ∃ j : ℚ, (Cal.init laterSun).jdFromBadiDateAt ⟨182, 5, 8, []⟩ (some 60)
      (some (-150)) (some (-9)) = .ok j ∧ 2460835 + 43 / 64 < j := by
    refine ⟨((Cal.init laterSun).jdFromBadiDateAt ⟨182, 5, 8, []⟩ (some 60)
      (some (-150)) (some (-9))).toOption.getD 0, ?_, ?_⟩ <;> decide +kernel
  obtain ⟨j, a0, b0⟩ := c0
  obtain ⟨j', a1, b1⟩ := c1
  exact ⟨739411, j, j', 2460835 + 43 / 64, h7, h8, by omega, a0, a1, by unfold IsF64; decide +kernel, by linarith, b1⟩

/-! ## C56 -/

/-- C56 at every place: the timestamp of the start of a date is read back as this date. Missing from the full property:
days that are not ordinary, those after the first day of 1161, longitudes from 179.9999 to 180. -/
theorem C56_place_partial (A : Astro) (hE : TehranEvening A) (lat lon zone : ℚ)
    (l0 : -180 ≤ lon) (l1 : lon ≤ 179.9999) (hS : SunSets A lat lon)
    (y m d n last : ℤ) (hd : DayNumber (Cal.init A) y m d n) (ho : OrdinaryDay n)
    (hlast : (Cal.init A).yearStart 1161 = some last) (hn : n ≤ last) (trim : Bool) :
    ∃ t : ℚ, (Cal.init A).timestampAt ⟨y, m, d, []⟩ (some lat) (some lon) (some zone) = .ok t ∧
      (Cal.init A).badiDateFromTimestamp t lat lon { short := true, trim := trim } = .ok (.short ⟨y, m, d, []⟩) ∧
      ∃ k v w : ℤ, DenotesYear k v w y ∧
        (Cal.init A).badiDateFromTimestamp t lat lon { short := false, trim := trim }
          = .ok (.long ⟨k, v, w, m, d, []⟩) := by
  obtain ⟨j, hj, e1, k, v, w, hden, e2⟩ := C94_round_trip_partial A hE lat lon zone l0 l1 hS y m d n last hd ho hlast hn
    trim
  change (Cal.init A).jdFromBadiDate _ lat lon = _ at hj
  rw [init_yearStart hE, if_pos (by omega), ysInt_1161] at hlast
  obtain rfl := Option.some.inj hlast
  have hl := lonFrac_abs l0 (by norm_num at l1; linarith : lon ≤ 180)
  have n0 := day_lo hE hd
  have q0 := ho.quiet n0 (by omega)
  have q1 := ho.quiet_next n0 (by omega)
  have hj2 := start_place hE hS l0 l1 hd q0
  rw [hj] at hj2
  injection hj2 with hj2
  obtain ⟨-, s0, s1⟩ := ssP_bounds hS hl (P := n + 1721423) (by omega) (by omega)
  have ha := abs_le.mp hl
  have nq0 : (-300 : ℚ) ≤ n := by exact_mod_cast n0
  have nq1 : (n : ℚ) ≤ 1096902 := by exact_mod_cast hn
  push_cast at s0 s1
  obtain ⟨t, ht, -, same⟩ := C56_same_instant (Cal.init A) ⟨y, m, d, []⟩ lat lon j hj (by linarith) (by linarith)
  refine ⟨t, ht, ?_, k, v, w, hden, ?_⟩
  · rw [same]; exact e1
  · rw [same]; exact e2

/-- The hypotheses are met by the fifth day of Ayyám-i-Há of year 182 at longitude 150 west. -/
example : SunSets sixPm 60 (-150) ∧ ∃ n, DayNumber (Cal.init sixPm) 182 0 5 n ∧ n ≤ 1096902 :=
  ⟨fun D _ _ => by constructor <;> norm_num [sunsetTime, sixPm],
    ysInt 182 + 346, (dayNumber_iff sixPm_tehran).mpr
      ⟨by omega, by omega, Or.inr ⟨rfl, by omega, by decide +kernel⟩, by decide +kernel⟩,
    by decide +kernel⟩

/-! ## C57 -/

/-- C57 at every place: with local coordinates west of longitude 179.9999 where the sun sets on every local civil day,
and for every timestamp from that of the start of a date there up to a millisecond before that of the next date (and at
most 10 milliseconds before 24 hours), `date.fromtimestamp(t)` is this date in both forms. Missing from the full
property: as in `C95_place_partial`. -/
theorem C57_place_partial (A : Astro) (hE : TehranEvening A) (lat lon zone : ℚ)
    (l0 : -180 ≤ lon) (l1 : lon ≤ 179.9999) (hS : SunSets A lat lon)
    (y m d n last : ℤ) (hd : DayNumber (Cal.init A) y m d n) (ho : OrdinaryDay n)
    (hlast : (Cal.init A).yearStart 1161 = some last) (hn : n ≤ last)
    (y' m' d' : ℤ) (hnext : DayNumber (Cal.init A) y' m' d' (n + 1)) (t0 t1 t : ℚ)
    (ht0 : (Cal.init A).timestampAt ⟨y, m, d, []⟩ (some lat) (some lon) (some zone) = .ok t0)
    (ht1 : (Cal.init A).timestampAt ⟨y', m', d', []⟩ (some lat) (some lon) (some zone) = .ok t1)
    (hta : t0 ≤ t) (htb : t ≤ t1 - 1 / 1000) (htc : t ≤ t0 + 86399.99) :
    (Cal.init A).dateFromTimestamp t lat lon true = .ok (.short y m d) ∧
    ∃ k v w : ℤ, DenotesYear k v w y ∧
      (Cal.init A).dateFromTimestamp t lat lon false = .ok (.long k v w m d) := by
  rw [init_yearStart hE, if_pos (by omega), ysInt_1161] at hlast
  obtain rfl := Option.some.inj hlast
  have hl := lonFrac_abs l0 (by norm_num at l1; linarith : lon ≤ 180)
  have n0 := day_lo hE hd
  have q0 := ho.quiet n0 (by omega)
  have q1 := ho.quiet_next n0 (by omega)
  have hj := start_place hE hS l0 l1 hd q0
  have hj' := start_place hE hS l0 l1 hnext q1
  rw [show n + 1 + 1721423 = n + 1721423 + 1 by ring] at hj'
  change (Cal.init A).timestampFromBadiDate _ lat lon = _ at ht0 ht1
  unfold Cal.timestampFromBadiDate at ht0 ht1
  rw [hj, pyOk_bind] at ht0
  rw [hj', pyOk_bind] at ht1
  injection ht0 with ht0
  injection ht1 with ht1
  obtain ⟨sf, s0, s1⟩ := ssP_bounds hS hl (P := n + 1721423) (by omega) (by omega)
  obtain ⟨sf', s0', s1'⟩ := ssP_bounds hS hl (P := n + 1721423 + 1) (by omega) (by omega)
  have ha := abs_le.mp hl
  have nq0 : (-300 : ℚ) ≤ n := by exact_mod_cast n0
  have nq1 : (n : ℚ) ≤ 1096902 := by exact_mod_cast hn
  push_cast at s0 s1 s0' s1'
  obtain ⟨x0, x1, xe⟩ := instant_between sf sf' (by linarith) (by linarith) (by linarith) (by linarith) ht0.symm
    ht1.symm hta htb
  have xf : IsF64 (fl (fl (t / 86400) + 2440585.5)) := isF64_fl _
  have xe := abs_le.mp xe
  norm_num at htc
  have hfr : fl (fl (t / 86400) + 2440585.5) - ssP A lat lon (n + 1721423) ≤ 1 - 1 / 40000000 := by linarith
  have hu := utc_place (A := A) (C := Cal.init A) rfl hS hl xf q0 x0 x1
    (by linarith)
  have hyy := ymd_ok hE hu (civilDay_ssP hS hl (P := n + 1721423) (by omega) (by omega)) hn hd
  obtain ⟨k, v, w, hden, e1⟩ := badiDate_ok hE true true hd hyy (by linarith) (fun _ => hfr)
  obtain ⟨k', v', w', hden', e2⟩ := badiDate_ok hE false true hd hyy (by linarith) (fun _ => hfr)
  have fl0 : ∀ z : ℤ, ⌊(z : ℚ)⌋ = z := fun z => Int.floor_intCast z
  refine ⟨?_, k', v', w', hden', ?_⟩
  · unfold Cal.dateFromTimestamp Cal.badiDateFromTimestamp
    rw [e1, pyOk_bind]
    simp only [if_true, Cal.dateOfConversion, fl0]
    exact newDate_ok hE (n := n) hd
  · unfold Cal.dateFromTimestamp Cal.badiDateFromTimestamp
    rw [e2, pyOk_bind]
    simp only [Bool.false_eq_true, if_false, Cal.dateOfConversion, fl0]
    exact newDate_ok hE (n := n) ⟨y, hden', hd⟩

/-- The hypotheses are met by a timestamp of year 182 at longitude 150 west. -/
example : SunSets laterSun 60 (-150) ∧
    ∃ (n : ℤ) (t0 t1 t : ℚ), DayNumber (Cal.init laterSun) 182 5 7 n ∧ DayNumber (Cal.init laterSun) 182 5 8 (n + 1) ∧
    n ≤ 1096902 ∧
    (Cal.init laterSun).timestampAt ⟨182, 5, 7, []⟩ (some 60) (some (-150)) (some (-9)) = .ok t0 ∧
    (Cal.init laterSun).timestampAt ⟨182, 5, 8, []⟩ (some 60) (some (-150)) (some (-9)) = .ok t1 ∧
    t0 < t ∧ t ≤ t1 - 1 / 1000 ∧ t ≤ t0 + 86399.99 := by
  refine ⟨laterSun_sets (by decide +kernel), ?_⟩
  obtain ⟨n, t0, t1, -, s, -, a1, a2, -, a3, a4, a5, -, -, a6, a7, a8, -⟩ := laterSun_days
  exact ⟨n, t0, t1, s, a1, a2, by omega, a4, a5, a6, a7, a8⟩

end Verif
