import Verif.Lemmas.Forward
import Verif.Lemmas.Forms
import Verif.Spec.Ordinal
import Verif.Spec.Date

/-!
# Ordinals: lemmas
-/

namespace Verif

theorem ysInt_m1842 : ysInt (-1842) = 78 := by decide +kernel

theorem fract_ssE {A : Astro} (hE : TehranEvening A) {P : ℤ} (h0 : 1721010 ≤ P) (h1 : P ≤ 2819900) :
    Int.fract (ssE A P) = ssE A P - P := by
  obtain ⟨-, s0, s1⟩ := ssE_bounds hE h0 h1
  have : ⌊ssE A P⌋ = P := by rw [Int.floor_eq_iff]; constructor <;> linarith
  unfold Int.fract
  rw [this]

theorem base_jd {A : Astro} (hE : TehranEvening A) :
    (Cal.init A).jdFromBadiDateDefault ⟨-1843, 19, 19, []⟩ = .ok (ssE A 1721500) := by
  have hd : DayNumber (Cal.init A) (-1843) 19 19 77 := (dayNumber_iff hE).mpr
    ⟨by omega, by omega, Or.inl ⟨by omega, by omega, by omega, by omega⟩, by decide +kernel⟩
  have := date_jd' hE hd (by decide)
  simpa using this

/-- The number of days before a year, when the clock times of the two sunsets compare as the code
expects. -/
theorem daysBeforeYear_eq {A : Astro} (hE : TehranEvening A) {y : ℤ} (h0 : -1843 ≤ y) (h1 : y ≤ 1162) :
    ∃ j0 j, (Cal.init A).jdFromBadiDateDefault ⟨-1843, 19, 19, []⟩ = .ok j0 ∧
      (Cal.init A).jdFromBadiDateDefault ⟨y, 1, 1, []⟩ = .ok j ∧
      (Cal.init A).daysBeforeYear y = .ok (ysInt y - 78 - if Int.fract j < Int.fract j0 then 1 else 0) := by
  refine ⟨_, _, base_jd hE, nr_jd (C := Cal.init A) hE h0 h1, ?_⟩
  obtain ⟨bf, b0, b1⟩ := ssE_bounds hE (P := 1721500) (by omega) (by omega)
  rw [fract_ssE hE (by omega) (by omega)]
  change _ = Except.ok (ysInt y - 78 - if Int.fract (nrJd A y) < _ then 1 else 0)
  obtain ⟨nf, n0, n1⟩ := nrJd_bounds hE h0 h1
  have hfl : ⌊nrJd A y⌋ = ysInt y + 1721423 := by rw [Int.floor_eq_iff]; constructor <;> linarith
  have hfr : Int.fract (nrJd A y) = nrJd A y - ((ysInt y + 1721423 : ℤ) : ℚ) := by unfold Int.fract; rw [hfl]
  have q0 := ysInt_mono (le_refl (-1843)) h0 (by omega)
  have q1 := ysInt_mono h0 h1 (le_refl _)
  rw [ysInt_m1843] at q0
  rw [ysInt_1162] at q1
  have q0' : (-287 : ℚ) ≤ ysInt y := by exact_mod_cast (by omega : -287 ≤ ysInt y)
  have q1' : (ysInt y : ℚ) ≤ 1097268 := by exact_mod_cast (by omega : ysInt y ≤ 1097268)
  rw [hfr]
  push_cast at n0 n1 b0 b1 ⊢
  unfold Cal.daysBeforeYear
  rw [show minYear - 1 = -1843 from rfl, base_jd hE, pyOk_bind, nr_jd (C := Cal.init A) hE h0 h1, pyOk_bind]
  change Except.ok (⌊fl (nrJd A y - ssE A 1721500)⌋ - 1) = _
  rw [fl_sub_jd nf bf (by linarith) (by linarith) (by rw [abs_le]; constructor <;> linarith)]
  congr 1
  split_ifs with h
  · have : ⌊nrJd A y - ssE A 1721500⌋ = ysInt y - 78 := by
      rw [Int.floor_eq_iff]; push_cast; constructor <;> linarith
    omega
  · have : ⌊nrJd A y - ssE A 1721500⌋ = ysInt y - 77 := by
      rw [Int.floor_eq_iff]; push_cast; constructor <;> linarith
    omega

theorem daysBeforeYear_ok {A : Astro} (hE : TehranEvening A) (hO : NewYearOrder (Cal.init A)) {y : ℤ}
    (h0 : -1843 ≤ y) (h1 : y ≤ 1162) :
    (Cal.init A).daysBeforeYear y = .ok (ysInt y - 78 - fudge y) := by
  obtain ⟨j0, j, e0, e1, e⟩ := daysBeforeYear_eq hE h0 h1
  have := hO y j0 j e0 e1
  rw [e]
  unfold fudge
  simp only [List.mem_cons, List.not_mem_nil, or_false, this]

theorem daysBeforeMonth_ok {C : Cal} {y m d : ℤ} {leap : Bool} (hl : C.isLeapYear y = .ok leap)
    (hv : ValidMD leap m d) : C.daysBeforeMonth y m = .ok (dBefore leap m) := by
  unfold Cal.daysBeforeMonth dBefore
  rcases hv with ⟨a, b, -⟩ | ⟨rfl, -⟩
  · by_cases h2 : m < 2
    · have : m = 1 := by omega
      subst this
      simp
    · by_cases h3 : m < 19
      · simp only [if_neg h2, if_pos (show 1 < m ∧ m < 19 by omega)]
        rw [if_pos (by omega), if_neg (by omega), if_pos (by omega)]
      · have : m = 19 := by omega
        subst this
        simp [hl, bind, Except.bind]
        cases leap <;> simp
  · simp

theorem ord_ok {A : Astro} (hE : TehranEvening A) (hO : NewYearOrder (Cal.init A)) {y m d n : ℤ}
    (hd : DayNumber (Cal.init A) y m d n) : (Cal.init A).ymd2ord y m d = .ok n := by
  obtain ⟨h0, h1, hv, hn⟩ := (dayNumber_iff hE).mp hd
  have hl := init_isLeap hE h0 h1
  unfold Cal.ymd2ord
  rw [daysBeforeYear_ok hE hO h0 (by omega), pyOk_bind, daysBeforeMonth_ok hl hv, pyOk_bind]
  congr 1
  rw [hn]
  unfold daysBefore1stYear leapOf
  ring

theorem ord_first {A : Astro} (hE : TehranEvening A) (hO : NewYearOrder (Cal.init A)) {y : ℤ}
    (h0 : -1843 ≤ y) (h1 : y ≤ 1162) : (Cal.init A).ymd2ord y 1 1 = .ok (ysInt y) := by
  unfold Cal.ymd2ord
  rw [daysBeforeYear_ok hE hO h0 h1, pyOk_bind, show (Cal.init A).daysBeforeMonth y 1 = .ok 0 from rfl, pyOk_bind]
  congr 1
  unfold daysBefore1stYear
  ring

theorem ordJd_eq {n : ℤ} (h0 : -2000000 ≤ n) (h1 : n ≤ 2000000) : ordJd n = (n : ℚ) + 1721423 + 1 / 2 := by
  have c : fl (fl (ordinal1stYearEpoch - 1) - daysBefore1stYear) - 1721423.260417 ≤ 1 / 100000000 ∧
    -1 / 100000000 ≤ fl (fl (ordinal1stYearEpoch - 1) - daysBefore1stYear) - 1721423.260417 := by decide +kernel
  norm_num at c
  unfold ordJd
  simp only
  set b := fl (fl (ordinal1stYearEpoch - 1) - daysBefore1stYear)
  have n0 : (-2000000 : ℚ) ≤ n := by exact_mod_cast h0
  have n1 : (n : ℚ) ≤ 2000000 := by exact_mod_cast h1
  have e := abs_le.mp (fl_err_le (x := b + n) (B := 4194304) (by rw [abs_le]; constructor <;> linarith))
  have hf : ⌊fl (b + n)⌋ = n + 1721423 := by
    rw [Int.floor_eq_iff]; push_cast; constructor <;> linarith
  rw [hf, show ((n + 1721423 : ℤ) : ℚ) + 1 / 2 = ((2 * (n + 1721423) + 1 : ℤ) : ℚ) / 2 by push_cast; ring,
    fl_half _ (by rw [abs_le]; constructor <;> norm_num <;> omega)]
  push_cast
  ring

/-- The day that `_ord2ymd` finds, on the good days. -/
theorem ord2_ymd {A : Astro} (hE : TehranEvening A) {y m d n : ℤ} (hd : DayNumber (Cal.init A) y m d n)
    (hn : n ≤ 1096902) (hb : n + 1721423 ∉ badDays) :
    ∃ fr, 0 ≤ fr ∧ fr < 49 / 100 ∧
      (Cal.init A).badiYmdFromJd (ordJd n) tehranLat tehranLon = .ok (y, m, d, fr) := by
  obtain ⟨y0, y1, n0, n1⟩ := dayNumber_year hE hd
  have q0 := ysInt_mono (le_refl (-1843)) y0 (by omega)
  rw [ysInt_m1843] at q0
  rw [ordJd_eq (by omega) (by omega)]
  obtain ⟨sf, s0, s1⟩ := ssE_bounds hE (P := n + 1721423) (by omega) (by omega)
  obtain ⟨tf, t0, t1⟩ := ssE_bounds hE (P := n + 1721423 + 1) (by omega) (by omega)
  push_cast at s0 s1 t0 t1
  have hx : IsF64 ((n : ℚ) + 1721423 + 1 / 2) := by
    have := fl_half (2 * (n + 1721423) + 1) (by rw [abs_le]; constructor <;> norm_num <;> omega)
    have e : ((2 * (n + 1721423) + 1 : ℤ) : ℚ) / 2 = (n : ℚ) + 1721423 + 1 / 2 := by push_cast; ring
    rw [e] at this
    exact this
  have hu : (Cal.init A).utcToBadiTime ((n : ℚ) + 1721423 + 1 / 2) tehranLat tehranLon
      = .ok (ssE A (n + 1721423), (n : ℚ) + 1721423 + 1 / 2 - ssE A (n + 1721423)) := by
    rcases utc_cases hE hx (P := n + 1721423) (by omega) (by omega) (by linarith) (by linarith) with
      ⟨-, h | h⟩ | ⟨h, -⟩ | ⟨-, h, -⟩ | ⟨-, h⟩ | ⟨-, -, h⟩
    · exact absurd h hb
    · have h2 := h.2
      have := lonFracT_lo
      push_cast at h2
      linarith
    · exact h
    · linarith
    · exact absurd (by rw [h]; decide) hb
    · have := lonFracT_lo
      have h2 := abs_le.mp h
      push_cast at h2
      linarith
  refine ⟨(n : ℚ) + 1721423 + 1 / 2 - ssE A (n + 1721423), by linarith, by linarith, ?_⟩
  exact ymd_ok hE hu (civilDay_ssE (by omega) (by omega) (by push_cast; linarith) (by push_cast; linarith)) hn hd

theorem round_day {d : ℤ} {fr : ℚ} (d0 : 1 ≤ d) (d1 : d ≤ 19) (f0 : 0 ≤ fr) (f1 : fr < 49 / 100) :
    roundHalfEven (fl (d + fr)) = d := by
  have dq0 : (1 : ℚ) ≤ d := by exact_mod_cast d0
  have dq1 : (d : ℚ) ≤ 19 := by exact_mod_cast d1
  have e := abs_le.mp (fl_err_le (x := d + fr) (B := 20) (by rw [abs_le]; constructor <;> linarith))
  have hlo : (d : ℚ) ≤ fl (d + fr) := le_fl_of_le (by linarith) (isF64_int (by rw [abs_le]; constructor <;> norm_num <;> omega))
  have hf : ⌊fl (d + fr)⌋ = d := by rw [Int.floor_eq_iff]; constructor <;> linarith
  unfold roundHalfEven
  simp only [hf]
  rw [if_pos (by linarith)]

/-! ### Date objects -/

theorem isDay_short {C : Cal} {y m d n : ℤ} : IsDay C (.short y m d) n ↔ DayNumber C y m d n := Iff.rfl

theorem checkTail_of_day {A : Astro} (hE : TehranEvening A) {y m d n : ℤ}
    (hd : DayNumber (Cal.init A) y m d n) : (Cal.init A).checkTail y m d [] = .ok () := by
  obtain ⟨c, hc, d0, d1, m0, m1⟩ := dayNumber_cycle hE hd
  exact checkTail_day m0 m1 hc d0 d1

theorem dateShort_ok {A : Astro} (hE : TehranEvening A) {o : DateObj} {n : ℤ}
    (h : IsDay (Cal.init A) o n) : ∃ y m d, DayNumber (Cal.init A) y m d n ∧
      (Cal.init A).dateShort o = .ok (y, m, d) := by
  cases o with
  | short y m d => exact ⟨y, m, d, h, rfl⟩
  | long k v w m d =>
    obtain ⟨y, hden, hd⟩ := h
    refine ⟨y, m, d, hd, ?_⟩
    obtain ⟨y0, y1, -, -⟩ := dayNumber_year hE hd
    unfold Cal.dateShort
    simp only []
    rw [shortFromLong_ok false hden y0 (by omega) (checkTail_of_day hE hd) (by simp [getHms]), pyOk_bind]
    simp

theorem toOrdinal_ok {A : Astro} (hE : TehranEvening A) (hO : NewYearOrder (Cal.init A)) {o : DateObj} {n : ℤ}
    (h : IsDay (Cal.init A) o n) : (Cal.init A).toOrdinal o = .ok n := by
  obtain ⟨y, m, d, hd, e⟩ := dateShort_ok hE h
  unfold Cal.toOrdinal
  rw [e, pyOk_bind]
  exact ord_ok hE hO hd

theorem newDate_ok {A : Astro} (hE : TehranEvening A) {o : DateObj} {n : ℤ}
    (h : IsDay (Cal.init A) o n) : (Cal.init A).newDate o = .ok o := by
  cases o with
  | short y m d =>
    obtain ⟨h0, h1, hv, -⟩ := (dayNumber_iff hE).mp h
    unfold Cal.newDate
    simp only
    rw [checkShort_day (init_isLeap hE h0 h1) h0 (by omega) hv, pyOk_bind]
  | long k v w m d =>
    obtain ⟨y, hden, hd⟩ := h
    obtain ⟨h0, h1, hv, -⟩ := (dayNumber_iff hE).mp hd
    unfold Cal.newDate
    simp only
    have hk : -6 ≤ k ∧ k ≤ 5 := by
      obtain ⟨a, b, c, d, e⟩ := hden
      omega
    rw [checkLong_of_short hden hk.1 hk.2, checkTail_of_day hE hd, pyOk_bind]

theorem isDay_unique {A : Astro} (hE : TehranEvening A) {o p : DateObj} {n : ℤ}
    (ho : IsDay (Cal.init A) o n) (hp : IsDay (Cal.init A) p n) (hs : o.isShort = p.isShort) : o = p := by
  cases o with
  | short y m d =>
    cases p with
    | short y' m' d' =>
      obtain ⟨a, b, c⟩ := dayNumber_unique hE ho hp
      rw [a, b, c]
    | long => simp [DateObj.isShort] at hs
  | long k v w m d =>
    cases p with
    | short => simp [DateObj.isShort] at hs
    | long k' v' w' m' d' =>
      obtain ⟨y, h1, h2⟩ := ho
      obtain ⟨y', h1', h2'⟩ := hp
      obtain ⟨a, b, c⟩ := dayNumber_unique hE h2 h2'
      subst a b c
      unfold DenotesYear at h1 h1'
      have : k = k' := by omega
      subst this
      have : v = v' := by omega
      subst this
      have : w = w' := by omega
      subst this
      rfl

theorem isDay_day {A : Astro} (hE : TehranEvening A) {o : DateObj} {n n' : ℤ}
    (ho : IsDay (Cal.init A) o n) (hp : IsDay (Cal.init A) o n') : n = n' := by
  cases o with
  | short y m d =>
    have a := (dayNumber_iff hE).mp ho
    have b := (dayNumber_iff hE).mp hp
    rw [a.2.2.2, b.2.2.2]
  | long k v w m d =>
    obtain ⟨y, h1, h2⟩ := ho
    obtain ⟨y', h1', h2'⟩ := hp
    have : y = y' := by unfold DenotesYear at h1 h1'; omega
    subst this
    have a := (dayNumber_iff hE).mp h2
    have b := (dayNumber_iff hE).mp h2'
    rw [a.2.2.2, b.2.2.2]

theorem lostDays_bad {A : Astro} (hE : TehranEvening A) {n : ℤ} (h : n + 1721423 ∈ badDays)
    (hne : n + 1721423 ≠ 2299158) : lostDays (Cal.init A) n := by
  have : ∃ q ∈ lostTable, q.1 = n + 1721423 ∧ q.2 ∈ changeEves ++ reformDates := by
    have key : ∀ Q ∈ badDays, Q ≠ 2299158 → ∃ q ∈ lostTable, q.1 = Q ∧ q.2 ∈ changeEves ++ reformDates := by
      decide +kernel
    exact key _ h hne
  obtain ⟨q, hq, e, hm⟩ := this
  have := lostTable_day hE q hq
  rw [e, add_sub_cancel_right] at this
  exact ⟨_, _, _, this, hm⟩

theorem convertible_inv {A : Astro} (hE : TehranEvening A) {n : ℤ} (h : Convertible (Cal.init A) n) :
    -287 ≤ n ∧ n ≤ 1096902 ∧ (n + 1721423 ∉ badDays ∨ n + 1721423 = 2299158) := by
  obtain ⟨⟨a, ha, h0⟩, ⟨b, hb, h1⟩, hl⟩ := h
  rw [init_yearStart hE, if_pos (by omega)] at ha hb
  obtain rfl := Option.some.inj ha
  obtain rfl := Option.some.inj hb
  rw [ysInt_m1843] at h0
  rw [ysInt_1161] at h1
  refine ⟨h0, h1, ?_⟩
  by_cases h : n + 1721423 = 2299158
  · exact Or.inr h
  · exact Or.inl fun h' => hl (lostDays_bad hE h' h)

theorem lost_day_mem {A : Astro} (hE : TehranEvening A) {n : ℤ} (h : lostDays (Cal.init A) n) :
    n + 1721423 ∈ changeDays ∨ (2299148 ≤ n + 1721423 ∧ n + 1721423 ≤ 2299157) := by
  obtain ⟨y, m, d, hd, hm⟩ := h
  have : ∃ q ∈ lostTable, q.2 = (y, m, d) ∧ (q.1 ∈ changeDays ∨ (2299148 ≤ q.1 ∧ q.1 ≤ 2299157)) := by
    have key : ∀ p ∈ changeEves ++ reformDates, ∃ q ∈ lostTable, q.2 = p ∧
        (q.1 ∈ changeDays ∨ (2299148 ≤ q.1 ∧ q.1 ≤ 2299157)) := by decide +kernel
    exact key _ hm
  obtain ⟨q, hq, e, hc⟩ := this
  have hd' := lostTable_day hE q hq
  rw [e] at hd'
  have := isDay_day hE (o := .short y m d) hd hd'
  rw [this, sub_add_cancel]
  exact hc

/-- `_ord2ymd` in terms of the date of the day: the rounded day is right. -/
theorem ord2_round {A : Astro} (hE : TehranEvening A) {y m d n : ℤ} (hd : DayNumber (Cal.init A) y m d n)
    (hn : n ≤ 1096902) (hb : n + 1721423 ∉ badDays ∨ n + 1721423 = 2299158) :
    ∃ (d' : ℤ) (fr : ℚ), (Cal.init A).badiYmdFromJd (ordJd n) tehranLat tehranLon = .ok (y, m, d', fr) ∧
      roundHalfEven (fl (d' + fr)) = d := by
  rcases hb with hb | hb
  · obtain ⟨fr, f0, f1, hy⟩ := ord2_ymd hE hd hn hb
    obtain ⟨y0, y1, hv, -⟩ := (dayNumber_iff hE).mp hd
    have hd19 : 1 ≤ d ∧ d ≤ 19 := by
      unfold ValidMD at hv
      split_ifs at hv <;> omega
    exact ⟨d, fr, hy, round_day hd19.1 hd19.2 f0 f1⟩
  · have hn' : n = 577735 := by omega
    subst hn'
    have h1 := lostTable_day hE (2299158, -261, 11, 19) (by decide)
    norm_num at h1
    obtain ⟨rfl, rfl, rfl⟩ := dayNumber_unique hE hd h1
    have h2 := lostTable_day hE (2299149, -261, 11, 10) (by decide)
    norm_num at h2
    rw [ordJd_eq (by omega) (by omega)]
    obtain ⟨sf, s0, s1⟩ := ssE_bounds hE (P := 2299148) (by omega) (by omega)
    obtain ⟨tf, t0, t1⟩ := ssE_bounds hE (P := 2299159) (by omega) (by omega)
    push_cast at s0 s1 t0 t1
    have hx : IsF64 (((577735 : ℤ) : ℚ) + 1721423 + 1 / 2) := by unfold IsF64; decide +kernel
    have hu := utc_reform (C := Cal.init A) hE rfl hx (by norm_num) (by push_cast; linarith)
    have e1 := abs_le.mp (fl_err_le (x := ssE A 2299148 + 1) (B := 4194304) (by rw [abs_le]; constructor <;> linarith))
    set a := fl (ssE A 2299148 + 1)
    have e2 := abs_le.mp (fl_err_le (x := ((577735 : ℤ) : ℚ) + 1721423 + 1 / 2 - a) (B := 10)
      (by rw [abs_le]; push_cast; constructor <;> linarith))
    have hy := ymd_ok hE hu (n := 577726) (civilDay_ssE (by omega) (by omega) (by push_cast; linarith)
      (by push_cast; linarith)) (by omega) h2
    refine ⟨10, _, hy, ?_⟩
    set fr := fl (((577735 : ℤ) : ℚ) + 1721423 + 1 / 2 - a)
    push_cast at e2
    have e3 := abs_le.mp (fl_err_le (x := ((10 : ℤ) : ℚ) + fr) (B := 20)
      (by rw [abs_le]; push_cast; constructor <;> linarith))
    push_cast at e3 ⊢
    have hf : ⌊fl (10 + fr)⌋ = 19 := by rw [Int.floor_eq_iff]; push_cast; constructor <;> linarith
    unfold roundHalfEven
    simp only [hf]
    rw [if_pos (by push_cast; linarith)]

/-- `fromordinal` on the convertible days. -/
theorem fromOrdinal_ok {A : Astro} (hE : TehranEvening A) {n : ℤ} (hc : Convertible (Cal.init A) n)
    (short : Bool) : ∃ o, (Cal.init A).fromOrdinal n short = .ok o ∧ IsDay (Cal.init A) o n ∧
      o.isShort = short := by
  obtain ⟨n0, n1, hb⟩ := convertible_inv hE hc
  obtain ⟨y, m, d, hd⟩ := dayNumber_exists hE n0 (by omega)
  obtain ⟨d', fr, hy, hr⟩ := ord2_round hE hd n1 hb
  obtain ⟨y0, y1, hv, -⟩ := (dayNumber_iff hE).mp hd
  obtain ⟨hden, k0, k1⟩ := kvy_range y (by omega) (by omega)
  unfold Cal.fromOrdinal Cal.ord2ymd Cal.badiDateFromJd
  rw [show xorBoolean [false, false, true] = true by decide]
  simp only [pyAssert, hy, pyOk_bind, if_true, Bool.false_eq_true, if_false, hr]
  cases short with
  | true =>
    have hday : IsDay (Cal.init A) (.short y m d) n := hd
    refine ⟨.short y m d, ?_, hday, rfl⟩
    have := newDate_ok hE hday
    simpa [Cal.newDateOf, pyOk_bind] using this
  | false =>
    have hday : IsDay (Cal.init A) (.long (kvyFromYear y).1 (kvyFromYear y).2.1 (kvyFromYear y).2.2 m d) n :=
      ⟨y, hden, hd⟩
    refine ⟨_, ?_, hday, rfl⟩
    have hl := longFromShort_ok (Cal.init A) ⟨y, m, d, []⟩ true (by simp only; omega) (by simp only; omega)
    simp only at hl
    rw [checkTail_of_day hE hd, pyOk_bind] at hl
    simp only [Bool.false_eq_true, if_false]
    rw [hl, pyOk_bind, pyOk_bind]
    have hz : trimHms [(getHms []).1, (getHms []).2.1, (getHms []).2.2.1, (getHms []).2.2.2] = [] := by
      decide +kernel
    have := newDate_ok hE hday
    simp only [if_true, hz]
    simpa [Cal.newDateOf] using this

/-- The instant that `_ord2ymd` looks up, on a lost day. -/
theorem ord2ymd_lost {A : Astro} (hE : TehranEvening A) {n : ℤ} (h : lostDays (Cal.init A) n) (short : Bool) :
    (Cal.init A).ord2ymd n short = .error .value := by
  have hm := lost_day_mem hE h
  have hb : 1721100 ≤ n + 1721423 ∧ n + 1721423 ≤ 2299157 := by
    have : ∀ Q ∈ changeDays, 1721100 ≤ Q ∧ Q ≤ 2299157 := by decide
    rcases hm with hm | hm
    · exact this _ hm
    · omega
  have hx : IsF64 ((n : ℚ) + 1721423 + 1 / 2) := by
    have := fl_half (2 * (n + 1721423) + 1) (by rw [abs_le]; constructor <;> norm_num <;> omega)
    have e : ((2 * (n + 1721423) + 1 : ℤ) : ℚ) / 2 = (n : ℚ) + 1721423 + 1 / 2 := by push_cast; ring
    rw [e] at this
    exact this
  have hu : (Cal.init A).utcToBadiTime (ordJd n) tehranLat tehranLon = .error .value := by
    rw [ordJd_eq (by omega) (by omega)]
    rcases hm with hm | hm
    · obtain ⟨tf, t0, t1⟩ := ssE_bounds hE (P := n + 1721423 + 1) (by omega) (by omega)
      push_cast at t0 t1
      have hk : ∀ Q ∈ changeDays, Q < 2299147 := by decide
      have := hk _ hm
      have := utc_day (C := Cal.init A) hE rfl hx (P := n + 1721423) (by omega) (by omega) (by push_cast; linarith)
        (by linarith) (by omega) (by omega)
      rw [this, if_pos hm]
    · exact utc_err0 (hist_err (N := n + 1721423 + 1) (by push_cast; linarith) (by push_cast; linarith) (by omega))
  unfold Cal.ord2ymd Cal.badiDateFromJd
  rw [show xorBoolean [false, false, true] = true by decide]
  simp only [pyAssert, pyOk_bind, if_true]
  rw [ymd_err hu]
  rfl

theorem fromOrdinal_lost {A : Astro} (hE : TehranEvening A) {n : ℤ} (h : lostDays (Cal.init A) n) (short : Bool) :
    (Cal.init A).fromOrdinal n short = .error .value := by
  unfold Cal.fromOrdinal
  rw [ord2ymd_lost hE h]
  rfl

theorem ord2ymd_late {A : Astro} (hE : TehranEvening A) {n : ℤ} (h0 : 1096902 < n) (h1 : n ≤ 1098100)
    (short : Bool) : (Cal.init A).ord2ymd n short = .error .assertion := by
  have hx : IsF64 ((n : ℚ) + 1721423 + 1 / 2) := by
    have := fl_half (2 * (n + 1721423) + 1) (by rw [abs_le]; constructor <;> norm_num <;> omega)
    have e : ((2 * (n + 1721423) + 1 : ℤ) : ℚ) / 2 = (n : ℚ) + 1721423 + 1 / 2 := by push_cast; ring
    rw [e] at this
    exact this
  have hk : ∀ Q ∈ changeDays, Q < 2300000 := by decide
  obtain ⟨sf, s0, s1⟩ := ssE_bounds hE (P := n + 1721423) (by omega) (by omega)
  obtain ⟨tf, t0, t1⟩ := ssE_bounds hE (P := n + 1721423 + 1) (by omega) (by omega)
  push_cast at s0 s1 t0 t1
  have hu := utc_day (C := Cal.init A) hE rfl hx (P := n + 1721423) (by omega) (by omega) (by push_cast; linarith)
    (by linarith) (by omega) (by omega)
  rw [if_neg (fun h => by have := hk _ h; omega), if_neg (by linarith)] at hu
  have hl := ymd_late hE (n := n) hu (civilDay_ssE (by omega) (by omega) (by push_cast; linarith)
    (by push_cast; linarith)) (by omega)
  unfold Cal.ord2ymd Cal.badiDateFromJd
  rw [show xorBoolean [false, false, true] = true by decide]
  simp only [pyAssert, pyOk_bind, if_true]
  rw [ordJd_eq (by omega) (by omega), hl]
  rfl

theorem fromOrdinal_late {A : Astro} (hE : TehranEvening A) {n : ℤ} (h0 : 1096902 < n) (h1 : n ≤ 1097267)
    (short : Bool) : (Cal.init A).fromOrdinal n short = .error .assertion := by
  unfold Cal.fromOrdinal
  rw [ord2ymd_late hE h0 (by omega)]
  rfl

/-- In the supported range `fromordinal` returns the date of the day or fails. -/
theorem fromOrdinal_inv {A : Astro} (hE : TehranEvening A) {n : ℤ} {short : Bool} {o : DateObj} (h0 : -287 ≤ n)
    (h1 : n ≤ 1097267) (h : (Cal.init A).fromOrdinal n short = .ok o) :
    IsDay (Cal.init A) o n ∧ o.isShort = short ∧ Convertible (Cal.init A) n := by
  by_cases hn : n ≤ 1096902
  · by_cases hl : lostDays (Cal.init A) n
    · rw [fromOrdinal_lost hE hl] at h; cases h
    · have hc : Convertible (Cal.init A) n := by
        refine ⟨⟨_, by rw [init_yearStart hE, if_pos (by omega)], by rw [ysInt_m1843]; exact h0⟩,
          ⟨_, by rw [init_yearStart hE, if_pos (by omega)], by rw [ysInt_1161]; exact hn⟩, hl⟩
      obtain ⟨o', e, a, b⟩ := fromOrdinal_ok hE hc short
      rw [e] at h
      injection h with h
      subst h
      exact ⟨a, b, hc⟩
  · rw [fromOrdinal_late hE (by omega) h1] at h; cases h

end Verif
