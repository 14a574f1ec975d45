import Verif.Model.StructTime
import Verif.Props.StrpTime
import Verif.Props.DateTime
import Verif.Lemmas.Hms
import Verif.Lemmas.FromTimestamp
import Verif.Props.Timestamp

/-!
# Properties C67 and C68: time tuples and `ctime`
-/

namespace Verif

/-! ## C67 -/

/-- The tuple `t` shows the date `d`, which is on day `n`, and the clock `h`, `mi`, `s`: form and fields are those of the
date, the weekday is that of `weekday()`, and the day of the year counts from 1 on the first day of the year. -/
structure Shows (C : Cal) (t : Tup) (d : DateObj) (n h mi s : ℤ) : Prop where
  date : if t.short then d = .short t.year t.mon t.mday else d = .long t.k t.v t.year t.mon t.mday
  clock : t.hour = h ∧ t.min = mi ∧ t.sec = s
  wday : C.weekday d = .ok t.wday
  yday : ∃ y m dd, DayNumber C y m dd n ∧ C.yearStart y = some (n - t.yday + 1)

theorem structYmd_ok {A : Astro} (hE : TehranEvening A) {d : DateObj} {n h mi s : ℤ} (hd : IsDay (Cal.init A) d n)
    (h0 : 0 ≤ h) (m0 : 0 ≤ mi) (m1 : mi ≤ 59) (s0 : 0 ≤ s)
    (hc : d.isShort = true ∨ (h ≤ 23 ∧ s ≤ 59)) :
    ∃ y m dd, DayNumber (Cal.init A) y m dd n ∧ (Cal.init A).dateShort d = .ok (y, m, dd) ∧
      (Cal.init A).structYmd d h mi s = .ok (y, m, dd) := by
  obtain ⟨y, m, dd, hn, e⟩ := dateShort_ok hE hd
  refine ⟨y, m, dd, hn, e, ?_⟩
  cases d with
  | short y' m' d' => exact e
  | long k v w m' d' =>
    have hc : h ≤ 23 ∧ s ≤ 59 := by
      rcases hc with hc | hc
      · exact absurd hc (by unfold DateObj.isShort; simp)
      · exact hc
    obtain ⟨y2, hden, hd2⟩ := hd
    obtain ⟨y0, y1, hv, -⟩ := (dayNumber_iff hE).mp hd2
    obtain ⟨c, hcy, c1, c2, c3, c4⟩ := cycleOf_valid (init_isLeap hE y0 y1) hv
    have ht : (Cal.init A).checkTail y2 m' d' [(h : ℚ), (mi : ℚ), (s : ℚ)] = .ok () :=
      checkTail_hms c3 c4 hcy c1 (by omega) h0 (by omega) m0 (by omega)
        (by exact_mod_cast s0) (by exact_mod_cast (by omega : s < 60))
    have hs := shortFromLong_ok false hden y0 (by omega) ht
      (by change (h : ℚ) < 24; exact_mod_cast (by omega : h < 24))
    have hb := shortFromLong_ok false hden y0 (by omega) (checkTail_of_day hE hd2) (by simp [getHms])
    unfold Cal.dateShort at e
    simp only [] at e
    rw [hb, pyOk_bind] at e
    unfold Cal.structYmd
    simp only []
    rw [hs, pyOk_bind]
    exact e

theorem tupOf_shows (d : DateObj) (h mi s w yd : ℤ) :
    (if (tupOf d h mi s w yd).short then d = .short (tupOf d h mi s w yd).year (tupOf d h mi s w yd).mon (tupOf d h mi s w yd).mday
      else d = .long (tupOf d h mi s w yd).k (tupOf d h mi s w yd).v (tupOf d h mi s w yd).year (tupOf d h mi s w yd).mon
        (tupOf d h mi s w yd).mday) ∧
    (tupOf d h mi s w yd).hour = h ∧ (tupOf d h mi s w yd).min = mi ∧ (tupOf d h mi s w yd).sec = s ∧
    (tupOf d h mi s w yd).wday = w ∧ (tupOf d h mi s w yd).yday = yd := by
  cases d <;> simp [tupOf]

theorem buildStructTime_ok {A : Astro} (hE : TehranEvening A) (hO : NewYearOrder (Cal.init A)) {x : DT} {n : ℤ}
    (hx : IsDT (Cal.init A) x n) (hc : x.d.isShort = true ∨ OrdinaryClock x) {flag : ℤ}
    (hf : flag = -1 ∨ flag = 0 ∨ flag = 1) (z : Option TzInfo) :
    ∃ t, (Cal.init A).buildStructTime x.d x.h x.mi x.s flag z = .ok ⟨t, dstFlag flag z, z.map (fun i => tzName i.zone),
      offsetSeconds z⟩ ∧ Shows (Cal.init A) t x.d n x.h x.mi x.s := by
  obtain ⟨hd, ht⟩ := hx
  have hb := ht
  obtain ⟨a0, a1, a2, a3, a4, a5, a6, a7, -⟩ := hb
  simp only [DT.timetz] at a0 a1 a2 a3 a4 a5 a6 a7
  obtain ⟨y, m, dd, hn, e, e'⟩ := structYmd_ok (h := x.h) (mi := x.mi) (s := x.s) hE hd a0 a2 a3 a4 (by
    rcases hc with hc | hc
    · exact Or.inl hc
    · exact Or.inr hc)
  obtain ⟨y0, y1, hv, hnn⟩ := (dayNumber_iff hE).mp hn
  obtain ⟨p1, p2, p3, p4, p5, p6⟩ := tupOf_shows x.d x.h x.mi x.s ((n + 1) % 7) (dBefore (leapOf y) m + dd)
  refine ⟨tupOf x.d x.h x.mi x.s ((n + 1) % 7) (dBefore (leapOf y) m + dd), ?_, p1, ⟨p2, p3, p4⟩, ?_, ?_⟩
  · unfold Cal.buildStructTime
    rw [e', pyOk_bind]
    simp only
    rw [dayOfWeek_ok hE hO hn, pyOk_bind, daysBeforeMonth_ok (init_isLeap hE y0 y1) hv, pyOk_bind]
    unfold Cal.structTime
    have hx' : IsDT (Cal.init A) ⟨x.d, x.h, x.mi, x.s, 0, z.map (fun i => i.zone.tz), 0⟩ n :=
      ⟨hd, ⟨a0, a1, a2, a3, a4, a5, by simp [DT.timetz], by simp [DT.timetz], Or.inl rfl⟩⟩
    rw [if_neg (not_not.mpr hf), newDT_ok hE hx', pyOk_bind]
    rfl
  · unfold Cal.weekday
    rw [e, pyOk_bind]
    simp only
    rw [dayOfWeek_ok hE hO hn, p5]
  · refine ⟨y, m, dd, hn, ?_⟩
    rw [init_yearStart hE, if_pos (by omega), p6, hnn]
    congr 1
    omega

/-- C67, `timetuple()` of a datetime: the fields, weekday and day of the year are right, the name is that of the zone, the
flag is -1 or what the zone says about daylight saving, and the offset is that of the zone in seconds. Missing from the
full property: hour 24 and second 60 of the long form and an offset of zero, where it is false (below). -/
theorem C67_timetuple_partial (A : Astro) (hE : TehranEvening A) (hO : NewYearOrder (Cal.init A)) (x : DT) (n : ℤ)
    (hx : IsDT (Cal.init A) x n) (hc : x.d.isShort = true ∨ OrdinaryClock x) (z : Option TzInfo)
    (hz : x.tz = z.map (fun i => i.zone.tz)) :
    ∃ t, (Cal.init A).dtTimetuple x z = .ok t ∧ Shows (Cal.init A) t.tup x.d n x.h x.mi x.s ∧
      (x.tz = none → t.isdst = -1 ∧ t.zone = none ∧ t.gmtoff = none) ∧
      (∀ i, z = some i → t.zone = some (tzName i.zone) ∧ (i.zone.off ≠ 0 → t.gmtoff = some (fl ((i.zone.off : ℚ) / 1000000))) ∧
        t.isdst = i.dst.elim (-1) (fun d => if d = 0 then 0 else 1)) := by
  obtain ⟨t, ht, hs⟩ := buildStructTime_ok hE hO hx hc (Or.inl rfl) z
  refine ⟨_, ht, hs, ?_, ?_⟩
  · intro h
    cases z with
    | none => exact ⟨rfl, rfl, rfl⟩
    | some i => rw [h] at hz; cases hz
  · rintro i rfl
    refine ⟨rfl, fun h => ?_, ?_⟩
    · simp [offsetSeconds, h]
    · simp only [dstFlag]
      cases i.dst with
      | none => rfl
      | some d => rfl

/-- The last day of Ayyám-i-Há in the evening, in Tehran, and the next day in the long form. -/
example : IsDT (Cal.init newYearSun) (witnessDT (some badiZone.tz) 0) 739675 ∧
    (witnessDT (some badiZone.tz) 0).tz = (some (⟨badiZone, none⟩ : TzInfo)).map (fun i => i.zone.tz) ∧
    IsDT (Cal.init newYearSun) (witnessLong none) 739676 ∧ OrdinaryClock (witnessLong none) :=
  ⟨witnessDT_is _ (Or.inl rfl), rfl, witnessLong_is _, by unfold OrdinaryClock witnessLong; simp⟩

/-- C67, `timetuple()` of a date: midnight of the day, naive. -/
theorem C67_date_timetuple (A : Astro) (hE : TehranEvening A) (hO : NewYearOrder (Cal.init A)) (d : DateObj) (n : ℤ)
    (hd : IsDay (Cal.init A) d n) :
    ∃ t, (Cal.init A).dateTimetuple d = .ok t ∧ Shows (Cal.init A) t.tup d n 0 0 0 ∧ t.isdst = -1 ∧ t.zone = none ∧
      t.gmtoff = none := by
  obtain ⟨t, ht, hs⟩ := buildStructTime_ok (x := ⟨d, 0, 0, 0, 0, none, 0⟩) hE hO
    ⟨hd, ⟨by simp [DT.timetz], by simp [DT.timetz], by simp [DT.timetz], by simp [DT.timetz], by simp [DT.timetz],
      by simp [DT.timetz], by simp [DT.timetz], by simp [DT.timetz], Or.inl rfl⟩⟩
    (Or.inr ⟨by simp, by simp⟩) (Or.inl rfl) none
  exact ⟨_, ht, hs, rfl, rfl, rfl⟩

example : IsDay (Cal.init newYearSun) (.long 1 10 11 19 1) 739676 := witness_days.2

/-- C67, `utctimetuple()` of an aware datetime: it shows the UTC date and clock of the same instant, with the flag 0 and
without zone. Missing from the full property: UTC days that the library cannot produce, on which it raises (C27). -/
theorem C67_utctimetuple_partial (A : Astro) (hE : TehranEvening A) (hO : NewYearOrder (Cal.init A)) (x : DT) (n : ℤ) (z : Tz)
    (hx : IsDT (Cal.init A) x n) (hz : x.tz = some z) (ho : ValidOff z.off) (hn : z.off ≠ 0)
    (hr : Reachable (Cal.init A) ((localMicro x n - z.off) / 86400000000)) :
    ∃ t u m, (Cal.init A).utcTimetuple x = .ok t ∧ IsDT (Cal.init A) u m ∧ localMicro u m = localMicro x n - z.off ∧
      OrdinaryClock u ∧ u.d.isShort = x.d.isShort ∧ Shows (Cal.init A) t.tup u.d m u.h u.mi u.s ∧ t.isdst = 0 ∧
      t.zone = none ∧ t.gmtoff = none := by
  rw [sub_eq_add_neg] at hr ⊢
  obtain ⟨u, e, hu⟩ := dtAdd_ok hE hO hx hr
  obtain ⟨t, ht, hs⟩ := buildStructTime_ok hE hO hu.dt (Or.inr hu.clock) (flag := 0) (Or.inr (Or.inl rfl)) none
  refine ⟨⟨t, 0, none, none⟩, u, _, ?_, hu.dt, hu.micro, hu.clock, hu.form, hs, rfl, rfl, rfl⟩
  unfold Cal.utcTimetuple
  rw [hz, utcOffset_some ho, pyOk_bind]
  unfold Cal.utcOf
  simp only []
  rw [if_neg hn]
  unfold Cal.dtSubDelta
  rw [e, pyOk_bind]
  exact ht

/-- Half past eleven in the evening, three and a half hours ahead of UTC. -/
example : IsDT (Cal.init newYearSun) (witnessDT (some badiZone.tz) 0) 739675 ∧ ValidOff badiZone.tz.off ∧ badiZone.tz.off ≠ 0 ∧
    Reachable (Cal.init newYearSun) ((localMicro (witnessDT (some badiZone.tz) 0) 739675 - badiZone.tz.off) / 86400000000) :=
  ⟨witnessDT_is _ (Or.inl rfl), by unfold ValidOff badiZone Zone.tz; simp, by unfold badiZone Zone.tz; simp, by
    have : (localMicro (witnessDT (some badiZone.tz) 0) 739675 - badiZone.tz.off) / 86400000000 = 739675 := by decide
    rw [this]
    exact reachable_modern newYearSun_tehran (by omega) (by omega)⟩

/-- C67 is false for UTC: the offset is missing although the datetime is aware. -/
theorem C67_utc_offset_negation (A : Astro) (hE : TehranEvening A) (hO : NewYearOrder (Cal.init A)) (x : DT) (n : ℤ)
    (hx : IsDT (Cal.init A) x n) (hc : x.d.isShort = true ∨ OrdinaryClock x) (i : TzInfo) (h0 : i.zone.off = 0) :
    ∃ t, (Cal.init A).dtTimetuple x (some i) = .ok t ∧ t.gmtoff = none := by
  obtain ⟨t, ht, -⟩ := buildStructTime_ok hE hO hx hc (Or.inl rfl) (some i)
  refine ⟨_, ht, ?_⟩
  simp [offsetSeconds, h0]

example : IsDT (Cal.init newYearSun) (witnessDT (some utcZone.tz) 0) 739675 ∧ utcZone.off = 0 :=
  ⟨witnessDT_is _ (Or.inl rfl), rfl⟩

theorem shortFromLong_24 {A : Astro} (hE : TehranEvening A) {k v w y m d n mi s us : ℤ} (hden : DenotesYear k v w y)
    (hd : DayNumber (Cal.init A) y m (d + 1) n) (d0 : 1 ≤ d) (mi0 : 0 ≤ mi) (mi1 : mi ≤ 59) (s0 : 0 ≤ s) (s1 : s ≤ 59)
    (u0 : 0 ≤ us) (u1 : us ≤ 999999) {t : List ℚ} (g : getHms t = (((24 : ℤ) : ℚ), (mi : ℚ), (s : ℚ), (us : ℚ))) :
    (Cal.init A).shortFromLong ⟨k, v, w, m, d, t⟩ false =
      .ok ⟨y, m, ((d + 1 : ℤ) : ℚ), [((23 : ℤ) : ℚ), (mi : ℚ), (s : ℚ), (us : ℚ)]⟩ := by
  obtain ⟨y0, y1, hv, -⟩ := (dayNumber_iff hE).mp hd
  obtain ⟨c, hcy, c1, c2, c3, c4⟩ := cycleOf_valid (init_isLeap hE y0 y1) hv
  have hs : longYear k v w = y := by obtain ⟨-, -, -, -, e⟩ := hden; unfold longYear; omega
  have f1 : fl ((d : ℚ) + 1) = ((d + 1 : ℤ) : ℚ) := by
    have := fl_int (d + 1) (by
      have : d + 1 < 21 := by
        rcases hv with ⟨-, -, -, h⟩ | ⟨-, -, h⟩ <;> [omega; (split_ifs at h <;> omega)]
      rw [abs_le]; constructor <;> omega)
    push_cast at this ⊢
    exact this
  have f2 : fl ((24 : ℤ) - 1 : ℚ) = ((23 : ℤ) : ℚ) := by
    have := fl_int 23 (by norm_num)
    norm_num at this ⊢
    exact this
  have q1 : ¬ (60 : ℚ) ≤ s := by rw [not_le]; exact_mod_cast (by omega : s < 60)
  have q2 : ¬ (60 : ℚ) ≤ mi := by rw [not_le]; exact_mod_cast (by omega : mi < 60)
  have q3 : (24 : ℚ) ≤ ((24 : ℤ) : ℚ) := by norm_num
  have q4 : ¬ (((c - 1 : ℤ) : ℚ) < ((d + 1 : ℤ) : ℚ)) := by
    rw [not_lt]; exact_mod_cast (by omega : d + 1 ≤ c - 1)
  have q5 : ¬ (19 < m) := by omega
  unfold Cal.shortFromLong
  simp only [g, hs]
  rw [monthLen_of_cycle c3 c4 hcy, pyOk_bind]
  simp only [q1, q2, q3, if_false, if_true, f1, f2, q4, q5]
  have hck : (Cal.init A).checkShort ⟨y, m, ((d + 1 : ℤ) : ℚ), [((23 : ℤ) : ℚ), (mi : ℚ), (s : ℚ), (us : ℚ)]⟩ = .ok () :=
    checkShort_time (init_isLeap hE y0 y1) y0 (by omega) hv (by omega) (by omega) mi0 mi1 s0 s1 u0 (by omega)
  rw [if_neg (by simp), hck, pyOk_bind]

/-- C67 is false for hour 24 of the long form: the tuple shows the date and hour 24, but the weekday and day of the year
of the following day. -/
theorem C67_hour_24_negation (A : Astro) (hE : TehranEvening A) (hO : NewYearOrder (Cal.init A)) (k v w y m d n mi s us fold : ℤ)
    (tz : Option Tz) (hx : IsDT (Cal.init A) ⟨.long k v w m d, 24, mi, s, us, tz, fold⟩ n) (hden : DenotesYear k v w y)
    (hd : DayNumber (Cal.init A) y m (d + 1) (n + 1)) (d0 : 1 ≤ d) (hs : s ≤ 59) (z : Option TzInfo) :
    ∃ t wd, (Cal.init A).dtTimetuple ⟨.long k v w m d, 24, mi, s, us, tz, fold⟩ z = .ok t ∧ t.tup.mday = d ∧ t.tup.hour = 24 ∧
      (Cal.init A).weekday (.long k v w m d) = .ok wd ∧ t.tup.wday = (wd + 1) % 7 := by
  obtain ⟨-, ht⟩ := id hx
  obtain ⟨-, -, mi0, mi1, s0, -, -, -, -⟩ := ht
  simp only [DT.timetz] at mi0 mi1 s0
  obtain ⟨y1, m1, d1, hn1, e1⟩ := dateShort_ok hE hx.day
  obtain ⟨y0', y1', hv, hnn⟩ := (dayNumber_iff hE).mp hd
  have hx' : IsDT (Cal.init A) ⟨.long k v w m d, 24, mi, s, 0, z.map (fun i => i.zone.tz), 0⟩ n :=
    ⟨hx.day, ⟨by simp [DT.timetz], by simp [DT.timetz], mi0, mi1, s0, by simp [DT.timetz]; omega, by simp [DT.timetz],
      by simp [DT.timetz], Or.inl rfl⟩⟩
  refine ⟨⟨tupOf (.long k v w m d) 24 mi s ((n + 1 + 1) % 7) (dBefore (leapOf y) m + (d + 1)), dstFlag (-1) z,
    z.map (fun i => tzName i.zone), offsetSeconds z⟩, (n + 1) % 7, ?_, rfl, rfl, ?_, ?_⟩
  · unfold Cal.dtTimetuple Cal.buildStructTime Cal.structYmd
    simp only []
    rw [shortFromLong_24 (us := 0) hE hden hd d0 mi0 mi1 s0 hs (le_refl _) (by norm_num) (by simp [getHms]), pyOk_bind]
    simp only [Int.floor_intCast]
    rw [pyOk_bind]
    simp only []
    rw [dayOfWeek_ok hE hO hd, pyOk_bind, daysBeforeMonth_ok (init_isLeap hE y0' y1') hv, pyOk_bind]
    unfold Cal.structTime
    rw [if_neg (by simp), newDT_ok hE hx', pyOk_bind]
    rfl
  · unfold Cal.weekday
    rw [e1, pyOk_bind]
    exact dayOfWeek_ok hE hO hn1
  · change (n + 1 + 1) % 7 = ((n + 1) % 7 + 1) % 7
    omega

/-- Hour 24 of the first day of the month of fasting. -/
theorem hour24_witness : IsDT (Cal.init newYearSun) ⟨.long 1 10 11 19 1, 24, 0, 0, 0, none, 0⟩ 739676 ∧ DenotesYear 1 10 11 182 ∧
    DayNumber (Cal.init newYearSun) 182 19 (1 + 1) (739676 + 1) := by
  obtain ⟨y, hden, hd⟩ := witness_days.2
  have hy : y = 182 := by obtain ⟨-, -, -, -, e⟩ := hden; omega
  subst hy
  refine ⟨⟨witness_days.2, ⟨by simp [DT.timetz], by simp [DT.timetz], by simp [DT.timetz], by simp [DT.timetz],
    by simp [DT.timetz], by simp [DT.timetz], by simp [DT.timetz], by simp [DT.timetz], Or.inl rfl⟩⟩, hden, ?_⟩
  rw [dayNumber_iff newYearSun_tehran] at hd ⊢
  obtain ⟨a, b, hv, e⟩ := hd
  refine ⟨a, b, Or.inl ⟨by omega, by omega, by omega, by omega⟩, by omega⟩

/-! ## C68 -/

/-- The words of a text, like Python's `str.split()`: the pieces between spaces that are not empty; `w` is the piece begun. -/
def wordsFrom (w : Str) : Str → List Str
  | [] => if w = [] then [] else [w]
  | c :: r => if c = ' ' then (if w = [] then [] else [w]) ++ wordsFrom [] r else wordsFrom (w ++ [c]) r

/-- The words of a text. -/
def words (s : Str) : List Str := wordsFrom [] s

theorem wordsFrom_word {a : Str} (ha : ' ' ∉ a) (w r : Str) : wordsFrom w (a ++ r) = wordsFrom (w ++ a) r := by
  induction a generalizing w with
  | nil => simp
  | cons c a ih =>
    have hc : c ≠ ' ' := fun h => ha (by simp [h])
    have ha' : ' ' ∉ a := fun h => ha (List.mem_cons_of_mem _ h)
    rw [List.cons_append, wordsFrom, if_neg hc, ih ha']
    simp

theorem words_cons {a : Str} (ha : ' ' ∉ a) (h0 : a ≠ []) (r : Str) : words (a ++ ' ' :: r) = a :: words r := by
  unfold words
  rw [wordsFrom_word ha, List.nil_append, wordsFrom, if_pos rfl, if_neg h0]
  rfl

theorem words_space (r : Str) : words (' ' :: r) = words r := rfl

theorem words_last {a : Str} (ha : ' ' ∉ a) (h0 : a ≠ []) : words a = [a] := by
  have := wordsFrom_word ha [] []
  rw [List.append_nil] at this
  unfold words
  rw [this, List.nil_append, wordsFrom, if_neg h0]

/-- The text shows a day and a clock: the weekday's name, the month's name, the day, hour, minute and second in two
digits each, and the year, with spaces between. -/
structure CtimeShows (C : Cal) (text : Str) (d : DateObj) (n h mi s : ℤ) : Prop where
  shows : ∃ y m dd wd wn mn day a b c year, words text = [wn, mn, day, a ++ ':' :: b ++ ':' :: c, year] ∧
    DayNumber C y m dd n ∧ C.weekday d = .ok wd ∧ 0 ≤ wd ∧ (dayNames[wd.toNat]?).map String.toList = some wn ∧
    (monthNames[m.toNat]?).map String.toList = some mn ∧
    intOf day = .ok dd ∧ intOf year = .ok y ∧ a.length = 2 ∧ b.length = 2 ∧ c.length = 2 ∧
    intOf a = .ok h ∧ intOf b = .ok mi ∧ intOf c = .ok s

theorem padNat_digits (w n : ℕ) : ∃ k, 0 < k ∧ n < 10 ^ k ∧ padNat w n = digitsW k n := by
  refine ⟨max w (Nat.log 10 n + 1), by omega, ?_, rfl⟩
  exact lt_of_lt_of_le (Nat.lt_pow_succ_log_self (by norm_num) n) (Nat.pow_le_pow_right (by norm_num) (le_max_right _ _))

theorem padInt_text (w : ℕ) (n : ℤ) : ' ' ∉ padInt w n ∧ padInt w n ≠ [] ∧ intOf (padInt w n) = .ok n := by
  unfold padInt
  split_ifs with h
  · obtain ⟨k, k0, hk, e⟩ := padNat_digits (w - 1) n.natAbs
    rw [e]
    refine ⟨?_, by simp, ?_⟩
    · rw [List.mem_cons, not_or]
      exact ⟨by decide, digitsW_not_mem _ _ _ rfl⟩
    · rw [intOf_neg_digits k0 hk]
      congr 1; omega
  · obtain ⟨k, k0, hk, e⟩ := padNat_digits w n.toNat
    rw [e]
    refine ⟨digitsW_not_mem _ _ _ rfl, ?_, ?_⟩
    · intro e0
      have := digitsW_length k n.toNat
      rw [e0] at this
      simp at this; omega
    · rw [intOf_digits k0 hk]
      congr 1; omega

theorem padInt_two {n : ℤ} (h0 : 0 ≤ n) (h1 : n < 100) : (padInt 2 n).length = 2 := by
  lift n to ℕ using h0
  rw [padInt_nat (by norm_num) (by norm_num; omega), digitsW_length]

theorem dayName_facts {w : ℤ} (h0 : 0 ≤ w) (h1 : w < 7) :
    (dayNames[w.toNat]?).map String.toList = some (nameAt dayNames w) ∧ ' ' ∉ nameAt dayNames w ∧ nameAt dayNames w ≠ [] := by
  have : ∀ k : ℕ, k < 7 → (dayNames[k]?).map String.toList = some (nameAt dayNames (k : ℤ)) ∧ ' ' ∉ nameAt dayNames (k : ℤ) ∧
    nameAt dayNames (k : ℤ) ≠ [] := by decide +kernel
  lift w to ℕ using h0
  exact this w (by omega)

theorem monthName_facts {m : ℤ} (h0 : 0 ≤ m) (h1 : m ≤ 19) :
    (monthNames[m.toNat]?).map String.toList = some (nameAt monthNames m) ∧ ' ' ∉ nameAt monthNames m ∧
      nameAt monthNames m ≠ [] := by
  have : ∀ k : ℕ, k < 20 → (monthNames[k]?).map String.toList = some (nameAt monthNames (k : ℤ)) ∧ ' ' ∉ nameAt monthNames (k : ℤ) ∧
    nameAt monthNames (k : ℤ) ≠ [] := by decide +kernel
  lift m to ℕ using h0
  exact this m (by omega)

/-- The text of `ctime`. -/
def ctimeText (w m dd h mi s y : ℤ) : Str :=
  nameAt dayNames w ++ ' ' :: nameAt monthNames m ++ ' ' :: (if dd < 10 then ' ' :: padInt 1 dd else padInt 1 dd)
    ++ ' ' :: padInt 2 h ++ ':' :: padInt 2 mi ++ ':' :: padInt 2 s ++ ' ' :: padInt (if -1 < y then 4 else 5) y

theorem ctimeText_words {w m : ℤ} (w0 : 0 ≤ w) (w1 : w < 7) (m0 : 0 ≤ m) (m1 : m ≤ 19) (dd h mi s y : ℤ) :
    words (ctimeText w m dd h mi s y) = [nameAt dayNames w, nameAt monthNames m, padInt 1 dd,
      padInt 2 h ++ ':' :: padInt 2 mi ++ ':' :: padInt 2 s, padInt (if -1 < y then 4 else 5) y] := by
  obtain ⟨-, a1, a2⟩ := dayName_facts w0 w1
  obtain ⟨-, b1, b2⟩ := monthName_facts m0 m1
  obtain ⟨c1, c2, -⟩ := padInt_text 1 dd
  obtain ⟨y1, y2, -⟩ := padInt_text (if -1 < y then 4 else 5) y
  obtain ⟨h1, h2, -⟩ := padInt_text 2 h
  obtain ⟨i1, i2, -⟩ := padInt_text 2 mi
  obtain ⟨s1, s2, -⟩ := padInt_text 2 s
  have k : ∀ r, words ((if dd < 10 then ' ' :: padInt 1 dd else padInt 1 dd) ++ ' ' :: r) = padInt 1 dd :: words r := by
    intro r
    split_ifs
    · rw [List.cons_append, words_space, words_cons c1 c2]
    · rw [words_cons c1 c2]
  have hc : ' ' ∉ padInt 2 h ++ ':' :: padInt 2 mi ++ ':' :: padInt 2 s := by
    simp only [List.mem_append, List.mem_cons]
    have : ' ' ≠ ':' := by decide
    tauto
  have e : ctimeText w m dd h mi s y = nameAt dayNames w ++ ' ' :: (nameAt monthNames m ++ ' ' ::
      ((if dd < 10 then ' ' :: padInt 1 dd else padInt 1 dd) ++ ' ' :: ((padInt 2 h ++ ':' :: padInt 2 mi ++ ':' :: padInt 2 s)
        ++ ' ' :: padInt (if -1 < y then 4 else 5) y))) := by
    unfold ctimeText
    simp
  rw [e, words_cons a1 a2, words_cons b1 b2, k, words_cons hc (by simp), words_last y1 y2]

theorem ctimeText_shows {A : Astro} (hE : TehranEvening A) (hO : NewYearOrder (Cal.init A)) {d : DateObj} {n y m dd h mi s : ℤ}
    (hn : DayNumber (Cal.init A) y m dd n) (e : (Cal.init A).dateShort d = .ok (y, m, dd)) (h0 : 0 ≤ h) (h1 : h < 100)
    (i0 : 0 ≤ mi) (i1 : mi < 100) (s0 : 0 ≤ s) (s1 : s < 100) :
    CtimeShows (Cal.init A) (ctimeText ((n + 1) % 7) m dd h mi s y) d n h mi s := by
  obtain ⟨y0, y1, hv, -⟩ := (dayNumber_iff hE).mp hn
  have hm : 0 ≤ m ∧ m ≤ 19 := by rcases hv with ⟨a, b, -⟩ | ⟨a, -⟩ <;> omega
  refine ⟨⟨y, m, dd, (n + 1) % 7, _, _, _, _, _, _, _, ctimeText_words (by omega) (by omega) hm.1 hm.2 dd h mi s y, hn, ?_,
    by omega, (dayName_facts (by omega) (by omega)).1, (monthName_facts hm.1 hm.2).1, (padInt_text _ _).2.2,
    (padInt_text _ _).2.2, padInt_two h0 h1, padInt_two i0 i1, padInt_two s0 s1, (padInt_text _ _).2.2,
    (padInt_text _ _).2.2, (padInt_text _ _).2.2⟩⟩
  unfold Cal.weekday
  rw [e, pyOk_bind]
  exact dayOfWeek_ok hE hO hn

/-- C68, `date.ctime()`: every date, in both forms, is written with its weekday, month name, day and year and the clock
00:00:00. -/
theorem C68_date_ctime (A : Astro) (hE : TehranEvening A) (hO : NewYearOrder (Cal.init A)) (d : DateObj) (n : ℤ)
    (hd : IsDay (Cal.init A) d n) :
    ∃ t, (Cal.init A).dateCtime d = .ok t ∧ CtimeShows (Cal.init A) t d n 0 0 0 := by
  obtain ⟨y, m, dd, hn, e⟩ := dateShort_ok hE hd
  refine ⟨_, ?_, ctimeText_shows hE hO hn e (le_refl _) (by norm_num) (le_refl _) (by norm_num) (le_refl _) (by norm_num)⟩
  unfold Cal.dateCtime
  rw [e, pyOk_bind]
  simp only []
  rw [dayOfWeek_ok hE hO hn, pyOk_bind]
  congr 1
  have z : padInt 2 0 = "00".toList := by decide +kernel
  unfold ctimeText
  rw [z]
  simp

example : IsDay (Cal.init newYearSun) (.short 182 0 5) 739675 ∧ IsDay (Cal.init newYearSun) (.long 1 10 11 19 1) 739676 :=
  witness_days

theorem dtCtime_ok {A : Astro} (hE : TehranEvening A) (hO : NewYearOrder (Cal.init A)) {x : DT} {n : ℤ}
    (hx : IsDT (Cal.init A) x n) (hc : x.d.isShort = true ∨ OrdinaryClock x) :
    ∃ y m dd, DayNumber (Cal.init A) y m dd n ∧ (Cal.init A).dateShort x.d = .ok (y, m, dd) ∧
      (Cal.init A).dtCtime x = .ok (ctimeText ((n + 1) % 7) m dd x.h x.mi x.s y) := by
  obtain ⟨hd, ht⟩ := hx
  obtain ⟨a0, a1, a2, a3, a4, a5, a6, a7, -⟩ := ht
  simp only [DT.timetz] at a0 a1 a2 a3 a4 a5 a6 a7
  obtain ⟨y, m, dd, hn, e⟩ := dateShort_ok hE hd
  refine ⟨y, m, dd, hn, e, ?_⟩
  have hf : (Cal.init A).ctimeFields x = .ok (y, m, dd, x.h, x.mi, x.s) := by
    obtain ⟨d, h, mi, s, us, tz, fold⟩ := x
    simp only at hd hc a0 a1 a2 a3 a4 a5 a6 a7 e ⊢
    cases d with
    | short y' m' d' =>
      unfold Cal.dateShort at e
      simp only [Except.ok.injEq, Prod.mk.injEq] at e
      obtain ⟨rfl, rfl, rfl⟩ := e
      rfl
    | long k v w m' d' =>
      have hc : h ≤ 23 ∧ s ≤ 59 := by
        rcases hc with hc | hc
        · exact absurd hc (by unfold DateObj.isShort; simp)
        · exact hc
      obtain ⟨y2, hden, hd2⟩ := hd
      obtain ⟨y0, y1, hv, -⟩ := (dayNumber_iff hE).mp hd2
      obtain ⟨c, hcy, c1, c2, c3, c4⟩ := cycleOf_valid (init_isLeap hE y0 y1) hv
      have ht : (Cal.init A).checkTail y2 m' d' [(h : ℚ), (mi : ℚ), (s : ℚ), (us : ℚ)] = .ok () :=
        checkTail_hmsu c3 c4 hcy c1 (by omega) a0 (by omega) a2 (by omega) a4 (by omega) a6 (by omega)
      have hs := shortFromLong_ok false hden y0 (by omega) ht
        (by change (h : ℚ) < 24; exact_mod_cast (by omega : h < 24))
      have hb := shortFromLong_ok false hden y0 (by omega) (checkTail_of_day hE hd2) (by simp [getHms])
      unfold Cal.dateShort at e
      simp only [] at e
      rw [hb, pyOk_bind] at e
      simp only [Except.ok.injEq, Prod.mk.injEq, Int.floor_intCast] at e
      obtain ⟨rfl, rfl, rfl⟩ := e
      unfold Cal.ctimeFields
      simp only []
      rw [hs, pyOk_bind]
      simp [getHms]
  unfold Cal.dtCtime
  rw [hf, pyOk_bind]
  simp only []
  rw [dayOfWeek_ok hE hO hn, pyOk_bind]
  rfl

/-- C68, `datetime.ctime()`: it shows the day and the clock, in both forms. Missing from the full property: hour 24 and
second 60 of the long form, where it is false (below). -/
theorem C68_datetime_ctime_partial (A : Astro) (hE : TehranEvening A) (hO : NewYearOrder (Cal.init A)) (x : DT) (n : ℤ)
    (hx : IsDT (Cal.init A) x n) (hc : x.d.isShort = true ∨ OrdinaryClock x) :
    ∃ t, (Cal.init A).dtCtime x = .ok t ∧ CtimeShows (Cal.init A) t x.d n x.h x.mi x.s := by
  obtain ⟨y, m, dd, hn, e, ht⟩ := dtCtime_ok hE hO hx hc
  obtain ⟨-, a0, a1, a2, a3, a4, a5, a6, a7, -⟩ := hx
  simp only [DT.timetz] at a0 a1 a2 a3 a4 a5 a6 a7
  exact ⟨_, ht, ctimeText_shows hE hO hn e a0 (by omega) a2 (by omega) a4 (by omega)⟩

example : IsDT (Cal.init newYearSun) (witnessDT none 0) 739675 ∧ (witnessDT none 0).d.isShort = true ∧
    IsDT (Cal.init newYearSun) (witnessLong none) 739676 ∧ OrdinaryClock (witnessLong none) :=
  ⟨witnessDT_is _ (Or.inl rfl), rfl, witnessLong_is _, by unfold OrdinaryClock witnessLong; simp⟩

/-- C68, two datetimes with the same text are on the same day at the same clock up to the microsecond, whatever their
forms. -/
theorem C68_determines_partial (A : Astro) (hE : TehranEvening A) (hO : NewYearOrder (Cal.init A)) (x x' : DT) (n n' : ℤ)
    (hx : IsDT (Cal.init A) x n) (hx' : IsDT (Cal.init A) x' n') (hc : x.d.isShort = true ∨ OrdinaryClock x)
    (hc' : x'.d.isShort = true ∨ OrdinaryClock x') :
    (Cal.init A).dtCtime x = (Cal.init A).dtCtime x' ↔ n = n' ∧ x.h = x'.h ∧ x.mi = x'.mi ∧ x.s = x'.s := by
  obtain ⟨y, m, dd, hn, -, ht⟩ := dtCtime_ok hE hO hx hc
  obtain ⟨y', m', dd', hn', -, ht'⟩ := dtCtime_ok hE hO hx' hc'
  obtain ⟨y0, y1, hv, hnn⟩ := (dayNumber_iff hE).mp hn
  obtain ⟨y0', y1', hv', hnn'⟩ := (dayNumber_iff hE).mp hn'
  have hm : 0 ≤ m ∧ m ≤ 19 := by rcases hv with ⟨a, b, -⟩ | ⟨a, -⟩ <;> omega
  have hm' : 0 ≤ m' ∧ m' ≤ 19 := by rcases hv' with ⟨a, b, -⟩ | ⟨a, -⟩ <;> omega
  rw [ht, ht']
  constructor
  · intro e
    have e := congrArg words (Except.ok.inj e)
    rw [ctimeText_words (by omega) (by omega) hm.1 hm.2, ctimeText_words (by omega) (by omega) hm'.1 hm'.2] at e
    simp only [List.cons.injEq, and_true] at e
    obtain ⟨-, e1, e2, e3, e4⟩ := e
    have f : ∀ {w w' : ℕ} {a b : ℤ}, padInt w a = padInt w' b → a = b := by
      intro w w' a b h
      have h1 := (padInt_text w a).2.2
      have h2 := (padInt_text w' b).2.2
      rw [h, h2] at h1
      exact (Except.ok.inj h1).symm
    have l := hx.2
    have l' := hx'.2
    obtain ⟨a0, a1, a2, a3, a4, a5, -⟩ := l
    obtain ⟨b0, b1, b2, b3, b4, b5, -⟩ := l'
    simp only [DT.timetz] at a0 a1 a2 a3 a4 a5 b0 b1 b2 b3 b4 b5
    have g : padInt 2 x.h = padInt 2 x'.h ∧ padInt 2 x.mi = padInt 2 x'.mi ∧ padInt 2 x.s = padInt 2 x'.s := by
      rw [List.append_assoc, List.append_assoc] at e3
      obtain ⟨g1, g2⟩ := List.append_inj e3 (by rw [padInt_two a0 (by omega), padInt_two b0 (by omega)])
      simp only [List.cons_append, List.cons.injEq, true_and] at g2
      obtain ⟨g3, g4⟩ := List.append_inj g2 (by rw [padInt_two a2 (by omega), padInt_two b2 (by omega)])
      simp only [List.cons.injEq, true_and] at g4
      exact ⟨g1, g3, g4⟩
    have hmm : m = m' := by
      have inj : ∀ i : ℕ, i < 20 → ∀ j : ℕ, j < 20 → nameAt monthNames (i : ℤ) = nameAt monthNames (j : ℤ) → i = j := by
        decide +kernel
      have := inj m.toNat (by omega) m'.toNat (by omega) (by
        rw [Int.toNat_of_nonneg hm.1, Int.toNat_of_nonneg hm'.1]; exact e1)
      omega
    have hyy := f e4
    have hdd := f e2
    subst hmm hyy hdd
    exact ⟨by rw [hnn, hnn'], f g.1, f g.2.1, f g.2.2⟩
  · rintro ⟨rfl, e1, e2, e3⟩
    obtain ⟨rfl, rfl, rfl⟩ := dayNumber_unique hE hn hn'
    rw [e1, e2, e3]

/-- The same evening in the two forms. -/
example : IsDT (Cal.init newYearSun) (witnessDT none 0) 739675 ∧ (witnessDT none 0).d.isShort = true ∧
    IsDT (Cal.init newYearSun) (witnessLong none) 739676 ∧ OrdinaryClock (witnessLong none) :=
  ⟨witnessDT_is _ (Or.inl rfl), rfl, witnessLong_is _, by unfold OrdinaryClock witnessLong; simp⟩

/-- C68 is false for hour 24 of the long form: the text is that of hour 23 of the following day. -/
theorem C68_hour_24_negation (A : Astro) (hE : TehranEvening A) (k v w y m d n mi s us fold : ℤ)
    (tz : Option Tz) (hx : IsDT (Cal.init A) ⟨.long k v w m d, 24, mi, s, us, tz, fold⟩ n) (hden : DenotesYear k v w y)
    (hd : DayNumber (Cal.init A) y m (d + 1) (n + 1)) (d0 : 1 ≤ d) (hs : s ≤ 59) :
    (Cal.init A).dtCtime ⟨.long k v w m d, 24, mi, s, us, tz, fold⟩ =
      (Cal.init A).dtCtime ⟨.short y m (d + 1), 23, mi, s, us, tz, fold⟩ := by
  obtain ⟨-, -, -, mi0, mi1, s0, -, u0, u1, -⟩ := hx
  simp only [DT.timetz] at mi0 mi1 s0 u0 u1
  unfold Cal.dtCtime Cal.ctimeFields
  simp only []
  rw [shortFromLong_24 (us := us) hE hden hd d0 mi0 mi1 s0 hs u0 (by omega) (by simp [getHms]), pyOk_bind, pyOk_bind]
  simp only [Int.floor_intCast, List.getD_cons_zero, List.getD_cons_succ]
  rw [pyOk_bind]

/-- Hour 24 of the first day of the month of fasting. -/
example : IsDT (Cal.init newYearSun) ⟨.long 1 10 11 19 1, 24, 0, 0, 0, none, 0⟩ 739676 ∧ DenotesYear 1 10 11 182 ∧
    DayNumber (Cal.init newYearSun) 182 19 (1 + 1) (739676 + 1) := hour24_witness

end Verif
