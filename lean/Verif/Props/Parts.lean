import Verif.Model.Conversion
import Verif.Props.DateTime
import Verif.Props.Timestamp
import Verif.Lemmas.BadiJd

/-!
# Properties C60 and C61: timestamps of aware datetimes, and the parts of a datetime
-/

namespace Verif

/-! ## C60 -/

theorem epoch_isDT {A : Astro} (hE : TehranEvening A) (u : Tz) : IsDT (Cal.init A) (epochDT u) 719162 := by
  refine ⟨?_, ?_⟩
  · show DayNumber (Cal.init A) 126 16 2 719162
    refine (dayNumber_iff hE).mpr ⟨by omega, by omega, Or.inl ⟨by omega, by omega, by omega, by omega⟩, ?_⟩
    rw [show ysInt 126 = 718876 by decide +kernel, show dBefore (leapOf 126) 16 = 285 by decide +kernel]
    norm_num
  · constructor <;> simp [DT.timetz, epochDT]

theorem aware_value {A : Astro} (hE : TehranEvening A) (hO : NewYearOrder (Cal.init A)) {x : DT} {n : ℤ} {z u : Tz}
    (hx : IsDT (Cal.init A) x n) (hz : x.tz = some z) (vz : ValidOff z.off) (hu : u.off = 0) :
    (Cal.init A).awareTimestampUs x u = .ok (localMicro x n - z.off - 62135625572492400) := by
  unfold Cal.awareTimestampUs
  rw [dtSubBase hE hO hx (epoch_isDT hE u), dtSubOff_tz hz (w := u) rfl vz (by rw [hu]; unfold ValidOff; omega), hu]
  congr 1
  unfold localMicro epochDT
  simp only
  ring

/-- C60, value: on a short or long form aware datetime, `timestamp()` counts 86400 seconds for each day, the clock, minus
the offset, from 7:59:32.492400 of day 719162, that is (126, 16, 2); the epoch itself has timestamp zero. `u` is
`timezone.utc`. -/
theorem C60_aware_value (A : Astro) (hE : TehranEvening A) (hO : NewYearOrder (Cal.init A)) (x : DT) (n : ℤ) (z u : Tz)
    (hx : IsDT (Cal.init A) x n) (hz : x.tz = some z) (vz : ValidOff z.off) (hu : u.off = 0) :
    ∃ t : ℤ, (Cal.init A).awareTimestampUs x u = .ok t ∧
      t = ((n - 719162) * 86400 + (x.h * 3600 + x.mi * 60 + x.s) - (7 * 3600 + 59 * 60 + 32)) * 1000000 + x.us - 492400
        - z.off ∧
      (Cal.init A).awareTimestampUs ⟨.short 126 16 2, 7, 59, 32, 492400, some u, 0⟩ u = .ok 0 := by
  refine ⟨_, aware_value hE hO hx hz vz hu, ?_, ?_⟩
  · unfold localMicro
    ring
  · have := aware_value hE hO (epoch_isDT hE u) (z := u) rfl (by rw [hu]; unfold ValidOff; omega) hu
    rw [show epochDT u = ⟨.short 126 16 2, 7, 59, 32, 492400, some u, 0⟩ from rfl] at this
    rw [this, hu]
    congr 1

example : IsDT (Cal.init newYearSun) (witnessDT (some ⟨1, 12600000000⟩) 1) 739675 ∧ ValidOff 12600000000 :=
  ⟨witnessDT_is _ (Or.inr rfl), by unfold ValidOff; omega⟩

/-- C60, differences: the timestamps of two aware datetimes differ by their difference, whatever their zones and
forms. -/
theorem C60_difference (A : Astro) (hE : TehranEvening A) (hO : NewYearOrder (Cal.init A)) (x y : DT) (n m : ℤ)
    (z w u : Tz) (hx : IsDT (Cal.init A) x n) (hy : IsDT (Cal.init A) y m) (hz : x.tz = some z) (hw : y.tz = some w)
    (vz : ValidOff z.off) (vw : ValidOff w.off) (hu : u.off = 0) :
    ∃ s t d : ℤ, (Cal.init A).awareTimestampUs x u = .ok s ∧ (Cal.init A).awareTimestampUs y u = .ok t ∧
      (Cal.init A).dtSub x y = .ok d ∧ s - t = d := by
  refine ⟨_, _, localMicro x n - localMicro y m + w.off - z.off, aware_value hE hO hx hz vz hu,
    aware_value hE hO hy hw vw hu, ?_, ?_⟩
  · rw [dtSubBase hE hO hx hy, dtSubOff_tz hz hw vz vw]
  · ring

example : IsDT (Cal.init newYearSun) (witnessDT (some ⟨1, 12600000000⟩) 1) 739675 ∧
    IsDT (Cal.init newYearSun) (witnessDT (some ⟨2, -3600000000⟩) 0) 739675 :=
  ⟨witnessDT_is _ (Or.inr rfl), witnessDT_is _ (Or.inl rfl)⟩

/-- C60, same instant: false. The timestamp of an aware datetime and of the naive one with the same fields, at the
location of the zone, differ by the time of sunset: the aware one takes every day to start at one moment of the UTC
day. `f` is the time of sunset in Tehran on that date, in seconds after noon UTC; 14427.5076 seconds after noon, that is
16:00:27.5, is the time of sunset at Greenwich before 1 January 1970. -/
theorem C60_naive_gap_negation (A : Astro) (hE : TehranEvening A) (hO : NewYearOrder (Cal.init A)) (y m d n : ℤ)
    (hd : DayNumber (Cal.init A) y m d n) (hb : ¬ LostDate y m d) (h mi s : ℤ) (z u : Tz)
    (h0 : 0 ≤ h) (h1 : h ≤ 24) (mi0 : 0 ≤ mi) (mi1 : mi ≤ 59) (s0 : 0 ≤ s) (s1 : s ≤ 59)
    (vz : ValidOff z.off) (hu : u.off = 0) :
    ∃ (j t : ℚ) (a : ℤ), (Cal.init A).jdFromBadiDate ⟨y, m, d, []⟩ tehranLat tehranLon = .ok j ∧
      (Cal.init A).naiveTimestamp ⟨.short y m d, h, mi, s, 0, none, 0⟩ tehranLat tehranLon = .ok t ∧
      (Cal.init A).awareTimestampUs ⟨.short y m d, h, mi, s, 0, some z, 0⟩ u = .ok a ∧
      |((a : ℚ) / 1000000 - t) - (14427.5076 - (86400 * (j - (n + 1721423)) + z.off / 1000000))| ≤ 1 / 1000 := by
  have hb' : n + 1721423 ∉ badDays := notin_badDays hE hd (by unfold LostDate at hb; tauto)
    (by unfold LostDate at hb; tauto) (by unfold LostDate at hb; tauto)
  obtain ⟨j, t, ej, et, he⟩ := timestamp_value hE hd hb' (rest := []) h0 h1 mi0 mi1 s0 s1 (le_refl (0 : ℤ))
    (by omega) (le_refl (0 : ℤ)) (by omega)
  have hx : IsDT (Cal.init A) ⟨.short y m d, h, mi, s, 0, some z, 0⟩ n :=
    ⟨hd, h0, h1, mi0, by show mi ≤ 59; omega, s0, by show s ≤ 60; omega, le_refl _, by show (0 : ℤ) ≤ 999999; omega,
      Or.inl rfl⟩
  refine ⟨j, t, _, ej, et, aware_value hE hO hx rfl vz hu, ?_⟩
  unfold localMicro
  have he := abs_le.mp he
  push_cast
  norm_num at he ⊢
  rw [abs_le]
  constructor <;> linarith

example : DayNumber (Cal.init newYearSun) 182 0 5 739675 ∧ ¬ LostDate 182 0 5 ∧ ValidOff 12600000000 :=
  ⟨witness_days.1, by unfold LostDate; decide, by unfold ValidOff; omega⟩

/-- With sunset at six in the evening the two timestamps are more than two hours apart. -/
theorem C60_two_hours_negation :
    ∃ (t : ℚ) (a : ℤ),
      (Cal.init sixPm).naiveTimestamp ⟨.short 182 5 7, 0, 0, 0, 0, none, 0⟩ tehranLat tehranLon = .ok t ∧
      (Cal.init sixPm).awareTimestampUs ⟨.short 182 5 7, 0, 0, 0, 0, some ⟨1, 12600000000⟩, 0⟩ ⟨0, 0⟩ = .ok a ∧
      7200 < t - a / 1000000 :=
  ⟨1834462416167761 / 1048576, 1749472227507600, by decide +kernel, by decide +kernel, by norm_num⟩

/-! ## C61 -/

/-- C61 for the short form: the parts of a datetime are its date and its time, and `combine` puts them together
again. -/
theorem C61_short_partial (A : Astro) (hE : TehranEvening A) (x : DT) (n : ℤ) (hx : IsDT (Cal.init A) x n)
    (hs : x.d.isShort = true) :
    (Cal.init A).dtDate x = .ok x.d ∧ dtTimetz x = .ok ⟨x.h, x.mi, x.s, x.us, x.tz, x.fold⟩ ∧
      dtTime x = .ok ⟨x.h, x.mi, x.s, x.us, none, x.fold⟩ ∧
      (Cal.init A).combine x.d ⟨x.h, x.mi, x.s, x.us, x.tz, x.fold⟩ = .ok x := by
  have hd := hx.day
  have ht := hx.time
  refine ⟨?_, newTime_ok ht, newTime_ok (t := ⟨x.h, x.mi, x.s, x.us, none, x.fold⟩) ⟨ht.1, ht.2, ht.3, ht.4, ht.5,
    ht.6, ht.7, ht.8, ht.9⟩, newDT_ok hE hx⟩
  unfold Cal.dtDate
  cases hxd : x.d with
  | long k v w m d => rw [hxd] at hs; cases hs
  | short y m d =>
    rw [hxd] at hd
    exact newDate_ok hE (n := n) hd

example : IsDT (Cal.init newYearSun) (witnessDT (some ⟨1, 12600000000⟩) 1) 739675 ∧
    (witnessDT (some ⟨1, 12600000000⟩) 1).d.isShort = true := ⟨witnessDT_is _ (Or.inr rfl), rfl⟩

/-- C61, the other way: a date (of either form) and a time combined. The time is got back; so is a short form date. -/
theorem C61_combine (A : Astro) (hE : TehranEvening A) (o : DateObj) (t : TimeObj) (n : ℤ) (ho : IsDay (Cal.init A) o n)
    (ht : ValidTime t) :
    ∃ x, (Cal.init A).combine o t = .ok x ∧ x.d = o ∧ dtTimetz x = .ok t ∧
      (o.isShort = true → (Cal.init A).dtDate x = .ok o) := by
  have hx : IsDT (Cal.init A) ⟨o, t.h, t.mi, t.s, t.us, t.tz, t.fold⟩ n := ⟨ho, ht⟩
  exact ⟨_, newDT_ok hE hx, rfl, newTime_ok ht, fun hs => (C61_short_partial A hE _ n hx hs).1⟩

example : IsDay (Cal.init newYearSun) (.short 182 0 5) 739675 ∧ ValidTime ⟨24, 0, 0, 0, none, 1⟩ :=
  ⟨witness_days.1, ⟨by decide, by decide, by decide, by decide, by decide, by decide, by decide, by decide, Or.inr rfl⟩⟩

/-- C61 is false for the long form: `date()` forgets the Kull-i-Shay and the Váḥid, so the date it returns is a short form
date in one of the years 1 to 19; unless both are 1, it is another day. -/
theorem C61_long_negation (A : Astro) (hE : TehranEvening A) (k v w m d h mi s us fold n y : ℤ) (tz : Option Tz) (o : DateObj)
    (hy : DenotesYear k v w y) (hd : DayNumber (Cal.init A) y m d n) (hne : ¬ (k = 1 ∧ v = 1))
    (ho : (Cal.init A).dtDate ⟨.long k v w m d, h, mi, s, us, tz, fold⟩ = .ok o) :
    o = .short w m d ∧ ∀ n', IsDay (Cal.init A) o n' → n' ≠ n := by
  have e : o = .short w m d := by
    unfold Cal.dtDate Cal.newDate at ho
    simp only [DateObj.ymd] at ho
    cases hc : (Cal.init A).checkShort ⟨w, m, (d : ℚ), []⟩ with
    | error e => rw [hc, pyErr_bind] at ho; cases ho
    | ok b => rw [hc, pyOk_bind] at ho; injection ho with ho; exact ho.symm
  subst e
  have hyw : y ≠ w := by
    obtain ⟨a1, a2, a3, a4, a5⟩ := hy
    omega
  refine ⟨rfl, fun n' hn' hnn => hyw ?_⟩
  subst hnn
  exact (dayNumber_unique hE hd hn').1

/-- The date part of (1, 10, 11, 5, 7), of the year 182, is in the year 11. -/
example : DenotesYear 1 10 11 182 ∧
    (Cal.init sixPm).dtDate ⟨.long 1 10 11 5 7, 12, 0, 0, 0, none, 0⟩ = .ok (.short 11 5 7) :=
  ⟨by unfold DenotesYear; omega, by decide +kernel⟩

end Verif
