import Verif.Spec.LocalDay
import Verif.Lemmas.Place
import Verif.Props.SolarHigh
import Verif.Spec.Witness

/-!
# Property C111: `_sun_rising` and `_sun_setting` find the sunrise and the sunset of the day
-/

namespace Verif

/-- `_sun_rising` is `_sun_setting` with the other oracle. -/
theorem sunRising_eq (R : RiseAstro) (jd lat lon : ℚ) :
    sunRising R jd lat lon = ssOf ⟨R.frac⟩ lat lon (civilDay jd (fl (lon / 360))) := rfl

theorem lonFrac_err {lon : ℚ} (h0 : -180 ≤ lon) (h1 : lon ≤ 180) : |fl (lon / 360) - lon / 360| ≤ 1 / 2 ^ 53 := by
  have := fl_err_le (x := lon / 360) (B := 1) (abs_le.mpr ⟨by linarith, by linarith⟩)
  exact this

theorem localDay_iff {lon x : ℚ} {D : ℤ} : localDay lon x = D ↔ (D : ℚ) ≤ x + lon / 360 + 1 / 2 ∧ x + lon / 360 + 1 / 2 < D + 1 :=
  Int.floor_eq_iff

theorem civilDay_local {lon x : ℚ} (h0 : -180 ≤ lon) (h1 : lon ≤ 180) (d0 : eraFirst ≤ localDay lon x)
    (d1 : localDay lon x ≤ eraLast) (hm : OffMidnight lon x) : civilDay x (fl (lon / 360)) = localDay lon x := by
  obtain ⟨m0, m1⟩ := hm
  unfold localClock at m0 m1
  have e := abs_le.mp (lonFrac_err h0 h1)
  have q0 : (1721000 : ℚ) ≤ localDay lon x := by exact_mod_cast d0
  have q1 : (localDay lon x : ℚ) ≤ 2820000 := by exact_mod_cast d1
  have : (1 : ℚ) / 2 ^ 53 ≤ 1 / 1000000000 := by norm_num
  apply civilDay_eq _ _ (lonFrac_abs h0 h1) <;> linarith

/-- What a sunrise or sunset in the day is. -/
theorem ss_local {A : Astro} {lat lon : ℚ} {D : ℤ} (h0 : -180 ≤ lon) (h1 : lon ≤ 180) (d0 : eraFirst ≤ D) (d1 : D ≤ eraLast)
    (hm : 1 / 100 ≤ sunsetTime A lat lon D ∧ sunsetTime A lat lon D ≤ 99 / 100) :
    localDay lon (ssOf A lat lon D) = D ∧ OffMidnight lon (ssOf A lat lon D) ∧
      |localClock lon (ssOf A lat lon D) - sunsetTime A lat lon D| ≤ 1 / 100000000 := by
  obtain ⟨-, hs⟩ := ssOf_spec (A := A) (lat := lat) (lonFrac_abs h0 h1) d0 d1 ⟨by linarith [hm.1], by linarith [hm.2]⟩
  have hs := abs_le.mp hs
  have e := abs_le.mp (lonFrac_err h0 h1)
  have : (1 : ℚ) / 2 ^ 53 ≤ 1 / 1000000000 := by norm_num
  have hd : localDay lon (ssOf A lat lon D) = D := localDay_iff.mpr ⟨by linarith [hm.1], by linarith [hm.2]⟩
  unfold OffMidnight localClock
  rw [hd]
  refine ⟨rfl, ⟨by linarith [hm.1], by linarith [hm.2]⟩, abs_le.mpr ⟨by linarith, by linarith⟩⟩

/-- C111, the day: at every place, for every instant away from local midnight, the sunrise and the sunset found are on the
same day in local mean time as the instant, at the times of day that the algorithm gives, and the sunrise is before the
sunset. Missing from the full property: instants within two milliseconds of midnight (`C111_midnight_negation`). -/
theorem C111_day_partial (R : RiseAstro) (A : Astro) (lat lon jd : ℚ) (h0 : -180 ≤ lon) (h1 : lon ≤ 180)
    (hS : RisesAndSets R A lat lon) (d0 : eraFirst ≤ localDay lon jd) (d1 : localDay lon jd ≤ eraLast)
    (hm : OffMidnight lon jd) :
    localDay lon (sunRising R jd lat lon) = localDay lon jd ∧ localDay lon (sunSetting A jd lat lon) = localDay lon jd ∧
    sunRising R jd lat lon < sunSetting A jd lat lon ∧
    |localClock lon (sunRising R jd lat lon) - R.frac (localMidnight lon (localDay lon jd)) lat lon| ≤ 1 / 100000000 ∧
    |localClock lon (sunSetting A jd lat lon) - sunsetTime A lat lon (localDay lon jd)| ≤ 1 / 100000000 := by
  rw [sunRising_eq, sunSetting_eq, civilDay_local h0 h1 d0 d1 hm]
  obtain ⟨⟨r0, r1⟩, s0, s1⟩ := hS _ d0 d1
  obtain ⟨a1, -, a3⟩ := ss_local (A := ⟨R.frac⟩) (lat := lat) h0 h1 d0 d1
    (show 1 / 100 ≤ R.frac (localMidnight lon _) lat lon ∧ R.frac (localMidnight lon _) lat lon ≤ 99 / 100 from ⟨r0, by linarith⟩)
  obtain ⟨b1, -, b3⟩ := ss_local (A := A) (lat := lat) h0 h1 d0 d1 ⟨by linarith, s1⟩
  refine ⟨a1, b1, ?_, a3, b3⟩
  have a4 := abs_le.mp a3
  have b4 := abs_le.mp b3
  unfold localClock at a4 b4
  rw [a1] at a4
  rw [b1] at b4
  change _ ∧ _ ≤ _ at a4
  have : sunsetTime ⟨R.frac⟩ lat lon (localDay lon jd) = R.frac (localMidnight lon (localDay lon jd)) lat lon := rfl
  rw [this] at a4
  linarith [a4.2, b4.1]

/-- C111, no dependence on the time of day: two instants of the same day have the same sunrise and the same sunset; so the
sunrise of a sunset is the sunrise of that day, and the sunset of a sunset is that sunset again. -/
theorem C111_same_day_partial (R : RiseAstro) (A : Astro) (lat lon x y : ℚ) (h0 : -180 ≤ lon) (h1 : lon ≤ 180)
    (hS : RisesAndSets R A lat lon) (d0 : eraFirst ≤ localDay lon x) (d1 : localDay lon x ≤ eraLast)
    (hx : OffMidnight lon x) (hy : OffMidnight lon y) (hxy : localDay lon x = localDay lon y) :
    sunRising R x lat lon = sunRising R y lat lon ∧ sunSetting A x lat lon = sunSetting A y lat lon ∧
    sunRising R (sunSetting A x lat lon) lat lon = sunRising R x lat lon ∧
    sunRising R (sunRising R x lat lon) lat lon = sunRising R x lat lon ∧
    sunSetting A (sunRising R x lat lon) lat lon = sunSetting A x lat lon ∧
    sunSetting A (sunSetting A x lat lon) lat lon = sunSetting A x lat lon := by
  have key : ∀ z w, localDay lon z = localDay lon w → eraFirst ≤ localDay lon z → localDay lon z ≤ eraLast →
      OffMidnight lon z → OffMidnight lon w →
      sunRising R z lat lon = sunRising R w lat lon ∧ sunSetting A z lat lon = sunSetting A w lat lon := by
    intro z w hzw z0 z1 hz hw
    rw [sunRising_eq, sunRising_eq, sunSetting_eq, sunSetting_eq, civilDay_local h0 h1 z0 z1 hz,
      civilDay_local h0 h1 (hzw ▸ z0) (hzw ▸ z1) hw, hzw]
    exact ⟨rfl, rfl⟩
  obtain ⟨a1, a2, -, -, -⟩ := C111_day_partial R A lat lon x h0 h1 hS d0 d1 hx
  obtain ⟨⟨r0, r1⟩, s0, s1⟩ := hS _ d0 d1
  have o1 : OffMidnight lon (sunRising R x lat lon) := by
    rw [sunRising_eq, civilDay_local h0 h1 d0 d1 hx]
    exact (ss_local (A := ⟨R.frac⟩) (lat := lat) h0 h1 d0 d1
      (show 1 / 100 ≤ R.frac (localMidnight lon _) lat lon ∧ R.frac (localMidnight lon _) lat lon ≤ 99 / 100 from
        ⟨r0, by linarith⟩)).2.1
  have o2 : OffMidnight lon (sunSetting A x lat lon) := by
    rw [sunSetting_eq, civilDay_local h0 h1 d0 d1 hx]
    exact (ss_local (A := A) (lat := lat) h0 h1 d0 d1 ⟨by linarith, s1⟩).2.1
  obtain ⟨c1, c2⟩ := key x y hxy d0 d1 hx hy
  obtain ⟨e1, e2⟩ := key _ x a2 (a2 ▸ d0) (a2 ▸ d1) o2 hx
  obtain ⟨f1, f2⟩ := key _ x a1 (a1 ▸ d0) (a1 ▸ d1) o1 hx
  exact ⟨c1, c2, e1, f1, f2, e2⟩

/-- C111, the next day: sunrises and sunsets of different days come in the order of the days. -/
theorem C111_order_partial (R : RiseAstro) (A : Astro) (lat lon x y : ℚ) (h0 : -180 ≤ lon) (h1 : lon ≤ 180)
    (hS : RisesAndSets R A lat lon) (d0 : eraFirst ≤ localDay lon x) (d1 : localDay lon y ≤ eraLast)
    (hx : OffMidnight lon x) (hy : OffMidnight lon y) (hxy : localDay lon x < localDay lon y) :
    sunSetting A x lat lon < sunRising R y lat lon := by
  obtain ⟨-, a2, -, -, -⟩ := C111_day_partial R A lat lon x h0 h1 hS d0 (by omega) hx
  obtain ⟨b1, -, -, -, -⟩ := C111_day_partial R A lat lon y h0 h1 hS (by omega) d1 hy
  have a3 := (localDay_iff.mp a2).2
  have b3 := (localDay_iff.mp b1).1
  have : ((localDay lon x : ℚ)) + 1 ≤ localDay lon y := by exact_mod_cast hxy
  linarith

/-- The floats of sunrise are within ten minutes of the exact reading of the algorithm, at each local midnight. -/
def RiseNearExact (R : RiseAstro) (lat lon : ℚ) : Prop :=
  ∀ D : ℤ, eraFirst ≤ D → D ≤ eraLast →
    |(R.frac (localMidnight lon D) lat lon : ℝ) -
      Solar.risingSetting (localMidnight lon D) lat lon Solar.sunOffset false| ≤ 1 / 144

/-- C111, the hypothesis: up to 60 degrees from the equator, oracles within ten minutes of the exact reading of the algorithm
have all sunrises in the morning and all sunsets in the afternoon. -/
theorem C111_hypothesis (R : RiseAstro) (A : Astro) {lat lon : ℚ} (hlat : |lat| ≤ 60) (hlon : |lon| ≤ 180)
    (hR : RiseNearExact R lat lon) (hA : NearExact A lat lon) : RisesAndSets R A lat lon := by
  intro D h0 h1
  obtain ⟨s0, s1⟩ := C74_sunsets_60 hlat hlon hA
  refine ⟨?_, by linarith [s1 D h0 h1], (s0 D h0 h1).2⟩
  obtain ⟨a, b⟩ := C74_sunrise_60 hlat hlon h0 h1
  have c := abs_le.mp (hR D h0 h1)
  unfold clockTime at a b
  have d0 : ((1 / 100 : ℚ) : ℝ) ≤ R.frac (localMidnight lon D) lat lon := by norm_num at a b c ⊢; linarith [c.1]
  have d1 : (R.frac (localMidnight lon D) lat lon : ℝ) ≤ ((49 / 100 : ℚ) : ℝ) := by norm_num at a b c ⊢; linarith [c.2]
  exact ⟨by exact_mod_cast d0, by exact_mod_cast d1⟩

theorem riseNearExact_exists (lat lon : ℚ) : ∃ R : RiseAstro, RiseNearExact R lat lon := by
  have : ∀ jd la lo : ℚ, ∃ q : ℚ, |(q : ℝ) - Solar.risingSetting jd la lo Solar.sunOffset false| ≤ 1 / 144 := by
    intro jd la lo
    obtain ⟨q, hq⟩ := exists_rat_near (Solar.risingSetting jd la lo Solar.sunOffset false) (show (0 : ℝ) < 1 / 144 by norm_num)
    exact ⟨q, by rw [abs_sub_comm]; exact hq.le⟩
  choose f hf using this
  exact ⟨⟨f⟩, fun D _ _ => hf _ _ _⟩

/-- C111 is false within two milliseconds of midnight: in Tehran, whatever the sunsets, at the last instant of a day (a
hundredth of a millisecond before midnight, on 24 February 2023) the sunset found is that of the next day. The longitude
divided by 360 and the sum with the instant are rounded, and the sum reaches midnight. -/
theorem C111_midnight_negation (A : Astro) (hE : TehranEvening A) : ∃ jd : ℚ, IsF64 jd ∧
    localDay tehranLon (sunSetting A jd tehranLat tehranLon) = localDay tehranLon jd + 1 := by
  refine ⟨5282810541872805 / 2147483648, by unfold IsF64; decide +kernel, ?_⟩
  have c : civilDay (5282810541872805 / 2147483648) (fl (tehranLon / 360)) = 2460001 := by decide +kernel
  have d : localDay tehranLon (5282810541872805 / 2147483648) = 2460000 := by decide +kernel
  obtain ⟨s0, s1⟩ := hE 2460001 (by decide) (by decide)
  rw [sunSetting_eq, c, d, (ss_local (by decide +kernel) (by decide +kernel) (by decide) (by decide)
    ⟨by linarith, by linarith⟩).1]
  norm_num

/-! ## The hypotheses are met -/

/-- Sunrise at six and sunset at six, every day. -/
theorem sixSix (lat lon : ℚ) : RisesAndSets ⟨fun _ _ _ => 1 / 4⟩ sixPm lat lon := by
  intro D _ _
  norm_num [sunsetTime, sixPm]

/-- 24 February 2023, in New York. -/
example : OffMidnight (-74) 2460000 ∧ localDay (-74) 2460000 = 2460000 ∧
    localDay (-74) (sunRising ⟨fun _ _ _ => 1 / 4⟩ 2460000 40 (-74)) = 2460000 := by
  have o : OffMidnight (-74) 2460000 := by unfold OffMidnight; decide +kernel
  have d : localDay (-74) 2460000 = 2460000 := by decide +kernel
  refine ⟨o, d, ?_⟩
  have := (C111_day_partial _ _ 40 (-74) 2460000 (by norm_num) (by norm_num) (sixSix 40 (-74)) (by rw [d]; decide)
    (by rw [d]; decide) o).1
  rw [this, d]

/-- The morning and the evening of that day. -/
example : sunSetting sixPm (2460000 - 1 / 8) 40 (-74) = sunSetting sixPm (2460000 + 1 / 4) 40 (-74) :=
  (C111_same_day_partial _ _ 40 (-74) _ _ (by norm_num) (by norm_num) (sixSix 40 (-74)) (by decide +kernel) (by decide +kernel)
    (by unfold OffMidnight; decide +kernel) (by unfold OffMidnight; decide +kernel) (by decide +kernel)).2.1

/-- That day and the next. -/
example : sunSetting sixPm 2460000 40 (-74) < sunRising ⟨fun _ _ _ => 1 / 4⟩ 2460001 40 (-74) :=
  C111_order_partial _ _ 40 (-74) _ _ (by norm_num) (by norm_num) (sixSix 40 (-74)) (by decide +kernel) (by decide +kernel)
    (by unfold OffMidnight; decide +kernel) (by unfold OffMidnight; decide +kernel) (by decide +kernel)

/-- Some oracles meet the hypothesis in London. -/
example : ∃ (R : RiseAstro) (A : Astro), RisesAndSets R A 51.5 (-0.1) := by
  obtain ⟨R, hR⟩ := riseNearExact_exists 51.5 (-0.1)
  obtain ⟨A, hA⟩ := nearExact_exists 51.5 (-0.1)
  exact ⟨R, A, C111_hypothesis R A (by decide +kernel) (by decide +kernel) hR hA⟩

example : ∃ jd : ℚ, localDay tehranLon (sunSetting sixPm jd tehranLat tehranLon) = localDay tehranLon jd + 1 := by
  obtain ⟨jd, -, h⟩ := C111_midnight_negation sixPm sixPm_tehran
  exact ⟨jd, h⟩

end Verif
