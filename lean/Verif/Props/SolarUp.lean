import Verif.Props.SolarHigh

/-!
# C115: the sun is up from the sunrise to the sunset
-/

namespace Verif

open Real

/-- The centre of the sun is higher than 0.8333 degrees below the horizon, which is the altitude of sunrise and sunset. -/
def SunUp (jd : ℚ) (lat lon t : ℝ) : Prop := sin (-0.8333 * (π / 180)) < sinAltitude jd lat lon t

/-- It is lower. -/
def SunDown (jd : ℚ) (lat lon t : ℝ) : Prop := sinAltitude jd lat lon t < sin (-0.8333 * (π / 180))

/-- Between a moment with the sun up and one with the sun not up there is one on the horizon. -/
theorem crossing_up {jd : ℚ} {lat lon c u v : ℝ} (hu : c < sinAltitude jd lat lon u) (hv : sinAltitude jd lat lon v ≤ c) :
    ∃ t, min u v ≤ t ∧ t ≤ max u v ∧ sinAltitude jd lat lon t = c := by
  rcases hv.lt_or_eq with g | g
  · exact crossing_between hu g
  · exact ⟨v, min_le_right _ _, le_max_right _ _, g⟩

theorem crossing_down {jd : ℚ} {lat lon c u v : ℝ} (hu : sinAltitude jd lat lon u < c) (hv : c ≤ sinAltitude jd lat lon v) :
    ∃ t, min u v ≤ t ∧ t ≤ max u v ∧ sinAltitude jd lat lon t = c := by
  rcases hv.lt_or_eq with g | g
  · rw [min_comm, max_comm]
    exact crossing_between g hu
  · exact ⟨v, min_le_right _ _, le_max_right _ _, g.symm⟩

/-- C115: up to 60 degrees from the equator, on every day of the era, the sunrise found is before the sunset found; from 0.3
seconds after the one to 0.3 seconds before the other the sun is up; and from the midnight before to 0.3 seconds before the
sunrise, and from 0.3 seconds after the sunset to the next midnight, it is down. -/
theorem C115_daylight {lat lon : ℚ} (hlat : |lat| ≤ 60) (hlon : |lon| ≤ 180) {D : ℤ} (h0 : eraFirst ≤ D) (h1 : D ≤ eraLast)
    {rise set : ℝ} (hr : rise = Solar.risingSetting (localMidnight lon D) lat lon Solar.sunOffset false)
    (hs : set = Solar.risingSetting (localMidnight lon D) lat lon Solar.sunOffset true) :
    rise + clockTime 4 22 ≤ set ∧
    (∀ t, rise + 0.3 / 86400 < t → t < set - 0.3 / 86400 → SunUp (localMidnight lon D) lat lon t) ∧
    (∀ t, 0 ≤ t → t < rise - 0.3 / 86400 → SunDown (localMidnight lon D) lat lon t) ∧
    (∀ t, set + 0.3 / 86400 < t → t ≤ 1 → SunDown (localMidnight lon D) lat lon t) := by
  have hl : |(lat : ℝ)| ≤ 60 := by exact_mod_cast hlat
  have hm := localMidnight_near hlon h0 h1
  obtain ⟨s0, s1⟩ := C74_sunset_60 hlat hlon h0 h1
  obtain ⟨r0, r1⟩ := C74_sunrise_60 hlat hlon h0 h1
  obtain ⟨⟨T0, T1⟩, noon, night⟩ := Solar.noon_midnight hm hl
  rw [← sinAltitude_eq, offset_sine] at noon
  have night0 := night 0 (Or.inl rfl)
  have night1 := night 1 (Or.inr rfl)
  rw [← sinAltitude_eq, offset_sine] at night0 night1
  rw [← hr] at r0 r1
  rw [← hs] at s0 s1
  unfold clockTime at *
  push_cast at *
  have only : ∀ t, 0 ≤ t → t ≤ 1 → sinAltitude (localMidnight lon D) lat lon t = sin (-0.8333 * (π / 180)) →
      |set - t| ≤ 0.3 / 86400 ∨ |rise - t| ≤ 0.3 / 86400 := by
    intro t t0 t1 e
    rcases C75_only hlat hlon h0 h1 t0 t1 e with ⟨-, g⟩ | ⟨-, g⟩
    · exact Or.inl (by rw [hs]; exact g)
    · exact Or.inr (by rw [hr]; exact g)
  set T := Solar.transit (localMidnight lon D) lon with hT
  refine ⟨by linarith, ?_, ?_, ?_⟩
  · intro t t0 t1
    unfold SunUp
    by_contra g
    obtain ⟨c, c0, c1, e⟩ := crossing_up noon (not_lt.mp g)
    have c2 : rise + 0.3 / 86400 < c := lt_of_lt_of_le (lt_min (by linarith) t0) c0
    have c3 : c < set - 0.3 / 86400 := lt_of_le_of_lt c1 (max_lt (by linarith) t1)
    rcases only c (by linarith) (by linarith) e with q | q <;> rw [abs_le] at q <;> linarith
  · intro t t0 t1
    unfold SunDown
    by_contra g
    obtain ⟨c, c0, c1, e⟩ := crossing_down night0 (not_lt.mp g)
    rw [min_eq_left t0] at c0
    rw [max_eq_right t0] at c1
    rcases only c (by linarith) (by linarith) e with q | q <;> rw [abs_le] at q <;> linarith
  · intro t t0 t1
    unfold SunDown
    by_contra g
    obtain ⟨c, c0, c1, e⟩ := crossing_down night1 (not_lt.mp g)
    rw [min_eq_right t1] at c0
    rw [max_eq_left t1] at c1
    rcases only c (by linarith) (by linarith) e with q | q <;> rw [abs_le] at q <;> linarith

/-- At noon in London on the shortest day the sun is up, and at midnight it is down. -/
example : SunUp (localMidnight (-0.1) 2461031) (51.5 : ℚ) (-0.1 : ℚ) (1 / 2) ∧
    SunDown (localMidnight (-0.1) 2461031) (51.5 : ℚ) (-0.1 : ℚ) 0 := by
  obtain ⟨-, a, b, -⟩ := C115_daylight (lat := 51.5) (lon := -0.1) (by decide +kernel) (by decide +kernel) (D := 2461031)
    (by decide) (by decide) rfl rfl
  obtain ⟨s0, s1⟩ := C74_sunset_60 (lat := 51.5) (lon := -0.1) (by decide +kernel) (by decide +kernel) (D := 2461031)
    (by decide) (by decide)
  obtain ⟨r0, r1⟩ := C74_sunrise_60 (lat := 51.5) (lon := -0.1) (by decide +kernel) (by decide +kernel) (D := 2461031)
    (by decide) (by decide)
  unfold clockTime at s0 s1 r0 r1
  push_cast at s0 s1 r0 r1
  exact ⟨a _ (by push_cast; linarith) (by push_cast; linarith), b _ le_rfl (by push_cast; linarith)⟩

end Verif
