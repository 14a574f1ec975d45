import Verif.Lemmas.SolarDay
import Verif.Lemmas.PosixTime
import Verif.Spec.Evening

/-!
# C74: the times of sunset and sunrise

The statements compare the exact reading of the algorithm (`Verif/Model/Solar.lean`) with clock times, and derive the
hypothesis `Evening` of the calendar theorems from the closeness of the library's floats to the exact reading.
-/

namespace Verif

/-- The moment asked for is local midnight but for the rounding. -/
theorem localMidnight_near {lon : ℚ} (hl : |lon| ≤ 180) {D : ℤ} (h0 : eraFirst ≤ D) (h1 : D ≤ eraLast) :
    Solar.AtMidnight (localMidnight lon D) (lon : ℝ) D := by
  unfold eraFirst at h0
  unfold eraLast at h1
  have a0 : (1721000 : ℚ) ≤ D := by exact_mod_cast h0
  have a1 : (D : ℚ) ≤ 2820000 := by exact_mod_cast h1
  rw [abs_le] at hl
  have e1 : |fl ((D : ℚ) - 1 / 2) - ((D : ℚ) - 1 / 2)| ≤ 1 / 2 ^ 31 := by
    refine (fl_err_pow (e := 22) ?_).trans (by decide +kernel)
    rw [show pow2 (22 + 1) = 8388608 by decide +kernel, abs_lt]
    constructor <;> linarith
  have e2 : |fl (lon / 360) - lon / 360| ≤ 1 / 2 ^ 31 := by
    refine (fl_err_pow (e := 22) ?_).trans (by decide +kernel)
    rw [show pow2 (22 + 1) = 8388608 by decide +kernel, abs_lt]
    constructor <;> linarith
  rw [abs_le] at e1 e2
  have e3 : |fl (fl ((D : ℚ) - 1 / 2) - fl (lon / 360)) - (fl ((D : ℚ) - 1 / 2) - fl (lon / 360))| ≤ 1 / 2 ^ 31 := by
    refine (fl_err_pow (e := 22) ?_).trans (by decide +kernel)
    rw [show pow2 (22 + 1) = 8388608 by decide +kernel, abs_lt]
    constructor <;> norm_num at * <;> linarith
  have q : |localMidnight lon D - (D - 1 / 2 - lon / 360)| ≤ 0.000001 := by
    unfold localMidnight
    rw [abs_le] at e3 ⊢
    constructor <;> norm_num at * <;> linarith
  refine ⟨h0, h1, ?_, ?_⟩
  · rw [abs_le]
    constructor
    · exact_mod_cast hl.1
    · exact_mod_cast hl.2
  · have q' : ((|localMidnight lon D - (D - 1 / 2 - lon / 360)| : ℚ) : ℝ) ≤ ((0.000001 : ℚ) : ℝ) := by exact_mod_cast q
    push_cast at q'
    norm_num at q' ⊢
    exact q'

/-- A clock time as a fraction of the day. -/
noncomputable def clockTime (h m : ℕ) : ℝ := (60 * h + m) / 1440

/-- C74, sunset: up to 36 degrees from the equator, on every day of the era, the algorithm puts the sunset between 16:18 and
19:50 local mean time. -/
theorem C74_sunset {lat lon : ℚ} (hlat : |lat| ≤ 36) (hlon : |lon| ≤ 180) {D : ℤ} (h0 : eraFirst ≤ D) (h1 : D ≤ eraLast) :
    clockTime 16 18 ≤ Solar.risingSetting (localMidnight lon D) lat lon Solar.sunOffset true ∧
    Solar.risingSetting (localMidnight lon D) lat lon Solar.sunOffset true ≤ clockTime 19 50 := by
  have hl : |(lat : ℝ)| ≤ 36 := by exact_mod_cast hlat
  obtain ⟨a, b⟩ := Solar.setting_bounds (localMidnight_near hlon h0 h1) hl
  unfold clockTime
  constructor <;> norm_num at * <;> linarith

/-- C74, sunrise: between 4:10 and 7:42. -/
theorem C74_sunrise {lat lon : ℚ} (hlat : |lat| ≤ 36) (hlon : |lon| ≤ 180) {D : ℤ} (h0 : eraFirst ≤ D) (h1 : D ≤ eraLast) :
    clockTime 4 10 ≤ Solar.risingSetting (localMidnight lon D) lat lon Solar.sunOffset false ∧
    Solar.risingSetting (localMidnight lon D) lat lon Solar.sunOffset false ≤ clockTime 7 42 := by
  have hl : |(lat : ℝ)| ≤ 36 := by exact_mod_cast hlat
  obtain ⟨a, b⟩ := Solar.rising_bounds (localMidnight_near hlon h0 h1) hl
  unfold clockTime
  constructor <;> norm_num at * <;> linarith

/-- The floats of the library are within ten minutes of the exact reading of its algorithm, at each local midnight. -/
def NearExact (A : Astro) (lat lon : ℚ) : Prop :=
  ∀ D : ℤ, eraFirst ≤ D → D ≤ eraLast →
    |(A.setFrac (localMidnight lon D) lat lon : ℝ) -
      Solar.risingSetting (localMidnight lon D) lat lon Solar.sunOffset true| ≤ 1 / 144

/-- C74, the hypothesis of the calendar theorems: an oracle within ten minutes of the exact reading has all its sunsets
between 16:00 and 20:00. -/
theorem C74_evening {A : Astro} {lat lon : ℚ} (hlat : |lat| ≤ 36) (hlon : |lon| ≤ 180) (hA : NearExact A lat lon) :
    Evening A lat lon := by
  intro D h0 h1
  obtain ⟨a, b⟩ := C74_sunset hlat hlon h0 h1
  have c := hA D h0 h1
  unfold sunsetTime
  unfold clockTime at a b
  rw [abs_le] at c
  have d0 : (2 / 3 : ℝ) ≤ A.setFrac (localMidnight lon D) lat lon := by norm_num at *; linarith
  have d1 : (A.setFrac (localMidnight lon D) lat lon : ℝ) ≤ 5 / 6 := by norm_num at *; linarith
  constructor
  · have : ((2 / 3 : ℚ) : ℝ) ≤ A.setFrac (localMidnight lon D) lat lon := by push_cast; exact d0
    exact_mod_cast this
  · have : (A.setFrac (localMidnight lon D) lat lon : ℝ) ≤ ((5 / 6 : ℚ) : ℝ) := by push_cast; exact d1
    exact_mod_cast this

/-- C74, the same at the reference point in Tehran. -/
theorem C74_tehran {A : Astro} (hA : NearExact A tehranLat tehranLon) : TehranEvening A :=
  C74_evening (by decide +kernel) (by decide +kernel) hA

/-- Such oracles exist: take a rational number near each exact value. -/
theorem nearExact_exists (lat lon : ℚ) : ∃ A : Astro, NearExact A lat lon := by
  have : ∀ jd la lo : ℚ, ∃ q : ℚ, |(q : ℝ) - Solar.risingSetting jd la lo Solar.sunOffset true| ≤ 1 / 144 := by
    intro jd la lo
    obtain ⟨q, hq⟩ := exists_rat_near (Solar.risingSetting jd la lo Solar.sunOffset true) (show (0 : ℝ) < 1 / 144 by norm_num)
    exact ⟨q, by rw [abs_sub_comm]; exact hq.le⟩
  choose f hf using this
  exact ⟨⟨f⟩, fun D _ _ => hf _ _ _⟩

/-- A day of the year 1 at the reference point. -/
example : clockTime 16 18 ≤ Solar.risingSetting (localMidnight tehranLon 2394647) tehranLat tehranLon Solar.sunOffset true :=
  (C74_sunset (by decide +kernel) (by decide +kernel) (by decide) (by decide)).1

example : Solar.risingSetting (localMidnight (-120) 2451545) (-33) (-120 : ℚ) Solar.sunOffset false ≤ clockTime 7 42 := by
  have := (C74_sunrise (lat := -33) (lon := -120) (by decide +kernel) (by decide +kernel) (D := 2451545) (by decide) (by decide)).2
  exact_mod_cast this

example : ∃ A : Astro, NearExact A tehranLat tehranLon ∧ TehranEvening A := by
  obtain ⟨A, hA⟩ := nearExact_exists tehranLat tehranLon
  exact ⟨A, hA, C74_tehran hA⟩

end Verif
