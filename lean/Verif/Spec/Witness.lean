import Verif.Spec.Evening

/-!
# Witness sunset functions

Concrete sunset functions used to show that the hypotheses of the theorems can be met.
-/

namespace Verif

/-- The sun sets at 18:00 local mean time every day. -/
def sixPm : Astro := ⟨fun _ _ _ => 3 / 4⟩

theorem sixPm_evening (lat lon : ℚ) : Evening sixPm lat lon := by
  intro D _ _
  constructor <;> norm_num [sunsetTime, sixPm]

theorem sixPm_tehran : TehranEvening sixPm := sixPm_evening _ _

end Verif
