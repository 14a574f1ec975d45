import Verif.Spec.Evening

/-!
# Specification: the sun at a place

`Evening` is a window of four hours, right for Tehran. A place elsewhere sees the sun set earlier or
later; all that is asked here is that it sets at all, on its local civil day.
-/

namespace Verif

/-- On every local civil day of the era at this place the sun sets within that day, a quarter
of an hour or more away from local mean midnight. -/
def SunSets (A : Astro) (lat lon : ℚ) : Prop :=
  ∀ D : ℤ, eraFirst ≤ D → D ≤ eraLast →
    1 / 100 ≤ sunsetTime A lat lon D ∧ sunsetTime A lat lon D ≤ 99 / 100

/-- The day numbers on which the difference between the two scales of Julian days grows by one. -/
def scaleChanges : List ℤ :=
  [36218, 72742, 109266, 182315, 218839, 255363, 328412, 364936, 401460, 474509, 511033, 547557]

/-- The days that are, with the two before and after and the next day's, away from these changes, from the days
left out in 1582 and from the power of two 2097152: all but 83 days of the era. -/
def OrdinaryDay (n : ℤ) : Prop :=
  (∀ c ∈ scaleChanges, n + 3 ≤ c ∨ c + 3 ≤ n) ∧ (n < 577723 ∨ 577738 ≤ n) ∧ (n < 375717 ∨ 375725 ≤ n)

instance (n : ℤ) : Decidable (OrdinaryDay n) := by unfold OrdinaryDay; infer_instance

/-- The Julian days at least five days away from the same. -/
def OrdinaryInstant (x : ℚ) : Prop :=
  (∀ c ∈ scaleChanges, x ≤ c + 1721423 - 5 ∨ c + 1721423 + 5 ≤ x) ∧ (x ≤ 2299144 ∨ 2299164 ≤ x) ∧
    (x ≤ 2097137 ∨ 2097151 ≤ x)

instance (x : ℚ) : Decidable (OrdinaryInstant x) := by unfold OrdinaryInstant; infer_instance

end Verif
