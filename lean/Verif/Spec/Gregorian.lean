import Mathlib.Data.Rat.Floor

/-!
# Gregorian and Julian calendar: specification

Dates as people use them, written without any reference to the code.  Years are astronomical: year
0 exists.
-/

namespace Verif

/-- Leap years of the Gregorian calendar. -/
def SpecLeapGregorian (y : ℤ) : Prop := 4 ∣ y ∧ (¬ 100 ∣ y ∨ 400 ∣ y)

instance (y : ℤ) : Decidable (SpecLeapGregorian y) := by unfold SpecLeapGregorian; infer_instance

/-- Leap years of the 128 year rule. -/
def SpecLeap128 (y : ℤ) : Prop := 4 ∣ y ∧ ¬ 128 ∣ y

instance (y : ℤ) : Decidable (SpecLeap128 y) := by unfold SpecLeap128; infer_instance

/-- Length of a month in a common or leap year. -/
def specMonthLen (leap : Prop) [Decidable leap] (m : ℤ) : ℤ :=
  if m = 2 then (if leap then 29 else 28)
  else if m = 4 ∨ m = 6 ∨ m = 9 ∨ m = 11 then 30 else 31

/-- A date of the proleptic Gregorian calendar. -/
def ValidG (y m d : ℤ) : Prop :=
  1 ≤ m ∧ m ≤ 12 ∧ 1 ≤ d ∧ d ≤ specMonthLen (SpecLeapGregorian y) m

instance (y m d : ℤ) : Decidable (ValidG y m d) := by unfold ValidG; infer_instance

/-- The day after a date of the proleptic Gregorian calendar. -/
def nextG (y m d : ℤ) : ℤ × ℤ × ℤ :=
  if d < specMonthLen (SpecLeapGregorian y) m then (y, m, d + 1)
  else if m < 12 then (y, m + 1, 1)
  else (y + 1, 1, 1)

/-- Whether a date is before the reform of 15 October 1582. -/
def BeforeReform (y m d : ℤ) : Prop := y < 1582 ∨ (y = 1582 ∧ (m < 10 ∨ (m = 10 ∧ d < 15)))

instance (y m d : ℤ) : Decidable (BeforeReform y m d) := by unfold BeforeReform; infer_instance

/-- Leap years of the calendar in use: every fourth year until 1582, Gregorian afterwards. -/
def SpecLeapHistorical (y : ℤ) : Prop := if y ≤ 1582 then 4 ∣ y else SpecLeapGregorian y

instance (y : ℤ) : Decidable (SpecLeapHistorical y) := by unfold SpecLeapHistorical; infer_instance

/-- A date of the calendar in use: Julian until 4 October 1582, Gregorian from 15 October 1582. -/
def ValidH (y m d : ℤ) : Prop :=
  1 ≤ m ∧ m ≤ 12 ∧ 1 ≤ d ∧ d ≤ specMonthLen (SpecLeapHistorical y) m ∧
    ¬ (y = 1582 ∧ m = 10 ∧ 5 ≤ d ∧ d ≤ 14)

instance (y m d : ℤ) : Decidable (ValidH y m d) := by unfold ValidH; infer_instance

/-- The day after a date of the calendar in use. -/
def nextH (y m d : ℤ) : ℤ × ℤ × ℤ :=
  if y = 1582 ∧ m = 10 ∧ d = 4 then (1582, 10, 15)
  else if d < specMonthLen (SpecLeapHistorical y) m then (y, m, d + 1)
  else if m < 12 then (y, m + 1, 1)
  else (y + 1, 1, 1)

end Verif
