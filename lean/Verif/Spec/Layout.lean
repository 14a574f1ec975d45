import Mathlib.Data.Int.Notation
import Mathlib.Data.List.Basic

/-!
# Specification: the layout of the Badí' year
-/

namespace Verif

/-- The months of a year in calendar order with their lengths: months 1 to 18 of 19 days, then
Ayyám-i-Há (numbered 0) of 4 or 5 days, then month 19 of 19 days. -/
def specMonths (leap : Bool) : List (ℤ × ℕ) :=
  [(1, 19), (2, 19), (3, 19), (4, 19), (5, 19), (6, 19), (7, 19), (8, 19), (9, 19), (10, 19),
   (11, 19), (12, 19), (13, 19), (14, 19), (15, 19), (16, 19), (17, 19), (18, 19),
   (0, if leap then 5 else 4), (19, 19)]

/-- The days of a year in calendar order, as (month, day). -/
def specYear (leap : Bool) : List (ℤ × ℤ) :=
  (specMonths leap).flatMap (fun p => (List.range p.2).map (fun i : ℕ => (p.1, (i : ℤ) + 1)))

/-- (month, day) exists in the year. -/
def ValidMD (leap : Bool) (m d : ℤ) : Prop :=
  (1 ≤ m ∧ m ≤ 19 ∧ 1 ≤ d ∧ d ≤ 19) ∨ (m = 0 ∧ 1 ≤ d ∧ d ≤ if leap then 5 else 4)

/-- What the long form of a year means: 361 years to a Kull-i-Shay, 19 years to a Váḥid, all counted
from 1. -/
def DenotesYear (k v y : ℤ) (short : ℤ) : Prop :=
  1 ≤ v ∧ v ≤ 19 ∧ 1 ≤ y ∧ y ≤ 19 ∧ short = 361 * (k - 1) + 19 * (v - 1) + y

end Verif
