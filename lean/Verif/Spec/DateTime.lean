import Verif.Spec.Date
import Verif.Spec.Time
import Verif.Model.DateTime

/-!
# Specification: points in time
-/

namespace Verif

/-- The clock fields, zone and fold of a datetime. -/
def DT.timetz (x : DT) : TimeObj := ⟨x.h, x.mi, x.s, x.us, x.tz, x.fold⟩

/-- A datetime on day `n` with a valid time of day. -/
structure IsDT (C : Cal) (x : DT) (n : ℤ) : Prop where
  day : IsDay C x.d n
  time : ValidTime x.timetz

/-- Microseconds on the local time line: 86400 seconds for each day, plus the clock. -/
def localMicro (x : DT) (n : ℤ) : ℤ :=
  n * 86400000000 + x.h * 3600000000 + x.mi * 60000000 + x.s * 1000000 + x.us

/-- A clock between 00:00:00 and 23:59:59.999999: not hour 24 and not second 60. -/
def OrdinaryClock (x : DT) : Prop := x.h ≤ 23 ∧ x.s ≤ 59

/-- Datetimes with the same date and the same clock. -/
def SameFields (x y : DT) : Prop := x.d = y.d ∧ x.h = y.h ∧ x.mi = y.mi ∧ x.s = y.s ∧ x.us = y.us

end Verif
