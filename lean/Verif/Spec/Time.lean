import Verif.Model.Time

/-!
# Specification: times of day
-/

namespace Verif

/-- A valid time of day: hours 0 to 24, seconds 0 to 60. -/
structure ValidTime (t : TimeObj) : Prop where
  h0 : 0 ≤ t.h
  h1 : t.h ≤ 24
  mi0 : 0 ≤ t.mi
  mi1 : t.mi ≤ 59
  s0 : 0 ≤ t.s
  s1 : t.s ≤ 60
  us0 : 0 ≤ t.us
  us1 : t.us ≤ 999999
  fold : t.fold = 0 ∨ t.fold = 1

/-- An offset that a zone can have: strictly between -24 and 24 hours, in microseconds. -/
def ValidOff (off : ℤ) : Prop := -86400000000 < off ∧ off < 86400000000

/-- The two zones give the same offset: both are absent, or both are present with equal offsets. -/
def SameOffset : Option Tz → Option Tz → Prop
  | none, none => True
  | some z, some w => z.off = w.off ∧ ValidOff z.off
  | _, _ => False

/-- Same hour, minute, second and microsecond. -/
def SameClock (a b : TimeObj) : Prop := a.h = b.h ∧ a.mi = b.mi ∧ a.s = b.s ∧ a.us = b.us

/-- Earlier on the clock: lexicographic order on hour, minute, second, microsecond. -/
def EarlierClock (a b : TimeObj) : Prop :=
  a.h < b.h ∨ a.h = b.h ∧ (a.mi < b.mi ∨ a.mi = b.mi ∧ (a.s < b.s ∨ a.s = b.s ∧ a.us < b.us))

/-- Microseconds from midnight UTC to the time, for a clock that is `off` ahead of UTC. -/
def utcMicro (t : TimeObj) (off : ℤ) : ℤ := t.h * 3600000000 + t.mi * 60000000 + t.s * 1000000 + t.us - off

end Verif
