/-!
# Python exceptions

A Python function that may raise is modelled by a function into `Py α = Except PyErr α`.  The
message of the exception is not modelled.
-/

namespace Verif

/-- The exception classes raised by the modelled code. -/
inductive PyErr where
  | assertion | value | type | index | key | overflow | attribute
  deriving DecidableEq, Repr

/-- Result of a Python call: a value or an exception. -/
abbrev Py (α : Type) := Except PyErr α

/-- `assert c, msg`. -/
def pyAssert (c : Bool) : Py Unit := if c then .ok () else .error .assertion

instance instDecidableEqPy {α : Type} [DecidableEq α] : DecidableEq (Py α)
  | .ok a, .ok b => if h : a = b then isTrue (by rw [h]) else isFalse (by simpa using h)
  | .error a, .error b => if h : a = b then isTrue (by rw [h]) else isFalse (by simpa using h)
  | .ok _, .error _ => isFalse (by simp)
  | .error _, .ok _ => isFalse (by simp)

end Verif
