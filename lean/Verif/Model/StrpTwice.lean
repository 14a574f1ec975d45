import Verif.Model.StrpTime

/-!
# Model of `strptime` with directives that come twice

From `badidatetime/_strptime.py`.
-/

namespace Verif

/-- What a call of `strptime` comes to: an object, one of the exceptions of Python, or an exception of the module `re`,
which is none of them. -/
inductive StrpOut where
  | ok (x : DT)
  | err (e : PyErr)
  | reError
  deriving DecidableEq

/-- The names of the groups of the pattern, in order (lines 215-242): each directive makes one group with its letter as the
name. -/
def groupNames : List Piece → List Char
  | [] => []
  | .dir c :: ps => c :: groupNames ps
  | _ :: ps => groupNames ps

/-- The outcome of the model without exceptions of `re`. -/
def StrpOut.of : Py DT → StrpOut
  | .ok x => .ok x
  | .error e => .err e

/-- `datetime.strptime(s, fmt)` with the compilation of the pattern (`TimeRE.compile`, lines 294-298, called at line 408):
`re.compile` raises `re.error` when the name of a group comes twice, and `_find_regex` catches only KeyError and
IndexError. -/
def Cal.strptimeFull (C : Cal) (s fmt : Str) (fresh : ℕ := 2) : Option StrpOut :=
  match compileFmt false fmt with
  | none => none
  | some (.error e) => some (.err e)
  | some (.ok ps) =>
    if (groupNames ps).Nodup then (C.strptime s fmt fresh).map StrpOut.of
    else some .reError

end Verif
