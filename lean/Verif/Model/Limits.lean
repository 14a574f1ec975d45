import Verif.Model.DateTime

/-!
# The limits `min` and `max` of the classes of `badidatetime/datetime.py`

Line numbers refer to `/repo/badidatetime/datetime.py`.
-/

namespace Verif

/-- `date.min` (line 984). -/
def dateMin : DateObj := .short (-1842) 1 1
/-- `date.max` (line 985). -/
def dateMax : DateObj := .short 1161 19 19
/-- `date.longmin` (line 986). -/
def dateLongMin : DateObj := .long (-5) 18 1 1 1
/-- `date.longmax` (line 987). -/
def dateLongMax : DateObj := .long 4 5 2 19 19
/-- `time.min` (line 1580). -/
def timeMin : TimeObj := ⟨0, 0, 0, 0, none, 0⟩
/-- `time.max` (line 1581). -/
def timeMax : TimeObj := ⟨24, 0, 3, 0, none, 0⟩
/-- `datetime.min` (line 2642). -/
def dtMin : DT := ⟨.short (-1842) 1 1, 0, 0, 0, 0, none, 0⟩
/-- `datetime.max` (line 2643). -/
def dtMax : DT := ⟨.short 1161 19 19, 0, 0, 0, 0, none, 0⟩

end Verif
