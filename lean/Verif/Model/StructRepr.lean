import Verif.Model.PlainTuple
import Verif.Model.Repr

/-!
# Model of `repr` of the time tuples

From `badidatetime/_structures.py` (ST). The fields are integers, as they are in the tuples that `timetuple`, `strptime`,
`localtime` and `gmtime` give. The name of the zone and the offset are not printed (ST:39-44, 77-84).
-/

namespace Verif

/-- One field, `name={value}`. -/
def namedField (name : String) (n : ℤ) : Str := name.toList ++ '=' :: strInt n

/-- `ShortFormStruct.__repr__` (ST:39-44) and `LongFormStruct.__repr__` (ST:77-84). -/
def structRepr (t : Struct) : Str :=
  if t.tup.short then
    callText "structures.ShortFormStruct".toList [namedField "tm_year" t.tup.year, namedField "tm_mon" t.tup.mon,
      namedField "tm_mday" t.tup.mday, namedField "tm_hour" t.tup.hour, namedField "tm_min" t.tup.min,
      namedField "tm_sec" t.tup.sec, namedField "tm_wday" t.tup.wday, namedField "tm_yday" t.tup.yday, namedField "tm_isdst" t.isdst]
  else
    callText "structures.LongFormStruct".toList [namedField "tm_kull_i_shay" t.tup.k, namedField "tm_vahid" t.tup.v,
      namedField "tm_year" t.tup.year, namedField "tm_mon" t.tup.mon, namedField "tm_mday" t.tup.mday,
      namedField "tm_hour" t.tup.hour, namedField "tm_min" t.tup.min, namedField "tm_sec" t.tup.sec,
      namedField "tm_wday" t.tup.wday, namedField "tm_yday" t.tup.yday, namedField "tm_isdst" t.isdst]

end Verif
