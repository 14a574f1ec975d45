import Verif.Model.StructTime
import Verif.Model.Badi

/-!
# Model of the zones with coordinates as objects that share a class

Line numbers refer to `/repo/badidatetime/datetime.py`. `TZWithCoords.fromzoneinfo` assigns to `cls._zi`, an attribute of the
class, so the objects of the class have a common state. Subclasses of `TZWithCoords`, which would have their own attribute, are
not modelled.
-/

namespace Verif

/-- What line 2887 and line 2909 use of a `zoneinfo.ZoneInfo`: its method `dst`, in microseconds, and its attribute `key`. -/
structure ZoneInfo where
  key : Str
  dst : Option DT → Option ℤ

/-- The state: the class attribute `TZWithCoords._zi` (`none` while it is the unset slot of line 2836) and the objects made so
far, oldest first. -/
structure ZoneWorld where
  info : Option ZoneInfo
  made : List CoordZone

/-- A call that makes a zone. -/
inductive ZoneCall where
  /-- `TZWithCoords(lat, lon, zone, key=key)` (lines 2838-2863). -/
  | make (lat lon : ℚ) (zone : Option ℚ) (key : Option Str)
  /-- `TZWithCoords.fromzoneinfo(zi, lat, lon, zone)` (lines 2894-2909). -/
  | fromInfo (zi : ZoneInfo) (lat lon : ℚ) (zone : Option ℚ)
  /-- Loading the pickle of an object (lines 2924-2949). -/
  | load (z : CoordZone)

/-- The object that is made is kept, a call that raises makes none. -/
def ZoneWorld.keep (w : ZoneWorld) : Py CoordZone → ZoneWorld
  | .ok z => { w with made := w.made ++ [z] }
  | .error _ => w

/-- What the call returns. -/
def ZoneCall.result (hours : ℚ → ℤ) : ZoneCall → Py CoordZone
  | .make lat lon zone key => newCoordZone hours lat lon zone key
  | .fromInfo zi lat lon zone => newCoordZone hours lat lon zone (some zi.key)
  | .load z => coordZonePickle hours z

/-- The state after a call. Line 2908 comes before the constructor of line 2909. -/
def ZoneWorld.call (hours : ℚ → ℤ) (w : ZoneWorld) (c : ZoneCall) : ZoneWorld :=
  match c with
  | .fromInfo zi _ _ _ => ({ w with info := some zi } : ZoneWorld).keep (c.result hours)
  | _ => w.keep (c.result hours)

/-- `TZWithCoords(*GMT_COORD, key='UTC')` and `TZWithCoords(*BADI_COORD, key=BADI_IANA)` (lines 2952-2953). -/
def startCalls : List ZoneCall :=
  [.make gmtLat gmtLon (some 0) (some "UTC".toList), .make tehranLat tehranLon (some tehranZone) (some "Asia/Tehran".toList)]

/-- The state after a sequence of calls. -/
def ZoneWorld.calls (hours : ℚ → ℤ) (w : ZoneWorld) (cs : List ZoneCall) : ZoneWorld := cs.foldl (ZoneWorld.call hours) w

/-- The state after the import of the module. -/
def zoneStart (hours : ℚ → ℤ) : ZoneWorld := ZoneWorld.calls hours ⟨none, []⟩ startCalls

/-- `TZWithCoords.dst` (lines 2875-2892) of an object in a state. A zero `timedelta` is false in Python. -/
def CoordZone.dst (w : ZoneWorld) (_z : CoordZone) (dt : Option DT) : ℤ :=
  let dst := match w.info with
    | none => none
    | some zi => zi.dst dt
  match dst with
  | none => 0
  | some d => if d = 0 then 0 else d

/-- `TZWithCoords.utcoffset`, inherited (lines 2743-2756), with a datetime or `None`. -/
def CoordZone.utcoffset (z : CoordZone) (_dt : Option DT) : ℤ := z.off

/-- The zone that `struct_time` asks about a datetime; `id` is the identity of the object. -/
def CoordZone.seen (w : ZoneWorld) (id : ℕ) (z : CoordZone) (x : DT) : TzInfo := ⟨⟨id, z.off, z.name⟩, some (z.dst w (some x))⟩

end Verif
