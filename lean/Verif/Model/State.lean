import Verif.Py.Text
import Verif.Py.Float
import Verif.Py.Err
import Verif.Model.Badi

/-!
# Model of the state kept between calls

The nutation cache of `badidatetime/base_calendar.py`, the caches of `badidatetime/_strptime.py` and the local
coordinates of `badidatetime/__init__.py`.
-/

namespace Verif

/-! ## The nutation cache -/

/-- The dictionary `_nutation` (base_calendar.py:66): for each of the two angles the time, the value and the unit
of the last computation. -/
structure NutCache where
  lon : ℚ × ℚ × Bool := (0, 0, false)
  obl : ℚ × ℚ × Bool := (0, 0, false)
  deriving DecidableEq, Repr

/-- Which angle a call asks for. -/
inductive Angle where
  | lon | obl
  deriving DecidableEq, Repr

/-- One call of `_nutation_longitude` or `_nutation_obliquity` (base_calendar.py:453-492). `direct tc degrees`
is `_nutation_obliquity_longitude` (lines 494-545), the pair of the two sums; its trigonometry is not modelled.
The argument is a finite float. -/
def nutCall (direct : ℚ → Bool → ℚ × ℚ) (c : NutCache) (a : Angle) (tc : ℚ) (degrees : Bool) : ℚ × NutCache :=
  match a with
  | .lon =>
    let (day, _, deg) := c.lon
    let c' := if tc ≠ day ∨ degrees ≠ deg then
      ⟨(tc, (direct tc degrees).1, degrees), (tc, (direct tc degrees).2, degrees)⟩ else c
    (c'.lon.2.1, c')
  | .obl =>
    let (day, _, deg) := c.obl
    let c' := if tc ≠ day ∨ degrees ≠ deg then
      ⟨(tc, (direct tc degrees).1, degrees), (tc, (direct tc degrees).2, degrees)⟩ else c
    (c'.obl.2.1, c')

/-- A call: the angle, the time and the unit. -/
abbrev NutArgs := Angle × ℚ × Bool

/-- The results of a sequence of calls on one object. -/
def nutRun (direct : ℚ → Bool → ℚ × ℚ) : NutCache → List NutArgs → List ℚ
  | _, [] => []
  | c, (a, tc, deg) :: rest =>
    let (r, c') := nutCall direct c a tc deg
    r :: nutRun direct c' rest

/-! ## The caches of strptime -/

/-- The keys of `_regex_cache`: format strings, and the builtin function `format`, under which
_strptime.py:424 stores. -/
inductive CacheKey where
  | text (s : Str)
  | builtinFormat
  deriving DecidableEq, Repr

/-- The module variables `_TimeRE_cache` (by the environment it was made in) and `_regex_cache`
(_strptime.py:301-306). -/
structure StrpState (E R : Type) where
  env : E
  regex : List (CacheKey × R)

/-- `dict.__setitem__`. -/
def cacheSet {R : Type} (c : List (CacheKey × R)) (k : CacheKey) (r : R) : List (CacheKey × R) :=
  (k, r) :: c.filter (fun p => p.1 ≠ k)

/-- The state after the locale test and the size test (_strptime.py:392-404). -/
def strpRefresh {E R : Type} [DecidableEq E] (s : StrpState E R) (now : E) : StrpState E R :=
  let s := if now ≠ s.env then ⟨now, []⟩ else s
  if 5 < s.regex.length then { s with regex := [] } else s

/-- `StrpTime._find_regex` up to the match (_strptime.py:388-424). `E` is the environment that a `TimeRE` is made
from: the language, the names of the time zones and the daylight flag. `compile` is `TimeRE.compile` in an
environment, with every exception turned into ValueError. -/
def strpRegex {E R : Type} [DecidableEq E] (compile : E → Str → Option R) (s : StrpState E R) (now : E) (fmt : Str) :
    Py R × StrpState E R :=
  let s := strpRefresh s now
  match s.regex.lookup (.text fmt) with
  | some r => (.ok r, s)
  | none =>
    match compile s.env fmt with
    | none => (.error .value, s)
    | some r => (.ok r, { s with regex := cacheSet s.regex .builtinFormat r })

/-- A parse through the caches: `run` is everything after the regex is known (_strptime.py:426-656). -/
def strpCall {E R V : Type} [DecidableEq E] (compile : E → Str → Option R) (run : R → E → Str → Py V)
    (s : StrpState E R) (now : E) (data fmt : Str) : Py V × StrpState E R :=
  match strpRegex compile s now fmt with
  | (.error e, s') => (.error e, s')
  | (.ok r, s') => (run r s'.env data, s')

/-- The results of a sequence of parses, each in its own environment. -/
def strpRun {E R V : Type} [DecidableEq E] (compile : E → Str → Option R) (run : R → E → Str → Py V) :
    StrpState E R → List (E × Str × Str) → List (Py V)
  | _, [] => []
  | s, (now, data, fmt) :: rest =>
    let (v, s') := strpCall compile run s now data fmt
    v :: strpRun compile run s' rest

/-! ## The local coordinates -/

/-- `timedelta(hours=h)` of a float, in microseconds: the whole hours exactly, the rest rounded. -/
def hoursUs (h : ℚ) : ℤ :=
  pyInt h * 3600000000 + roundHalfEven (fl (3600000000 * (h - pyInt h)))

/-- A coordinate argument of `set_local_coordinates`. -/
inductive CoordArg where
  | none
  | float (q : ℚ)
  | int (n : ℤ)
  deriving DecidableEq, Repr

/-- The machine: the UTC offset in seconds (`_local_timezone_info`, __init__.py:26-43), and the answer of the
geocoder to a locale (lines 60-65). -/
structure Machine where
  offset : ℤ
  geocode : Str → Option (ℚ × ℚ)

/-- `BADI_COORD` (datetime.py:25, badi_calendar.py:28). -/
def badiCoord : ℚ × ℚ × ℚ := (tehranLat, tehranLon, tehranZone)

/-- `LOCAL_COORD` and the offset of `LOCAL` in the module `badidatetime.datetime`, and their copies in the package
(__init__.py:73-91). -/
structure LocalState where
  coord : ℚ × ℚ × ℚ
  zone : ℤ
  pkgCoord : ℚ × ℚ × ℚ
  pkgZone : ℤ
  deriving DecidableEq, Repr

/-- `_get_local_coordinates` (__init__.py:46-70); the locale is a string, an integer locale is its text. -/
def getLocalCoords (M : Machine) (lat lon : CoordArg) (loc : Str) : Py (Option (ℚ × ℚ) × ℚ) :=
  match lat, lon with
  | .float a, .float b => .ok (some (a, b), fl (M.offset / 3600))
  | _, _ =>
    if loc ≠ [] then
      match M.geocode loc with
      | none => .error .assertion
      | some p => .ok (some p, fl (M.offset / 3600))
    else .ok (none, fl (M.offset / 3600))

/-- `_locale_config` (__init__.py:73-91). -/
def localeConfig (r : Option (ℚ × ℚ) × ℚ) : LocalState :=
  let c := match r with
    | (none, _) => badiCoord
    | (some (a, b), z) => (a, b, z)
  let z := hoursUs c.2.2
  ⟨c, z, c, z⟩

/-- The arguments of `set_local_coordinates`, and the machine at the time of the call. -/
structure LocalArgs where
  M : Machine
  lat : CoordArg := .none
  lon : CoordArg := .none
  loc : Str := []

/-- `set_local_coordinates` (__init__.py:94-108): the new state, or the exception with the state unchanged. The
variable `_LOCAL_COORDS` is only read by the call itself. -/
def setLocal (s : LocalState) (a : LocalArgs) : Py Unit × LocalState :=
  match getLocalCoords a.M a.lat a.lon a.loc with
  | .error e => (.error e, s)
  | .ok r => (.ok (), localeConfig r)

/-- The state after a sequence of calls. The first one is the call without arguments when the package is
imported (__init__.py:124). -/
def localRun (M : Machine) (as : List LocalArgs) : LocalState :=
  as.foldl (fun s a => (setLocal s a).2) (localeConfig (none, fl (M.offset / 3600)))

end Verif
