/-
Names and attributes (units, description, range) of the DataArrays that the methods of `Sunpos` return (`_base.py:168-577`): the same formulas
once more, over names and attributes instead of values.

xarray is not in /repo; its rules are modelled from its documentation. The result of an operation has the name its operands share, or none.
Functions of one array (and `np.maximum`, `where`, `clip`, `astype`, `copy(data=...)`) keep the attributes. Operations of two arrays drop the
attributes (versions before 2025.11, `keep = false`) or keep those on which the operands do not differ (`keep = true`, the versions that
pyproject.toml asks for, xarray>=2026.4.0). `np.degrees` and `np.radians` are multiplications in this model; with `keep = false` that drops attributes
that xarray keeps, of which no method returns any.
-/
import Verif.Sunpos

namespace SW

/-- value of an attribute: a string, or Python's None -/
abbrev Attr := Option String

/-- name and attributes of an operand: a number has none -/
inductive Meta (keep : Bool) where
  | scalar
  | arr (name : Option String) (attrs : String → Option Attr)

namespace Meta
variable {keep : Bool}

/-- a new DataArray with a name and no attributes -/
def named (n : String) : Meta keep := .arr (some n) fun _ => none
/-- `rename` -/
def rename (n : String) : Meta keep → Meta keep
  | .scalar => .scalar
  | .arr _ a => .arr (some n) a
/-- `assign_attrs`, one attribute -/
def assign (k : String) (v : Attr) : Meta keep → Meta keep
  | .scalar => .scalar
  | .arr n a => .arr n fun x => if x = k then some v else a x

/-- name of the result of an operation: that of the operands if it is the same -/
def joinName (a b : Option String) : Option String := if a = b then a else none
/-- attributes that are in one operand or the same in both -/
def dropConflicts (a b : String → Option Attr) : String → Option Attr := fun k =>
  match a k, b k with
  | some x, some y => if x = y then some x else none
  | some x, none => some x
  | none, y => y

/-- arithmetic and comparison -/
def binary : Meta keep → Meta keep → Meta keep
  | .scalar, .scalar => .scalar
  | .arr n a, .scalar => .arr n (if keep then a else fun _ => none)
  | .scalar, .arr n b => .arr n (if keep then b else fun _ => none)
  | .arr n a, .arr m b => .arr (joinName n m) (if keep then dropConflicts a b else fun _ => none)

/-- numpy functions of two arguments: the attributes of the first array -/
def ufunc2 : Meta keep → Meta keep → Meta keep
  | .scalar, x => x
  | .arr n a, .scalar => .arr n a
  | .arr n a, .arr m _ => .arr (joinName n m) a

/-- `c.where(cond, d)` -/
def whereM (cond c d : Meta keep) : Meta keep := ufunc2 (ufunc2 c cond) d

end Meta

instance instNumMeta {keep : Bool} : Num (Meta keep) where
  add := Meta.binary
  sub := Meta.binary
  mul := Meta.binary
  div := Meta.binary
  neg a := a
  lit _ _ _ := .scalar
  nat _ := .scalar
  pi := .scalar
  nan := .scalar
  sin a := a
  cos a := a
  tan a := a
  arcsin a := a
  arccos a := a
  arctan a := a
  sqrt a := a
  absv a := a
  exp a := a
  log a := a
  arctan2 := Meta.ufunc2
  pmod := Meta.binary
  cmod := Meta.binary
  max2 := Meta.ufunc2
  npow a _ := Meta.binary a .scalar
  rpow := Meta.binary
  trunc a := a
  round6 a := a
  f32 a := a
  whereLt a b c d := Meta.whereM (Meta.binary a b) c d
  whereLe a b c d := Meta.whereM (Meta.binary a b) c d

namespace Sunpos
open Meta

section
variable (keep : Bool)

/-- `latitude`, `_base.py:171-174` -/
def latitudeM : Meta keep := (named "latitude").rename "latitude" |>.assign "units" (some "degrees north")
/-- `longitude`, `_base.py:177-180` -/
def longitudeM : Meta keep := (named "longitude").rename "longitude" |>.assign "units" (some "degrees east")
/-- `ecf`, `_base.py:237-242` -/
def ecfM : Meta keep :=
  (named "ecf").rename "ecf" |>.assign "units" (some "-") |>.assign "description" (some "sun-earth distance correction factor")
/-- `eot`, `_base.py:245-249` -/
def eotM : Meta keep := (named "eot").rename "eot" |>.assign "units" (some "minutes") |>.assign "description" (some "equation of time")
/-- `declination`, `_base.py:252-256` -/
def decM : Meta keep :=
  (degrees (named "declination") : Meta keep).rename "declination" |>.assign "units" (some "degrees") |>.assign "description" (some "solar declination")
/-- `dec`, `_base.py:259-261`: not renamed -/
def decAliasM : Meta keep := decM keep
/-- `zenith`, `_base.py:264-269` -/
def zenithM : Meta keep :=
  (degrees (named "zenith") : Meta keep).rename "zenith" |>.assign "units" (some "degrees") |>.assign "range" (some "[0, 180]")
    |>.assign "description" (some "solar zenith angle")
/-- `sza`, `_base.py:272-274` -/
def szaM : Meta keep := (zenithM keep).rename "sza"
/-- `elevation`, `_base.py:277-282` -/
def elevationM : Meta keep :=
  (90.0 - zenithM keep).rename "elevation" |>.assign "units" (some "degrees") |>.assign "range" (some "[-90, 90]")
    |>.assign "description" (some "solar elevation angle")
/-- `azimuth`, `_base.py:285-291` -/
def azimuthM : Meta keep :=
  (degrees (named "azimuth") : Meta keep).rename "azimuth" |>.assign "units" (some "degrees") |>.assign "range" (some "(-180 am, 180 pm)")
    |>.assign "description" (some "solar azimuth angle")
/-- `saa`, `_base.py:294-296` -/
def saaM : Meta keep := (azimuthM keep).rename "saa"
/-- `cosz`, `_base.py:299-304` -/
def coszM : Meta keep :=
  (Num.cos (named "zenith") : Meta keep).rename "cosz" |>.assign "units" (some "-") |>.assign "range" (some "[-1, 1]")
    |>.assign "description" (some "solar zenith angle's cosine")
/-- `true_solar_time`, `_base.py:216-229`; `utc_f` has no name -/
def trueSolarTimeM : Meta keep :=
  (.arr none (fun _ => none) + (eotM keep + 4 * longitudeM keep) * 60 * 1e9).rename "true_solar_time"
    |>.assign "description" (some "True solar time (a.k.a. local apparent time, LAT)")

/-- `airmass`, `_base.py:362-421` -/
def airmassM (parameterization : String) : Except PyErr (Meta keep) :=
  let out := fun r : Meta keep => (amOf (szaM keep) r).rename "airmass" |>.assign "units" (some "-") |>.assign "description" (some "relative optical air mass")
  if parameterization = "kasten_1965" then .ok (out (recKasten (szaM keep) (coszM keep)))
  else if parameterization = "kasten_and_young_1989" then .ok (out (recKastenYoung (szaM keep) (coszM keep)))
  else if parameterization = "gueymard_2001" then .ok (out (recGueymard2001 (szaM keep) (coszM keep)))
  else if parameterization = "gueymard_2003" then .ok (out (recGueymard2003 (szaM keep) (coszM keep)))
  else .error .valueError

/-- `eth`, `_base.py:306-360`; the solar constant is a number -/
def ethM (amCorrection : String) : Except PyErr (Meta keep) :=
  let e := ethOf .scalar (ecfM keep) (coszM keep)
  let out := fun x : Meta keep => x.rename "eth" |>.assign "units" (some "W m-2") |>.assign "description" (some "extraterrestrial horizontal solar irradiance")
  if amCorrection = "none" then .ok (out (e * 1.0))
  else if amCorrection = "perez_1990" then do return out (e * corrPerez (← airmassM keep "kasten_and_young_1989"))
  else if amCorrection = "skarveith_1998" then .ok (out (e * corrSkartveit (szaM keep)))
  else if amCorrection = "gonzalez_and_calbo_1999" then do return out (e * corrGonzalez (← airmassM keep "gueymard_2003"))
  else .error .valueError

/-- `incidence`, `_base.py:545-577`; slope and azimuth of the surface are numbers, `ha` is a copy of `hour` with other data -/
def incidenceM : Meta keep :=
  (coss .scalar .scalar (latitudeM keep) (decAliasM keep) (hourOf (trueSolarTimeM keep))).rename "incidence"
    |>.assign "units" (some "-") |>.assign "description" (some "cosine of the angle of incidence")
end

variable {F : Type} (s : Sunpos F) (keep : Bool)

/-- the dictionary of `_base.py:487-488, 527-528` -/
def unitsOf (units : String) : Attr :=
  if units = "deg" then some "degrees" else if units = "rad" then some "radians" else if units = "tst" then some "TST"
  else if units = "utc" then some "UTC" else if units = "local" then s.timezone else some units

/-- `sunrise`, `_base.py:423-490`: `delta_ns`, `tst_d` are copies with other data -/
def sunriseM (units : String) : Except PyErr (Meta keep) :=
  let wsr : Meta keep := wsrRad (tantan (latitudeM keep) (decM keep))
  let tst := wsrHours wsr + trueSolarTimeM keep
  let utc := tst - deltaMin (eotM keep) (longitudeM keep)
  let out := fun x : Meta keep => x.rename "wsr" |>.assign "units" (s.unitsOf units) |>.assign "description" (some "sunrise")
  if units = "deg" then .ok (out (degrees wsr))
  else if units = "rad" then .ok (out wsr)
  else if units = "tst" then .ok (out tst)
  else if units = "utc" then .ok (out utc)
  else if units = "local" then .ok (out (utc + .arr none fun _ => none))
  else .error .assertionError

/-- `daylight_length`, `_base.py:532-543`: name and attributes are set before the multiplication -/
def daylightLengthM : Except PyErr (Meta keep) := do
  return 2.0 / 15.0 * ((← s.sunriseM keep "deg").rename "daylight_length" |>.assign "units" (some "hour") |>.assign "description" (some "daylight length"))

/-- `sunset`, `_base.py:492-530` -/
def sunsetM (units : String) : Except PyErr (Meta keep) :=
  if units = "tst" ∨ units = "utc" ∨ units = "local" then do
    let wss := (← s.sunriseM keep units) + (← s.daylightLengthM keep)
    return wss.rename "wss" |>.assign "units" (s.unitsOf units) |>.assign "description" (some "sunset")
  else if units = "deg" ∨ units = "rad" then .error .unboundLocalError
  else .error .assertionError

end Sunpos

end SW
