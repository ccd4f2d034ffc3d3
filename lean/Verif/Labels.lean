/-
Labels of the DataArrays: the coordinates that the constructor of `Sunpos` attaches (`_base.py:85-160`), and what xarray does with them in
arithmetic (alignment along the common indexes, union of the coordinates). The methods of `Sunpos` once more, over labelled arrays.

xarray is not in /repo; its rules are modelled from its documentation: binary operations align by an inner join (`arithmetic_join`),
`where(cond, other)` by an exact one; equal indexes are left alone, duplicate labels cannot be aligned. pandas compares labels with NaN equal to
NaN; here they are compared as values of the model. Names and attributes are in Verif/Meta.lean, encodings are not modelled.
-/
import Verif.Sunpos

namespace SW

/-- a label: time stamp, number or position -/
inductive Label (F : Type) where
  | stamp (t : Option Int)
  | num (x : F)
  | pos (n : Nat)

/-- a coordinate: its name, the dimension it is along, and its values; it is an index if it has the name of its dimension -/
structure Crd (F : Type) where
  name : Dim
  dim : Dim
  labels : List (Label F)

/-- a DataArray with its coordinates; `F` is the type of the numbers among the labels, `G` that of the values -/
structure LDA (F G : Type) where
  coords : List (Crd F)
  da : DA G

namespace LDA
variable {F G H K : Type}

/-- `xr.DataArray(data, coords=..., dims=...)`: ValueError if a coordinate does not fit the data -/
def make (coords : List (Crd F)) (da : DA G) : Except PyErr (LDA F G) :=
  if coords.all fun c => da.dims.any fun q => q.1 == c.dim && q.2 == c.labels.length then .ok ⟨coords, da⟩ else .error .valueError

/-- Python scalar in an expression with DataArrays -/
def scalar (x : G) : LDA F G := ⟨[], DA.scalar x⟩

/-- element-wise function, `.copy(data=...)`, `.astype` -/
def map (f : G → H) (a : LDA F G) : LDA F H := ⟨a.coords, a.da.map f⟩

/-- the index along a dimension, if there is one -/
def index (a : LDA F G) (d : Dim) : Option (List (Label F)) := (a.coords.find? fun c => c.name == d && c.dim == d).map (·.labels)

open Classical in
/-- `a.reindex({d: new})`, `old` being the index and `new` a part of it -/
noncomputable def reindex (a : LDA F G) (d : Dim) (old new : List (Label F)) : LDA F G :=
  let p := new.map fun l => old.idxOf l
  ⟨a.coords.map fun c => if c.dim = d then { c with labels := p.filterMap fun k => c.labels[k]? } else c,
   ⟨a.da.dims.map fun q => if q.1 = d then (d, new.length) else q, fun e => a.da.get fun d' => if d' = d then p.getD (e d) 0 else e d'⟩⟩

open Classical in
/-- alignment along one dimension: nothing if the indexes are equal or one of the two has none, else, with an inner join, the labels in
common; duplicates, and unequal indexes with an exact join, are ValueErrors -/
noncomputable def alignDim (exact : Bool) (ab : LDA F G × LDA F H) (d : Dim) : Except PyErr (LDA F G × LDA F H) :=
  match ab.1.index d, ab.2.index d with
  | some la, some lb =>
    if la = lb then .ok ab
    else if exact = true ∨ ¬ la.Nodup ∨ ¬ lb.Nodup then .error .valueError
    else .ok (ab.1.reindex d la (la.filter fun l => decide (l ∈ lb)), ab.2.reindex d lb (la.filter fun l => decide (l ∈ lb)))
  | _, _ => .ok ab

/-- alignment along all dimensions -/
noncomputable def align (exact : Bool) (a : LDA F G) (b : LDA F H) : Except PyErr (LDA F G × LDA F H) :=
  [Dim.time, .location, .latitude, .longitude].foldlM (alignDim exact) (a, b)

/-- dimensions of the same name have the same size -/
def sizesAgree (a : DA G) (b : DA H) : Bool := a.dims.all fun p => b.dims.all fun q => !(p.1 == q.1) || p.2 == q.2

open Classical in
/-- the coordinates of the result of an operation: those of both operands; a coordinate that is not the same in both is dropped -/
noncomputable def mergeCoords (a b : List (Crd F)) : List (Crd F) :=
  (a.filter fun c => decide (∀ c' ∈ b, c'.name = c.name → c' = c)) ++ b.filter fun c => decide (∀ c' ∈ a, c'.name ≠ c.name)

/-- element-wise binary function of two DataArrays -/
noncomputable def map2 (exact : Bool) (f : G → H → K) (a : LDA F G) (b : LDA F H) : Except PyErr (LDA F K) := do
  let (a, b) ← align exact a b
  if sizesAgree a.da b.da then return ⟨mergeCoords a.coords b.coords, DA.map2 f a.da b.da⟩
  else throw .valueError

/-- `c.where(a <= b, other=d)`: the comparison is an operation like others, `where` asks for equal indexes -/
noncomputable def map4 (f : G → G → G → G → G) (a b c d : LDA F G) : Except PyErr (LDA F G) := do
  let p ← map2 false Prod.mk a b
  let q ← map2 true Prod.mk c d
  map2 true (fun p q => f p.1 p.2 q.1 q.2) p q

end LDA

/-- arithmetic of labelled DataArrays; an operation that raises ends the computation -/
noncomputable instance instNumLDA {F : Type} [Num F] : Num (Except PyErr (LDA F F)) where
  add a b := do LDA.map2 false (· + ·) (← a) (← b)
  sub a b := do LDA.map2 false (· - ·) (← a) (← b)
  mul a b := do LDA.map2 false (· * ·) (← a) (← b)
  div a b := do LDA.map2 false (· / ·) (← a) (← b)
  neg a := do return (← a).map (fun x => -x)
  lit m s e := .ok (LDA.scalar (Num.lit m s e))
  nat n := .ok (LDA.scalar (Num.nat n))
  pi := .ok (LDA.scalar Num.pi)
  nan := .ok (LDA.scalar Num.nan)
  sin a := do return (← a).map Num.sin
  cos a := do return (← a).map Num.cos
  tan a := do return (← a).map Num.tan
  arcsin a := do return (← a).map Num.arcsin
  arccos a := do return (← a).map Num.arccos
  arctan a := do return (← a).map Num.arctan
  sqrt a := do return (← a).map Num.sqrt
  absv a := do return (← a).map Num.absv
  exp a := do return (← a).map Num.exp
  log a := do return (← a).map Num.log
  arctan2 a b := do LDA.map2 false Num.arctan2 (← a) (← b)
  pmod a b := do LDA.map2 false Num.pmod (← a) (← b)
  cmod a b := do LDA.map2 false Num.cmod (← a) (← b)
  max2 a b := do LDA.map2 false Num.max2 (← a) (← b)
  npow a n := do return (← a).map fun x => Num.npow x n
  rpow a b := do LDA.map2 false Num.rpow (← a) (← b)
  trunc a := do return (← a).map Num.trunc
  round6 a := do return (← a).map Num.round6
  f32 a := do return (← a).map Num.f32
  whereLt a b c d := do LDA.map4 Num.whereLt (← a) (← b) (← c) (← d)
  whereLe a b c d := do LDA.map4 Num.whereLe (← a) (← b) (← c) (← d)

namespace Sunpos
variable {F : Type} [Scalar F]

section
variable (s : Sunpos F)

/-- number of latitudes and of longitudes -/
def nLat : Nat := s.latitude.shape.headD 0
def nLon : Nat := s.longitude.shape.headD 0

/-- `coords` of the constructor by name, `_base.py:98-102, 125-127, 148-151`: labels of the times are the wall-clock readings (line 99) -/
def crd : Dim → Crd F
  | .time => ⟨.time, .time, s.times.map .stamp⟩
  | .location => ⟨.location, .location, (List.range s.nLat).map .pos⟩
  | .latitude => ⟨.latitude, match s.usecase with | .sites => .location | .regularGrid => .latitude | .transect => .time,
      (List.range s.nLat).map fun k => .num (s.latitude.get fun _ => k)⟩
  | .longitude => ⟨.longitude, match s.usecase with | .sites => .location | .regularGrid => .longitude | .transect => .time,
      (List.range s.nLon).map fun k => .num (s.longitude.get fun _ => k)⟩

/-- names of the coordinates of `latitude`, `_base.py:104, 129, 153` -/
def latNames : List Dim := match s.usecase with
  | .sites => [.location] | .regularGrid => [.latitude] | .transect => [.time, .latitude, .longitude]
/-- names of the coordinates of `longitude`, `_base.py:104, 131, 153` -/
def lonNames : List Dim := match s.usecase with
  | .sites => [.location] | .regularGrid => [.longitude] | .transect => [.time, .latitude, .longitude]
/-- names of the coordinates of `ecf`, `eot` and `declination`, `_base.py:107, 133, 153` -/
def timeNames : List Dim := match s.usecase with
  | .sites => [.time] | .regularGrid => [.time] | .transect => [.time, .latitude, .longitude]
/-- names of the coordinates of `zenith` and `azimuth`, `_base.py:111, 137, 153` -/
def posNames : List Dim := match s.usecase with
  | .sites => [.time, .location, .latitude, .longitude] | .regularGrid => [.time, .latitude, .longitude]
  | .transect => [.time, .latitude, .longitude]

/-- the private arrays with their coordinates, `_base.py:103-160` -/
def latitudeL : Except PyErr (LDA F F) := LDA.make (s.latNames.map s.crd) s.latitude
def longitudeL : Except PyErr (LDA F F) := LDA.make (s.lonNames.map s.crd) s.longitude
def ecfL : Except PyErr (LDA F F) := LDA.make (s.timeNames.map s.crd) s.ecf
def eotL : Except PyErr (LDA F F) := LDA.make (s.timeNames.map s.crd) s.eot
def declinationL : Except PyErr (LDA F F) := LDA.make (s.timeNames.map s.crd) s.declination
def zenithL : Except PyErr (LDA F F) := LDA.make (s.posNames.map s.crd) s.zenith
def azimuthL : Except PyErr (LDA F F) := LDA.make (s.posNames.map s.crd) s.azimuth

/-- public `declination`, `_base.py:251-261` -/
noncomputable def decDegL : Except PyErr (LDA F F) := degrees s.declinationL
/-- public `zenith` and `sza`, `_base.py:263-274` -/
noncomputable def zenithDegL : Except PyErr (LDA F F) := degrees s.zenithL
/-- `elevation`, `_base.py:276-282` -/
noncomputable def elevationL : Except PyErr (LDA F F) := 90.0 - s.zenithDegL
/-- public `azimuth` and `saa`, `_base.py:284-296` -/
noncomputable def azimuthDegL : Except PyErr (LDA F F) := degrees s.azimuthL
/-- `cosz`, `_base.py:298-304` -/
noncomputable def coszL : Except PyErr (LDA F F) := Num.cos s.zenithL

/-- `airmass`, `_base.py:362-418` -/
noncomputable def airmassL (parameterization : String) : Except PyErr (LDA F F) :=
  if parameterization = "kasten_1965" then amOf s.zenithDegL (recKasten s.zenithDegL s.coszL)
  else if parameterization = "kasten_and_young_1989" then amOf s.zenithDegL (recKastenYoung s.zenithDegL s.coszL)
  else if parameterization = "gueymard_2001" then amOf s.zenithDegL (recGueymard2001 s.zenithDegL s.coszL)
  else if parameterization = "gueymard_2003" then amOf s.zenithDegL (recGueymard2003 s.zenithDegL s.coszL)
  else .error .valueError

/-- `eth`, `_base.py:306-357` -/
noncomputable def ethL (isc : F) (amCorrection : String) : Except PyErr (LDA F F) :=
  let e := ethOf (.ok (LDA.scalar isc)) s.ecfL s.coszL
  if amCorrection = "none" then e * 1.0
  else if amCorrection = "perez_1990" then e * corrPerez (s.airmassL "kasten_and_young_1989")
  else if amCorrection = "skarveith_1998" then e * corrSkartveit s.zenithDegL
  else if amCorrection = "gonzalez_and_calbo_1999" then e * corrGonzalez (s.airmassL "gueymard_2003")
  else .error .valueError

/-- sunrise angle in radians, `_base.py:446-451` -/
noncomputable def wsrL : Except PyErr (LDA F F) := wsrRad (tantan s.latitudeL s.decDegL)

end

variable (w : World F) (s : Sunpos F)

/-- `utc_f`, `_base.py:221-224`: the labels are the wall-clock readings -/
def utcFloatL : Except PyErr (LDA F F) :=
  LDA.make [⟨.time, .time, s.times.map .stamp⟩] (DA.along .time s.timesUtc.length fun k => stampFloat w ((s.timesUtc[k]?).getD none))
/-- `true_solar_time`, `_base.py:217-229` -/
noncomputable def trueSolarTimeL : Except PyErr (LDA F (Option Int)) := do
  return (← s.utcFloatL w + (s.eotL + 4 * s.longitudeL) * 60 * 1e9).map Scalar.toInt

/-- `wsr` in true solar time, `_base.py:456-472` -/
noncomputable def sunriseTstL : Except PyErr (LDA F (Option Int)) := do
  LDA.map2 false tadd ((← hoursToNs (wsrHours s.wsrL)).map Scalar.toInt) ((← s.trueSolarTimeL w).map floorDay)
/-- `_base.py:474-478` -/
noncomputable def sunriseUtcL : Except PyErr (LDA F (Option Int)) := do
  LDA.map2 false tsub (← s.sunriseTstL w) ((← minToNs (deltaMin s.eotL s.longitudeL)).map Scalar.toInt)
/-- `utcoffset`, `_base.py:481-483`, with the labels of the sunrises -/
noncomputable def sunriseLocalL : Except PyErr (LDA F (Option Int)) := do
  let wsr ← s.sunriseUtcL w
  match wsr.coords.find? fun c => c.name == .time with
  | none => .error .keyError
  | some c => LDA.map2 false tadd wsr (← LDA.make [c] s.utcOffset)

/-- result of `sunrise`/`sunset`: an angle or a time -/
inductive EventL (F : Type) where
  | angle (a : LDA F F)
  | time (t : LDA F (Option Int))

/-- `sunrise`, `_base.py:423-490` -/
noncomputable def sunriseL (units : String) : Except PyErr (EventL F) :=
  if units = "deg" then do return .angle (← degrees s.wsrL)
  else if units = "rad" then do return .angle (← s.wsrL)
  else if units = "tst" then do return .time (← s.sunriseTstL w)
  else if units = "utc" then do return .time (← s.sunriseUtcL w)
  else if units = "local" then do return .time (← s.sunriseLocalL w)
  else .error .assertionError

/-- `daylight_length`, `_base.py:532-543` -/
noncomputable def daylightLengthL : Except PyErr (LDA F F) := do
  match ← s.sunriseL w "deg" with
  | .angle a => 2.0 / 15.0 * (.ok a : Except PyErr (LDA F F))
  | .time _ => .error .typeError

/-- `sunset`, `_base.py:492-530` -/
noncomputable def sunsetL (units : String) : Except PyErr (EventL F) :=
  if units = "tst" ∨ units = "utc" ∨ units = "local" then do
    match ← s.sunriseL w units with
    | .time t => return .time (← LDA.map2 false tadd t ((← hoursToNs (s.daylightLengthL w)).map Scalar.toInt))
    | .angle _ => .error .typeError
  else if units = "deg" ∨ units = "rad" then .error .unboundLocalError
  else .error .assertionError

/-- float of the time of day of the true solar time, ns, `_base.py:559-562` -/
noncomputable def todFloatL : Except PyErr (LDA F F) := do
  return (← s.trueSolarTimeL w).map fun t => stampFloat w (tsub t (floorDay t))
/-- `incidence`, `_base.py:545-577` -/
noncomputable def incidenceL (slope saz : F) : Except PyErr (LDA F F) :=
  coss (.ok (LDA.scalar slope)) (.ok (LDA.scalar saz)) s.latitudeL s.decDegL (haDeg (hourOf (s.todFloatL w)))

end Sunpos

end SW
