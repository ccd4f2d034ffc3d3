/-
The use cases (`usecases.py`) and the `Sunpos` class (`_base.py`).
-/
import Verif.DA

namespace SW

/-- What the code obtains from pandas/numpy and the model does not compute: localisation of
wall-clock times in a named zone with `ambiguous='infer'` (UTC instants, or an error for
non-existent or undecidable times; the name `none` is Python's `None`, for which `tz_localize`
leaves the times naive and the following `tz_convert` fails), and the float that
the cast of a NaT gives (it depends on the numpy version). -/
structure World (F : Type) where
  localize : String → List (Option Int) → Except PyErr (List (Option Int))
  natFloat : F

/-- the three use cases -/
inductive UseCase where
  | sites | regularGrid | transect
  deriving DecidableEq, Repr

/-- A `Sunpos` object. `times` holds the wall-clock readings of `_times` (its time zone is
`timezone`), `timesUtc` the instants of `_times_utc`; the private arrays are in radians. -/
structure Sunpos (F : Type) where
  usecase : UseCase
  algorithm : String
  engine : String
  refraction : PyVal
  timezone : Option String
  times : List (Option Int)
  timesUtc : List (Option Int)
  latitude : DA F
  longitude : DA F
  ecf : DA F
  eot : DA F
  declination : DA F
  zenith : DA F
  azimuth : DA F

variable {F : Type} [Scalar F]

/-- `_base.py:58-66`: the name of the time zone -/
def timezoneOf (t : Times) : Option String :=
  match t.tz with
  | none => some "UTC"
  | some z =>
    match z.zone with
    | .name s => some s
    | .pyNone => none
    | .absent => some "UTC"

/-- `_base.py:68-72`: localisation of the wall-clock readings and conversion to UTC -/
def localizeTimes (w : World F) (t : Times) : Except PyErr (List (Option Int)) :=
  match timezoneOf t with
  | none => .error .typeError
  | some "UTC" => .ok t.wall
  | some z => w.localize z t.wall

/-- the location-dependent arrays as DataArrays, `_base.py:96-160` -/
def toDA (uc : UseCase) (nT nLat nLon : Nat) (a : Arr F) : DA F :=
  match uc with
  | .sites => ⟨[(.time, nT), (.location, nLat)], fun e => a.at' [e .location, e .time]⟩
  | .regularGrid => ⟨[(.time, nT), (.latitude, nLat), (.longitude, nLon)],
      fun e => a.at' [e .longitude, e .latitude, e .time]⟩
  | .transect => ⟨[(.time, nT)], fun e => a.at' [e .time]⟩

/-- `Sunpos.__init__`, `_base.py:17-164` -/
def Sunpos.init (w : World F) (times : Times) (lat lon : List F) (algorithm engine : String)
    (refraction : PyVal) (uc : UseCase) (ev : Eval F) : Except PyErr (Sunpos F) :=
  if times.nested then .error .typeError
  else
    match localizeTimes w times with
    | .error e => .error e
    | .ok utc =>
      let nT := times.stamps.length
      let nLat := lat.length
      let nLon := lon.length
      let sh := match uc with
        | .sites => [nLat, nT]
        | .regularGrid => [nLon, nLat, nT]
        | .transect => [nT]
      let dimsOk := match uc with
        | .sites => nLat == nLon
        | .regularGrid => true
        | .transect => nT == nLat && nLat == nLon
      if !dimsOk then .error .assertionError
      else if !(ev.ecf.rs == [nT] && ev.eot.rs == [nT] && ev.declination.rs == [nT]) then
        .error .assertionError
      else if !(ev.zenith.rs == sh && ev.azimuth.rs == sh) then .error .assertionError
      else
        let alongTime := fun (a : Arr F) => DA.along .time nT (fun k => a.at' [k])
        .ok {
          usecase := uc, algorithm := algorithm, engine := engine, refraction := refraction
          timezone := timezoneOf times
          times := times.wall, timesUtc := utc
          latitude := DA.along (match uc with
            | .sites => .location | .regularGrid => .latitude | .transect => .time) nLat
            (fun j => lat.getD j Num.nan)
          longitude := DA.along (match uc with
            | .sites => .location | .regularGrid => .longitude | .transect => .time) nLon
            (fun i => lon.getD i Num.nan)
          ecf := alongTime ev.ecf, eot := alongTime ev.eot
          declination := alongTime ev.declination
          zenith := toDA uc nT nLat nLon ev.zenith
          azimuth := toDA uc nT nLat nLon ev.azimuth }

/-- `sites`, usecases.py:12-114 (code at 77-114) -/
def sites (w : World F) (times : Times) (latitude longitude : Coord F) (algorithm : String)
    (refraction : PyVal) (engine : String) : Except PyErr (Sunpos F) :=
  if times.nested then .error .typeError
  else
    let timesUtc : Times :=
      { nested := false, tz := none, stamps := times.stamps.map (Option.map (fun t => toNs (toSec t))) }
    match latitude.flat?, longitude.flat? with
    | some lat, some lon =>
      if lat.length ≠ lon.length then .error .valueError
      else
        match evaluate timesUtc (.vec lat) (.vec lon) algorithm 1 refraction engine with
        | .error e => .error e
        | .ok ev => Sunpos.init w times lat lon algorithm engine refraction .sites ev
    | _, _ => .error .valueError

/-- `regular_grid`, usecases.py:117-209 (code at 178-209) -/
def regularGrid (w : World F) (times : Times) (latitude longitude : Coord F) (algorithm : String)
    (refraction : PyVal) (engine : String) : Except PyErr (Sunpos F) :=
  if times.nested then .error .typeError
  else
    match latitude.flat?, longitude.flat? with
    | some lat, some lon =>
      match evaluate times (.vec lat) (.vec lon) algorithm 2 refraction engine with
      | .error e => .error e
      | .ok ev => Sunpos.init w times lat lon algorithm engine refraction .regularGrid ev
    | _, _ => .error .valueError

/-- `transect`, usecases.py:212-298 (code at 263-298) -/
def transect (w : World F) (times : Times) (latitude longitude : Coord F) (algorithm : String)
    (refraction : PyVal) (engine : String) : Except PyErr (Sunpos F) :=
  if times.nested then .error .typeError
  else
    match latitude.flat?, longitude.flat? with
    | some lat, some lon =>
      if ¬ (lat.length = lon.length ∧ lon.length = times.stamps.length) then .error .valueError
      else
        match evaluate times (.vec lat) (.vec lon) algorithm 0 refraction engine with
        | .error e => .error e
        | .ok ev => Sunpos.init w times lat lon algorithm engine refraction .transect ev
    | _, _ => .error .valueError

/-- the three entry points under one name (to quantify over them) -/
def call (uc : UseCase) (w : World F) (times : Times) (latitude longitude : Coord F)
    (algorithm : String) (refraction : PyVal) (engine : String) : Except PyErr (Sunpos F) :=
  match uc with
  | .sites => sites w times latitude longitude algorithm refraction engine
  | .regularGrid => regularGrid w times latitude longitude algorithm refraction engine
  | .transect => transect w times latitude longitude algorithm refraction engine

namespace Sunpos

/-- `datetime64`/`timedelta64` sum and difference, NaT absorbing -/
def tadd (a b : Option Int) : Option Int := a.bind fun x => b.map fun y => x + y
def tsub (a b : Option Int) : Option Int := a.bind fun x => b.map fun y => x - y
/-- nanoseconds in a day -/
def dayNs : Int := 86400000000000
/-- `.astype('datetime64[D]').astype('datetime64[ns]')` -/
def floorDay (a : Option Int) : Option Int := a.map fun x => x / dayNs * dayNs

/-- float of a time stamp -/
def stampFloat (w : World F) (a : Option Int) : F :=
  match a with
  | none => w.natFloat
  | some n => Scalar.ofInt n

variable (w : World F) (s : Sunpos F)

/-- `true_solar_time` before the final cast, `_base.py:221-226` -/
def tstFloat : DA F :=
  let utcF := DA.along .time s.timesUtc.length
    (fun k => stampFloat w ((s.timesUtc[k]?).getD none))
  utcF + (s.eot + 4 * s.longitude) * 60 * 1e9
/-- `true_solar_time`, `_base.py:217-229` -/
def trueSolarTime : DA (Option Int) := (s.tstFloat w).map Scalar.toInt

/-- public `declination` and `dec`, degrees, `_base.py:251-261` -/
def decDeg : DA F := degrees s.declination
/-- public `zenith` and `sza`, degrees, `_base.py:263-274` -/
def zenithDeg : DA F := degrees s.zenith
/-- `elevation`, `_base.py:276-282` -/
def elevation : DA F := 90.0 - s.zenithDeg
/-- public `azimuth` and `saa`, degrees, `_base.py:284-296` -/
def azimuthDeg : DA F := degrees s.azimuth
/-- `cosz`, `_base.py:298-304` -/
def cosz : DA F := Num.cos s.zenith

/-! Formulas of `airmass` and `eth`, over any numeric type -/
section formulas
universe u
variable {A : Type u} [Num A]
/-- `_base.py:395-396` -/
def recKasten (sza cosz : A) : A := cosz + 0.15 * Num.rpow (Num.max2 1e-4 (93.885 - sza)) (-1.253)
/-- `_base.py:399-400` -/
def recKastenYoung (sza cosz : A) : A :=
  cosz + 0.50572 * Num.rpow (Num.max2 1e-4 (96.07995 - sza)) (-1.6364)
/-- `_base.py:403-404` -/
def recGueymard2001 (sza cosz : A) : A :=
  cosz + 0.45665 * Num.rpow sza 0.07 * Num.rpow (Num.max2 1e-4 (96.4836 - sza)) (-1.697)
/-- `_base.py:407-408` -/
def recGueymard2003 (sza cosz : A) : A :=
  cosz + 0.48353 * Num.rpow sza 0.095846 * Num.rpow (Num.max2 1e-4 (96.741 - sza)) (-1.754)
/-- `1./rec_am.where(sza <= 90., nan)` and `.clip(1., inf)`, `_base.py:414-415` -/
def amOf (sza recAm : A) : A := Num.max2 1.0 (1.0 / Num.whereLe sza 90.0 recAm Num.nan)
/-- `_base.py:345` -/
def corrPerez (am : A) : A := 0.1 + 1.031 * Num.exp (-1.4 / (0.9 + (9.4 / am)))
/-- `_base.py:347` -/
def corrSkartveit (sza : A) : A := 0.83 - 0.56 * Num.exp (-0.06 * (90.0 - sza))
/-- `_base.py:350-351` -/
def corrGonzalez (am : A) : A :=
  0.229 + 0.957 * Num.exp (-1.74 * am * (0.124 - 0.0285 * Num.log am))
/-- `_base.py:338` -/
def ethOf (isc ecf cosz : A) : A := isc * ecf * Num.max2 0.0 cosz
end formulas

/-- `airmass`, `_base.py:362-418` -/
def airmass (parameterization : String) : Except PyErr (DA F) :=
  if parameterization = "kasten_1965" then
    .ok (amOf s.zenithDeg (recKasten s.zenithDeg s.cosz))
  else if parameterization = "kasten_and_young_1989" then
    .ok (amOf s.zenithDeg (recKastenYoung s.zenithDeg s.cosz))
  else if parameterization = "gueymard_2001" then
    .ok (amOf s.zenithDeg (recGueymard2001 s.zenithDeg s.cosz))
  else if parameterization = "gueymard_2003" then
    .ok (amOf s.zenithDeg (recGueymard2003 s.zenithDeg s.cosz))
  else .error .valueError

/-- `eth`, `_base.py:306-357` -/
def eth (isc : F) (amCorrection : String) : Except PyErr (DA F) :=
  let e := ethOf (DA.scalar isc) s.ecf s.cosz
  if amCorrection = "none" then .ok (e * 1.0)
  else if amCorrection = "perez_1990" then
    match s.airmass "kasten_and_young_1989" with
    | .ok am => .ok (e * corrPerez am)
    | .error x => .error x
  else if amCorrection = "skarveith_1998" then .ok (e * corrSkartveit s.zenithDeg)
  else if amCorrection = "gonzalez_and_calbo_1999" then
    match s.airmass "gueymard_2003" with
    | .ok am => .ok (e * corrGonzalez am)
    | .error x => .error x
  else .error .valueError

/-- result of `sunrise`/`sunset`: an angle or a time -/
inductive Event (F : Type) where
  | angle (a : DA F)
  | time (t : DA (Option Int))

section formulas
universe u
variable {A : Type u} [Num A]
/-- `tantan`, `_base.py:446-448` -/
def tantan (latDeg decDeg : A) : A := -(Num.tan (radians decDeg)) * Num.tan (radians latDeg)
/-- sunrise hour angle, radians, `_base.py:450-451` -/
def wsrRad (tt : A) : A :=
  Num.arccos (Num.whereLe (-1) tt (Num.whereLe tt 1 tt Num.nan) Num.nan)
/-- `_base.py:457` -/
def wsrHours (wsr : A) : A := 12.0 - (degrees wsr / 15.0)
/-- `wsr*3600*1e9`, `_base.py:459`; `dl_hr*3600*1e9`, `_base.py:518` -/
def hoursToNs (h : A) : A := h * 3600 * 1e9
/-- `self.eot + 4*self.longitude`, `_base.py:475` -/
def deltaMin (eot lon : A) : A := eot + 4 * lon
/-- `delta_hr*60*1e9`, `_base.py:477` -/
def minToNs (m : A) : A := m * 60 * 1e9
end formulas

/-- sunrise angle in radians -/
def wsr : DA F := wsrRad (tantan s.latitude s.decDeg)

/-- `wsr` in true solar time, `_base.py:456-472` -/
def sunriseTst : DA (Option Int) :=
  DA.map2 tadd ((hoursToNs (wsrHours s.wsr)).map Scalar.toInt) ((s.trueSolarTime w).map floorDay)
/-- `_base.py:474-478` -/
def sunriseUtc : DA (Option Int) :=
  DA.map2 tsub (s.sunriseTst w) ((minToNs (deltaMin s.eot s.longitude)).map Scalar.toInt)
/-- `utcoffset`, `_base.py:481-483` -/
def utcOffset : DA (Option Int) :=
  DA.along .time s.times.length
    (fun k => tsub ((s.times[k]?).getD none) ((s.timesUtc[k]?).getD none))
/-- `_base.py:484` -/
def sunriseLocal : DA (Option Int) := DA.map2 tadd (s.sunriseUtc w) s.utcOffset

/-- `sunrise`, `_base.py:423-490` -/
def sunrise (units : String) : Except PyErr (Event F) :=
  if units = "deg" then .ok (.angle (degrees s.wsr))
  else if units = "rad" then .ok (.angle s.wsr)
  else if units = "tst" then .ok (.time (s.sunriseTst w))
  else if units = "utc" then .ok (.time (s.sunriseUtc w))
  else if units = "local" then .ok (.time (s.sunriseLocal w))
  else .error .assertionError

/-- `daylight_length`, `_base.py:532-543`: `(2./15.)*sunrise('deg')` -/
def daylightLength : Except PyErr (DA F) :=
  match s.sunrise w "deg" with
  | .ok (.angle a) => .ok (2.0 / 15.0 * a)
  | .ok (.time _) => .error .typeError
  | .error e => .error e

/-- `sunset`, `_base.py:492-530`: for 'deg' and 'rad' the variable `wss` is read before it is
assigned -/
def sunset (units : String) : Except PyErr (Event F) :=
  if units = "tst" ∨ units = "utc" ∨ units = "local" then
    match s.sunrise w units, s.daylightLength w with
    | .ok (.time t), .ok dl => .ok (.time (DA.map2 tadd t ((hoursToNs dl).map Scalar.toInt)))
    | .ok (.angle _), _ => .error .typeError
    | .error e, _ => .error e
    | _, .error e => .error e
  else if units = "deg" ∨ units = "rad" then .error .unboundLocalError
  else .error .assertionError

section formulas
universe u
variable {A : Type u} [Num A]
/-- `hour` from the float of the time of day, `_base.py:562` -/
def hourOf (ns : A) : A := ns * 1e-9 / 3600
/-- `_base.py:563` -/
def haDeg (hour : A) : A := 15 * (12 - hour)
/-- `coss`, `_base.py:565-575` -/
def coss (slope saz lat dec ha : A) : A :=
  (Num.sin (radians lat) * Num.cos (radians slope)
      - Num.cos (radians lat) * Num.sin (radians slope) * Num.cos (radians saz))
      * Num.sin (radians dec)
    + (Num.cos (radians lat) * Num.cos (radians slope)
      + Num.sin (radians lat) * Num.sin (radians slope) * Num.cos (radians saz))
      * Num.cos (radians dec) * Num.cos (radians ha)
    + Num.cos (radians dec) * Num.sin (radians ha) * Num.sin (radians slope)
      * Num.sin (radians saz)
end formulas

/-- float of the time of day of the true solar time, ns, `_base.py:559-562` -/
def todFloat : DA F :=
  (s.trueSolarTime w).map (fun t => stampFloat w (tsub t (floorDay t)))
/-- `incidence`, `_base.py:545-577` -/
def incidence (slope saz : F) : DA F :=
  coss (DA.scalar slope) (DA.scalar saz) s.latitude s.decDeg (haDeg (hourOf (s.todFloat w)))

end Sunpos

end SW
