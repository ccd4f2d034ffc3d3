/-
Validation, dispatch and evaluation: `_core.py`, `utils/validate.py`, `usecases.py`.
-/
import Verif.Shapes

namespace SW



/-- Python exceptions that the modelled code can raise. -/
inductive PyErr where
  | valueError | typeError | assertionError | attributeError | unboundLocalError
  | keyError | indexError | zeroDivisionError | systemExit | osError | localizeError | connectionError
  deriving DecidableEq, Repr

/-- Python values that can be passed as `refraction`: the two `bool` objects, and anything else
(`1`, `numpy.bool_(True)`, `"yes"`, `None`, ...; `tag` tells such objects apart). The code tests
`with_refraction is True`. -/
inductive PyVal where
  | pyTrue
  | pyFalse
  | other (tag : String)
  deriving DecidableEq, Repr

/-- `with_refraction is True` -/
def PyVal.isTrue : PyVal → Bool
  | .pyTrue => true
  | _ => false

/-- The attribute `zone` of a `tzinfo` object: not there (zoneinfo, datetime.timezone), `None`
(pytz.FixedOffset) or a name (pytz). -/
inductive ZoneAttr where
  | absent
  | pyNone
  | name (s : String)
  deriving DecidableEq, Repr

/-- A time zone: its `zone` attribute and its offset (local minus UTC, ns) at each UTC instant (ns). -/
structure Tz where
  zone : ZoneAttr
  off : Int → Int

/-- The `times` argument, as pandas understands it: `nested` for an array with two or more
dimensions (`pd.to_datetime` raises TypeError); `tz` the time zone, `none` if naive; `stamps` the
time stamps in nanoseconds since 1970-01-01, `none` for NaT. For naive times they are the
stamps as written, for aware times the UTC instants. A scalar is a list of length one. -/
structure Times where
  nested : Bool
  tz : Option Tz
  stamps : List (Option Int)

/-- wall-clock readings: `.tz_localize(None)` of the (not converted) times -/
def Times.wall (t : Times) : List (Option Int) :=
  match t.tz with
  | none => t.stamps
  | some z => t.stamps.map (Option.map (fun u => u + z.off u))

/-- latitude or longitude argument: a scalar, a 1-dim sequence, or an array of `d + 2` dimensions -/
inductive Coord (F : Type) where
  | scalar (x : F)
  | vec (l : List F)
  | nd (d : Nat)

/-- `np.array(x, ndmin=1)` when at most 1-dim -/
def Coord.flat? {F : Type} : Coord F → Option (List F)
  | .scalar x => some [x]
  | .vec l => some l
  | .nd _ => none

/-- `datetime64[ns]` to `datetime64[s]` (numpy floors) -/
def toSec (ns : Int) : Int := ns / 1000000000
/-- `datetime64[s]` to `datetime64[ns]` -/
def toNs (s : Int) : Int := s * 1000000000

/-- An engine module of `libspa` -/
structure Module (F : Type) where
  dim1 : Arr Int → Arr F → Arr F → Bool → Out (Arr F)
  dim2 : Arr Int → Arr F → Arr F → Bool → Out (Arr F)
  dim3 : Arr Int → Arr F → Arr F → Bool → Out (Arr F)

section
variable {F : Type} [Scalar F]

/-- no shape error occurred while computing the five outputs -/
def Out.allOk (o : Out (Arr F)) : Bool :=
  o.zenith.ok && o.azimuth.ok && o.ecf.ok && o.declination.ok && o.eot.ok

/-- raise ValueError if an operation met incompatible shapes -/
def Out.guard (o : Out (Arr F)) : Except PyErr (Out (Arr F)) :=
  if o.allOk then .ok o else .error .valueError

/-- `sunpos` of an engine module (e.g. py_psa.py:14-59; the same text in all seven modules) -/
def Module.sunpos (m : Module F) (ts : List Int) (lon lat : List F) (ndim : Int) (refr : PyVal) :
    Except PyErr (Out (Arr F)) :=
  let t := Arr.ofList 0 ts
  let x := Arr.ofList Num.nan lon
  let y := Arr.ofList Num.nan lat
  if ndim = 0 then
    if ts.length = lon.length ∧ lon.length = lat.length then (m.dim1 t x y refr.isTrue).guard
    else .error .assertionError
  else if ndim = 1 then
    if lon.length = lat.length then (m.dim2 t x y refr.isTrue).guard
    else .error .assertionError
  else if ndim = 2 then (m.dim3 t x y refr.isTrue).guard
  else .error .assertionError

/-- `__ALGORITHMS__`, _core.py:21-37 (all modules importable) -/
def algorithms : List (String × List (String × Module F)) :=
  [("psa", [("numpy", ⟨Psa.py1, Psa.py2, Psa.py3⟩), ("numexpr", ⟨Psa.ne1, Psa.ne2, Psa.ne3⟩)]),
   ("soltrack", [("numpy", ⟨Soltrack.py1, Soltrack.py2, Soltrack.py3⟩),
                 ("numexpr", ⟨Soltrack.ne1, Soltrack.ne2, Soltrack.ne3⟩)]),
   ("iqbal", [("numpy", ⟨Iqbal.py1, Iqbal.py2, Iqbal.py3⟩),
              ("numexpr", ⟨Iqbal.ne1, Iqbal.ne2, Iqbal.ne3⟩)]),
   ("nrel", [("numexpr", ⟨Nrel.ne1, Nrel.ne2, Nrel.ne3⟩)])]

/-- the two membership tests and the look-up, _core.py:112-121, 154 -/
def findModule (algorithm engine : String) : Except PyErr (Module F) :=
  match (algorithms (F := F)).lookup algorithm with
  | none => .error .valueError
  | some engines =>
    match engines.lookup engine with
    | none => .error .valueError
    | some m => .ok m

/-- `check_ndim`, validate.py:6-11 -/
def checkNdim (ndim : Int) : Except PyErr Int :=
  if ndim = 0 ∨ ndim = 1 ∨ ndim = 2 then .ok ndim else .error .valueError

/-- `not isnan(x)` values of an array -/
def notNan (l : List F) : List F := l.filter (fun x => !Scalar.isNan x)

/-- `check_timelatlon`, validate.py:14-82: returns times in whole seconds, latitudes and
longitudes -/
def checkTimeLatLon (times : Times) (latitude longitude : Coord F) (ndim : Int) :
    Except PyErr (List (Option Int) × List F × List F) :=
  if times.nested then .error .typeError
  else
    let ts := times.stamps.map (Option.map toSec)
    match longitude.flat? with
    | none => .error .valueError
    | some lon =>
      if !((notNan lon).all (fun x => Scalar.leB (-180) x)
          && (notNan lon).all (fun x => Scalar.ltB x 180.0)) then .error .valueError
      else
        match latitude.flat? with
        | none => .error .valueError
        | some lat =>
          if !((notNan lat).all (fun x => Scalar.leB (-90) x)
              && (notNan lat).all (fun x => Scalar.leB x 90.0)) then .error .valueError
          else if ndim = 0 ∧ ¬ (ts.length = lon.length ∧ lon.length = lat.length) then
            .error .valueError
          else if ndim = 1 ∧ lon.length ≠ lat.length then .error .valueError
          else .ok (ts, lat, lon)

/-- `x[nonat]` -/
def maskSel {α : Type} : List (Option Int) → List α → List α
  | some _ :: ts, x :: xs => x :: maskSel ts xs
  | none :: ts, _ :: xs => maskSel ts xs
  | _, _ => []

/-- number of true entries of `nonat` before position `k` -/
def maskRank (ts : List (Option Int)) (k : Nat) : Nat := ((ts.take k).filter Option.isSome).length

/-- `output = np.full(outer.., nan); output[nonat, ...] = values` (_core.py:177-188): `inner` are the
axes other than time, innermost first. ValueError if `values` cannot be broadcast to the selected
part. -/
def scatter (ts : List (Option Int)) (inner : List Nat) (values : Arr F) : Except PyErr (Arr F) :=
  if fits values.rs (inner ++ [(ts.filter Option.isSome).length]) then
    .ok { rs := inner ++ [ts.length]
          ok := true
          get := fun i =>
            let k := i.getD inner.length 0
            if ((ts[k]?).getD none).isSome then
              values.at' (i.take inner.length ++ [maskRank ts k])
            else Num.nan }
  else .error .valueError

/-- the dict returned by `evaluate` (only the computed variables) -/
structure Eval (F : Type) where
  ecf : Arr F
  eot : Arr F
  declination : Arr F
  zenith : Arr F
  azimuth : Arr F

/-- `evaluate`, _core.py:42-203 -/
def evaluate (times : Times) (latitude longitude : Coord F) (algorithm : String) (ndim : Int)
    (refraction : PyVal) (engine : String) : Except PyErr (Eval F) := do
  let m ← findModule algorithm engine
  let ndim ← checkNdim ndim
  let (ts, lat, lon) ← checkTimeLatLon times latitude longitude ndim
  let tsN := ts.filterMap id
  let latN := if ndim = 0 then maskSel ts lat else lat
  let lonN := if ndim = 0 then maskSel ts lon else lon
  let result ← m.sunpos tsN lonN latN ndim refraction
  let inner := if ndim = 0 then [] else if ndim = 1 then [lat.length] else [lon.length, lat.length]
  let ecf ← scatter ts [] result.ecf
  let eot ← scatter ts [] result.eot
  let declination ← scatter ts [] result.declination
  let zenith ← scatter ts inner result.zenith
  let azimuth ← scatter ts inner result.azimuth
  return { ecf, eot, declination, zenith, azimuth }

end

end SW
