/-
Loading the package: `safe_import`, the table of algorithms when some module cannot be imported, and calls through that table.
-/
import Verif.Sunpos

namespace SW.Install
open SW

/-- What `import x` does: loads, raises ImportError (of which ModuleNotFoundError is a subclass), or raises another exception. -/
inductive Import where
  | loads
  | importError
  | otherError
  deriving DecidableEq, Repr

/-- The packages outside sunwhere, by name. -/
abbrev Packages := String → Import

/-- The first of a sequence of import statements that does not load decides; the exception propagates. -/
def importAll (pk : Packages) : List String → Import
  | [] => .loads
  | p :: ps => match pk p with
    | .loads => importAll pk ps
    | e => e

/-- The import statements of the modules of `libspa`: ne_iqbal.py:5-6, ne_nrel.py:10-11, ne_psa.py:5-6, ne_soltrack.py:5-6,
py_iqbal.py:2, py_psa.py:4, py_soltrack.py:4. -/
def moduleImports : String → List String
  | ".py_psa" | ".py_soltrack" | ".py_iqbal" => ["numpy"]
  | _ => ["numpy", "numexpr"]

/-- `safe_import`, utils/__init__.py:5-10: the module, `None` (`none`) on ImportError; any other exception propagates. -/
def safeImport {α : Type} (pk : Packages) (name : String) (m : α) : Except Import (Option α) :=
  match importAll pk (moduleImports name) with
  | .loads => .ok (some m)
  | .importError => .ok none
  | .otherError => .error .otherError

section
variable {F : Type} [Scalar F]

/-- the type of `__ALGORITHMS__` -/
abbrev Table (F : Type) := List (String × List (String × Option (Module F)))

/-- `__ALGORITHMS__`, _core.py:21-37 -/
def loadTable (pk : Packages) : Except Import (Table F) := do
  let a ← safeImport pk ".py_psa" ⟨Psa.py1, Psa.py2, Psa.py3⟩
  let b ← safeImport pk ".ne_psa" ⟨Psa.ne1, Psa.ne2, Psa.ne3⟩
  let c ← safeImport pk ".py_soltrack" ⟨Soltrack.py1, Soltrack.py2, Soltrack.py3⟩
  let d ← safeImport pk ".ne_soltrack" ⟨Soltrack.ne1, Soltrack.ne2, Soltrack.ne3⟩
  let e ← safeImport pk ".py_iqbal" ⟨Iqbal.py1, Iqbal.py2, Iqbal.py3⟩
  let f ← safeImport pk ".ne_iqbal" ⟨Iqbal.ne1, Iqbal.ne2, Iqbal.ne3⟩
  let g ← safeImport pk ".ne_nrel" ⟨Nrel.ne1, Nrel.ne2, Nrel.ne3⟩
  return [("psa", [("numpy", a), ("numexpr", b)]), ("soltrack", [("numpy", c), ("numexpr", d)]),
    ("iqbal", [("numpy", e), ("numexpr", f)]), ("nrel", [("numexpr", g)])]

/-- `import sunwhere`: the unguarded imports in the order they run (__init__.py:4-7, usecases.py:4-9, _core.py:15-18, validate.py:2-3,
_base.py:6-8, datetime.py:2-4; the standard library is not modelled) around the table. -/
def importPackage (pk : Packages) : Except Import (Table F) :=
  match importAll pk ["numpy", "pandas", "numpy", "loguru", "numpy", "pandas"] with
  | .loads => do
    let t ← loadTable pk
    match importAll pk ["numpy", "pandas", "xarray", "numpy"] with
    | .loads => return t
    | e => throw e
  | e => throw e

/-- `SPA_ALGORITHMS`, __init__.py:14 -/
def spaAlgorithms (t : Table F) : List String := t.map Prod.fst

/-- the two membership tests, _core.py:112-121, which look at the keys only, and the look-up, 154 -/
def findIn (t : Table F) (algorithm engine : String) : Except PyErr (Option (Module F)) :=
  match t.lookup algorithm with
  | none => .error .valueError
  | some engines =>
    match engines.lookup engine with
    | none => .error .valueError
    | some m => .ok m

/-- `evaluate`, _core.py:42-203, with the table as it was loaded: `.sunpos` of a module that is `None` (154) raises AttributeError, after the validation of the arguments (126-128). -/
def evaluateIn (t : Table F) (times : Times) (latitude longitude : Coord F) (algorithm : String) (ndim : Int)
    (refraction : PyVal) (engine : String) : Except PyErr (Eval F) := do
  let m? ← findIn t algorithm engine
  let ndim ← checkNdim ndim
  let (ts, lat, lon) ← checkTimeLatLon times latitude longitude ndim
  let tsN := ts.filterMap id
  let latN := if ndim = 0 then maskSel ts lat else lat
  let lonN := if ndim = 0 then maskSel ts lon else lon
  match m? with
  | none => throw .attributeError
  | some m =>
    let result ← m.sunpos tsN lonN latN ndim refraction
    let inner := if ndim = 0 then [] else if ndim = 1 then [lat.length] else [lon.length, lat.length]
    let ecf ← scatter ts [] result.ecf
    let eot ← scatter ts [] result.eot
    let declination ← scatter ts [] result.declination
    let zenith ← scatter ts inner result.zenith
    let azimuth ← scatter ts inner result.azimuth
    return { ecf, eot, declination, zenith, azimuth }

/-- `sites`, `regular_grid` and `transect` (usecases.py:77-114, 178-209, 263-298), with the table as it was loaded. -/
def callIn (t : Table F) (uc : UseCase) (w : World F) (times : Times) (latitude longitude : Coord F)
    (algorithm : String) (refraction : PyVal) (engine : String) : Except PyErr (Sunpos F) :=
  if times.nested then .error .typeError
  else
    match latitude.flat?, longitude.flat? with
    | some lat, some lon =>
      match uc with
      | .sites =>
        if lat.length ≠ lon.length then .error .valueError
        else
          match evaluateIn t { nested := false, tz := none, stamps := times.stamps.map (Option.map (fun t => toNs (toSec t))) }
              (.vec lat) (.vec lon) algorithm 1 refraction engine with
          | .error e => .error e
          | .ok ev => Sunpos.init w times lat lon algorithm engine refraction .sites ev
      | .regularGrid =>
        match evaluateIn t times (.vec lat) (.vec lon) algorithm 2 refraction engine with
        | .error e => .error e
        | .ok ev => Sunpos.init w times lat lon algorithm engine refraction .regularGrid ev
      | .transect =>
        if ¬ (lat.length = lon.length ∧ lon.length = times.stamps.length) then .error .valueError
        else
          match evaluateIn t times (.vec lat) (.vec lon) algorithm 0 refraction engine with
          | .error e => .error e
          | .ok ev => Sunpos.init w times lat lon algorithm engine refraction .transect ev
    | _, _ => .error .valueError

end
end SW.Install
