/-
What the benchmark prints: `_cli/benchmark.py:58-82` (`sunwhere_ephemeris`), 144-181 (`get_bulk_ephemeris_errors`),
520-535 (`print_bulk_errors`) and 555-596 (`run_benchmark`, ephemerides).

Simplified: the frames that `run_benchmark` joins (lines 563-568) have the rows of the reference, in the same order (the index of times is
common and has no repetitions). The columns of pvlib and sg2 are a parameter: any columns. pandas' `stack` leaves out rows in which
everything is missing, and the order in which the methods come between reshapes is not kept, since the table is sorted in the end. The
clear-sky part is in `Verif/BenchClear.lean`, the data of the figures in `Verif/BenchFigures.lean`.
-/
import Verif.Bench
import Verif.Sunpos

namespace SW.Bench

/-- `str.split(c)` -/
def split (c : Char) : List Char → List (List Char)
  | [] => [[]]
  | x :: xs =>
    if x = c then [] :: split c xs
    else match split c xs with
      | [] => [[x]]
      | w :: ws => (x :: w) :: ws

section
variable {F : Type} [Scalar F]

/-- position of row `k` at the only location -/
def rowAt (k : Nat) : Dim → Nat
  | .time => k
  | _ => 0

/-- `get_ephemeris` of `sunwhere_ephemeris`, benchmark.py:63-78: the columns `zenith`, `azimuth` and `ecf` of one method; ValueError if the
name is not of the form `algorithm_engine` -/
def sunwhereMethod (w : World F) (times : Times) (lat lon : F) (method : String) : Except PyErr (List ((String × String) × List F)) :=
  match split '_' method.toList with
  | [algorithm, engine] => do
    let s ← sites w times (.scalar lat) (.scalar lon) (String.ofList algorithm) .pyFalse (String.ofList engine)
    let rows := List.range times.stamps.length
    return [(("sunwhere." ++ method, "zenith"), rows.map fun k => s.zenithDeg.get (rowAt k)),
      (("sunwhere." ++ method, "azimuth"), rows.map fun k => s.azimuthDeg.get (rowAt k)),
      (("sunwhere." ++ method, "ecf"), rows.map fun k => s.ecf.get (rowAt k))]
  | _ => .error .valueError

/-- benchmark.py:59-61 -/
def defaultMethods : List String :=
  ["nrel_numexpr", "soltrack_numexpr", "soltrack_numpy", "psa_numexpr", "psa_numpy", "iqbal_numexpr", "iqbal_numpy"]

/-- `sunwhere_ephemeris(times, lat, lon)`, benchmark.py:58-82 -/
def sunwhereEphemeris (w : World F) (times : Times) (lat lon : F) : Except PyErr (List ((String × String) × List F)) := do
  let fs ← defaultMethods.mapM (sunwhereMethod w times lat lon)
  return fs.flatten

/-- `.loc[ephemeris[('jpl', 'zenith')] < 180.]` of a column, benchmark.py:147; `z` is the zenith of the reference -/
def keepRows (z c : List F) : List F := ((c.zip z).filter fun p => Scalar.ltB p.2 180).map Prod.fst

end

/-- a row of scores in which everything is missing is left out by `stack`, benchmark.py:179 -/
def Scores.missing (s : Scores) : Prop :=
  s.mbe = none ∧ s.std = none ∧ s.mae = none ∧ s.rmse = none ∧ s.p66 = none ∧ s.p90 = none

/-- `get_bulk_ephemeris_errors`, benchmark.py:144-181: for each variable the scores of the methods; KeyError if there is no reference, or
a variable is missing altogether (line 176) -/
noncomputable def bulkErrors (ephemeris : Frame XR) : Except PyErr (List (String × List (String × Scores))) := do
  let residue ← calcResidues ephemeris "jpl" false
  let z ← match ephemeris.cols.lookup ("jpl", "zenith") with
    | none => throw .keyError
    | some z => pure z
  ["zenith", "ecf", "azimuth"].mapM fun v =>
    let rows := (residue.cols.filter fun c => c.1.2 == v).map fun c => (c.1.1, scores (keepRows z c.2))
    if rows.isEmpty then .error .keyError
    else .ok (v, open Classical in rows.filter fun r => decide (¬ r.2.missing))

/-- `ephemeris_errors_arcsec[variable] *= factor`, benchmark.py:578-580 -/
noncomputable def Scores.scale (f : ℝ) (s : Scores) : Scores :=
  ⟨s.mbe.map (· * f), s.std.map (· * f), s.mae.map (· * f), s.rmse.map (· * f), s.p66.map (· * f), s.p90.map (· * f)⟩

/-- `reformat`, benchmark.py:524-530 -/
def reformat (name : String) : Except PyErr String :=
  match split '.' name.toList with
  | [package, method] =>
    if '_' ∈ method then
      match split '_' method with
      | [spa, engine] => .ok (String.ofList package ++ "'s " ++ String.ofList (spa.map Char.toUpper) ++ " (" ++ String.ofList engine ++ ")")
      | _ => .error .valueError
    else .ok (String.ofList package ++ "'s " ++ String.ofList (method.map Char.toUpper))
  | _ => .error .valueError

/-- The tables that `run_benchmark` prints of the ephemerides, benchmark.py:573-591 and 520-535: variable, title, factor. `sort` is
`sort_values(by='rmse')`, which is not stable. -/
noncomputable def printedTables (sort : List (String × Scores) → List (String × Scores)) (errors : List (String × List (String × Scores))) :
    Except PyErr (List (String × List (String × Scores))) :=
  [("zenith", "zenith", (3600 : ℝ)), ("azimuth", "azimuth", 3600), ("ecf", "ecf (x10\u207b\u00b3)", 1e3)].mapM fun v => do
    let rows := ((errors.lookup v.1).getD []).map fun r => (r.1, r.2.scale v.2.2)
    if rows.isEmpty then throw .keyError
    let out ← (sort rows).mapM fun r => do return (← reformat r.1, r.2)
    return (v.2.1, out)

/-- `run_benchmark` from the reference data on, benchmark.py:558-591: `jpl` are the columns of the reference, `others` those of pvlib and
sg2 -/
noncomputable def runTables (sort : List (String × Scores) → List (String × Scores)) (w : World XR) (times : Times) (lat lon : XR)
    (jpl : List (String × List XR)) (others : List ((String × String) × List XR)) :
    Except PyErr (List (String × List (String × Scores))) := do
  let sun ← sunwhereEphemeris w times lat lon
  let errors ← bulkErrors ⟨jpl.map (fun c => (("jpl", c.1), c.2)) ++ others ++ sun⟩
  printedTables sort errors

end SW.Bench
