/-
The clear-sky part of the benchmark: `_cli/benchmark.py:116-122` (`add_clearsky_irradiance`), 184-241 (`get_bulk_clearsky_errors`),
520-535 (`print_bulk_errors` without new names) and 588-595 (`run_benchmark`).

The radiative transfer model SPARTA is another package: it is a parameter, three functions of the cosine of the zenith angle and of the
eccentricity correction factor, applied row by row (its other outputs are not used, line 231). Simplified as in `Verif/BenchReport.lean`:
the frames have the rows of the reference in the same order, and the order in which the methods come between reshapes is not kept, since the
tables are sorted in the end.
-/
import Verif.BenchReport

namespace SW.Bench

/-- `required_methods_mapping`, benchmark.py:185-192 -/
def clearNames : List (String × String) :=
  [("sunwhere.nrel_numexpr", "nrel"), ("sunwhere.psa_numexpr", "psa"), ("sunwhere.iqbal_numexpr", "iqbal"),
   ("sunwhere.soltrack_numexpr", "soltrack"), ("sg2.sg2_c++", "sg2"), ("jpl", "jpl")]

/-- the outputs of `SPARTA(cosz=..., ecf=..., as_dict=True)` that are used: global, direct normal and diffuse irradiance -/
structure Sparta where
  ghi : XR → XR → XR
  dni : XR → XR → XR
  dif : XR → XR → XR

/-- `.loc[ephemeris[('jpl', 'zenith')] < 90.]` of a column, benchmark.py:201; `z` is the zenith of the reference -/
noncomputable def keepDay (z c : List XR) : List XR := ((c.zip z).filter fun p => Scalar.ltB p.2 90).map Prod.fst

/-- a row of a method without zenith angle and eccentricity correction factor: `stack` leaves it out, benchmark.py:117 -/
def noRow (z e : XR) : Bool :=
  match z, e with
  | .nan, .nan => true
  | _, _ => false

/-- the irradiance of one row of one method, benchmark.py:119-120; a row left out comes back without values with `pivot` -/
noncomputable def clearCell (f : XR → XR → XR) (z e : XR) : XR := if noRow z e then .nan else f (Num.cos (radians z)) e

/-- a column of the ephemerides; where there is none, its values are missing after `stack` -/
def Frame.columnOr (d : Frame XR) (m v : String) (z : List XR) : List XR := (d.cols.lookup (m, v)).getD (z.map fun _ => .nan)

/-- the columns of one method, `n.1` in the ephemerides and `n.2` here, benchmark.py:198-202 and 116-122; a method all of whose rows are left
out is not in the result -/
noncomputable def clearColumns (sp : Sparta) (ephemeris : Frame XR) (z : List XR) (n : String × String) : List ((String × String) × List XR) :=
  let zs := keepDay z (ephemeris.columnOr n.1 "zenith" z)
  let es := keepDay z (ephemeris.columnOr n.1 "ecf" z)
  if (zs.zip es).all fun c => noRow c.1 c.2 then []
  else [((n.2, "zenith"), zs), ((n.2, "ecf"), es), ((n.2, "ghi"), List.zipWith (clearCell sp.ghi) zs es),
    ((n.2, "dni"), List.zipWith (clearCell sp.dni) zs es), ((n.2, "dif"), List.zipWith (clearCell sp.dif) zs es)]

/-- the argument of `calc_residues`, benchmark.py:194-204 -/
noncomputable def clearFrame (sp : Sparta) (ephemeris : Frame XR) (z : List XR) : Frame XR :=
  ⟨(clearNames.filter fun n => ephemeris.methods.contains n.1).flatMap (clearColumns sp ephemeris z)⟩

/-- `get_bulk_clearsky_errors`, benchmark.py:184-241: for each of the three irradiances the scores of the methods; KeyError if there is no
reference, or no row of it in daytime, or no other method -/
noncomputable def clearErrors (sp : Sparta) (ephemeris : Frame XR) : Except PyErr (List (String × List (String × Scores))) := do
  let z ← match ephemeris.cols.lookup ("jpl", "zenith") with
    | none => throw .keyError
    | some z => pure z
  let residue ← calcResidues (clearFrame sp ephemeris z) "jpl" false
  ["ghi", "dni", "dif"].mapM fun v =>
    let rows := (residue.cols.filter fun c => c.1.2 == v).map fun c => (c.1.1, scores c.2)
    if rows.isEmpty then .error .keyError
    else .ok (v, open Classical in rows.filter fun r => decide (¬ r.2.missing))

/-- `print_bulk_errors(clearsky_errors, variables=('ghi', 'dni', 'dif'))`, benchmark.py:520-535 -/
noncomputable def clearTables (sort : List (String × Scores) → List (String × Scores)) (errors : List (String × List (String × Scores))) :
    Except PyErr (List (String × List (String × Scores))) :=
  ["ghi", "dni", "dif"].mapM fun v => do
    let rows := (errors.lookup v).getD []
    if rows.isEmpty then throw .keyError
    return (v, sort rows)

/-- all that `run_benchmark` prints, from the reference data on, benchmark.py:556-595: the tables of the ephemerides and those of the
irradiances -/
noncomputable def runBenchmark (sort : List (String × Scores) → List (String × Scores)) (sp : Sparta) (w : World XR) (times : Times) (lat lon : XR)
    (jpl : List (String × List XR)) (others : List ((String × String) × List XR)) :
    Except PyErr (List (String × List (String × Scores)) × List (String × List (String × Scores))) := do
  let sun ← sunwhereEphemeris w times lat lon
  let ephemeris : Frame XR := ⟨jpl.map (fun c => (("jpl", c.1), c.2)) ++ others ++ sun⟩
  let ephemerides ← printedTables sort (← bulkErrors ephemeris)
  let clear ← clearTables sort (← clearErrors sp ephemeris)
  return (ephemerides, clear)

end SW.Bench
