/-
What the figures of the benchmark show: `_cli/benchmark.py:244-277` (`plot_accuracy`, the samples), 417-464 (`load_speed_tests`, which speeds are
measured) and 480-491 (`plot_exec_time`, the seconds of a cell).

Simplified: a frame has the same number of rows in all columns; the order of the methods within one time is not that of pandas' `stack` (the samples are
sorted by method in the end). Not modelled: the densities, colours and axes of the figures; the files in which the measured speeds are kept.
-/
import Verif.Speed

namespace SW.Bench

/-- one row of the data of the figure: method and absolute errors (degrees) -/
structure Sample where
  method : String
  zenith : XR
  azimuth : XR

/-- the cell of a column in a row; NaN if there is none -/
def cellAt (c : List XR) (k : Nat) : XR := (c[k]?).getD .nan

/-- the row of a method at one time, benchmark.py:246-253: `stack` drops it if all variables of the method are missing -/
noncomputable def stackRow (residue : Frame XR) (k : Nat) (m : String) : Option Sample :=
  if (residue.method m).all fun c => Scalar.isNan (cellAt c.2 k) then none
  else some ⟨m, Num.absv (cellAt (((residue.method m).lookup "zenith").getD []) k), Num.absv (cellAt (((residue.method m).lookup "azimuth").getD []) k)⟩

/-- number of rows of a frame -/
def Frame.rows {F : Type} (d : Frame F) : Nat := (d.cols.head?.map fun c => c.2.length).getD 0

/-- `.stack(level='method')`, benchmark.py:248 -/
noncomputable def stackSamples (residue : Frame XR) : List Sample :=
  (List.range residue.rows).flatMap fun k => residue.methods.filterMap (stackRow residue k)

/-- `.drop(columns=['time_utc', 'ecf'])` and the use of `df.zenith`, `df.azimuth`, benchmark.py:249-253 -/
def needColumns (residue : Frame XR) : Except PyErr Unit :=
  if residue.cols.all fun c => c.1.2 != "ecf" then .error .keyError
  else if residue.cols.all fun c => c.1.2 != "zenith" then .error .attributeError
  else if residue.cols.all fun c => c.1.2 != "azimuth" then .error .attributeError
  else .ok ()

/-- `df.method.map(lambda m: sort_by[m])`, benchmark.py:258 -/
def maeOf (sortBy : List (String × Option ℝ)) (s : Sample) : Except PyErr (Option ℝ × Sample) :=
  match sortBy.lookup s.method with
  | some a => .ok (a, s)
  | none => .error .keyError

/-- benchmark.py:256-261; `sort` is `sort_values(by='mae')`, which is not stable -/
def orderSamples (sort : List (Option ℝ × Sample) → List (Option ℝ × Sample)) (df : List Sample) : Option (List (String × Option ℝ)) → Except PyErr (List Sample)
  | none => .ok df
  | some sortBy => do
    let rows ← df.mapM (maeOf sortBy)
    return (sort rows).map Prod.snd

/-- `methods_to_remove`, benchmark.py:263-266 -/
def methodsToRemove : List String :=
  ["sunwhere.nrel_numpy", "sunwhere.psa_numpy", "sunwhere.iqbal_numpy", "sunwhere.soltrack_numpy", "pvlib.nrel_numpy", "soltrack.SolTrack"]

/-- the names in the figure, benchmark.py:269-279; other names stay -/
def figureName (name : String) : String :=
  (([("pvlib.nrel_numba", "pvlib's NREL"), ("sunwhere.nrel_numexpr", "sunwhere's NREL"), ("pvlib.pyephem", "pvlib's PYEPHEM"),
    ("pvlib.ephemeris", "pvlib's EPHEMERIS"), ("sunwhere.iqbal_numexpr", "sunwhere's IQBAL"), ("sunwhere.psa_numexpr", "sunwhere's PSA"),
    ("sunwhere.soltrack_numexpr", "sunwhere's SOLTRACK"), ("sg2.sg2_c++", "SG2")] : List (String × String)).lookup name).getD name

/-- the data of `plot_accuracy(ephemeris, sort_by)`, benchmark.py:244-279 -/
noncomputable def accuracyData (sort : List (Option ℝ × Sample) → List (Option ℝ × Sample)) (ephemeris : Frame XR) (sortBy : Option (List (String × Option ℝ))) :
    Except PyErr (List Sample) := do
  let residue ← calcResidues ephemeris "jpl" false
  needColumns residue
  let df ← orderSamples sort (stackSamples residue) sortBy
  return (df.filter fun s => !methodsToRemove.contains s.method).map fun s => { s with method := figureName s.method }

/-- the figure of `run_benchmark(.., show_accuracy=True)`, benchmark.py:558-602: sorted by `ephemeris_errors.loc[('zenith', 'mae')]` -/
noncomputable def accuracyFigure (sort : List (Option ℝ × Sample) → List (Option ℝ × Sample)) (w : World XR) (times : Times) (lat lon : XR)
    (jpl : List (String × List XR)) (others : List ((String × String) × List XR)) : Except PyErr (List Sample) := do
  let sun ← sunwhereEphemeris w times lat lon
  let ephemeris : Frame XR := ⟨jpl.map (fun c => (("jpl", c.1), c.2)) ++ others ++ sun⟩
  let errors ← bulkErrors ephemeris
  accuracyData sort ephemeris (some (((errors.lookup "zenith").getD []).map fun r => (r.1, r.2.mae)))

/-- the cell of the table of `plot_exec_time`, benchmark.py:490-491: seconds, from microseconds per position -/
noncomputable def totalSeconds (tRel : ℝ) (nTimes nTotLocs : ℕ) : ℝ := tRel * nTimes * nTotLocs * 1e-6

/-- the measurements of `load_speed_tests`, benchmark.py:423-456, in order: library, algorithm, number of times, of places -/
def speedRequests : List (String × String × Int × NLocs) :=
  [("sunwhere", ["nrel_numexpr", "soltrack_numexpr", "soltrack_numpy", "psa_numexpr", "psa_numpy", "iqbal_numexpr", "iqbal_numpy"]),
   ("pvlib", ["nrel_numba", "nrel_numpy"]), ("sg2", ["sg2_c++"])].flatMap fun l => l.2.flatMap fun algorithm =>
    ([1, 10, 100, 1000, 10000, 50000, 100000, 500000] : List Int).flatMap fun nTimes =>
      ([(.int 1, false), (.int 10, false), (.int 100, false), (.text ['1', '0', 'x', '1', '0'], false), (.text ['5', '0', 'x', '5', '0'], true),
        (.text ['1', '0', '0', 'x', '1', '0', '0'], true)] : List (NLocs × Bool)).filterMap fun n =>
        if 1000 < nTimes ∧ n.2 = true then none else some (l.1, algorithm, nTimes, n.1)

end SW.Bench
