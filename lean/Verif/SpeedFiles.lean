/-
The table of speeds and the files that keep it between runs, `_cli/benchmark.py:417-464` (`load_speed_tests`), as a process that can be killed at any of its effects.
The measurements are those of `Verif/Speed.lean`.
-/
import Verif.BenchFigures

namespace SW.Bench
open SW

/-- a measurement: library, algorithm, number of times, of places -/
abbrev Request := String × String × Int × NLocs

/-- A frame of one algorithm: the cells by row (number of times) and column (label of the places), row by row. Simplification: the labels of the columns are the texts that
parquet makes of them. -/
abbrev SpeedTable := List ((Int × String) × Option ℝ)

/-- a directory: by name, no file, a file that cannot be read (its writer was killed), or a frame -/
abbrev SpeedDir := String → Option (Option SpeedTable)

/-- how a call ends other than by returning -/
inductive Stop where
  | killed
  | raised (e : PyErr)
deriving DecidableEq

/-- the state of a call: effects until it is killed, directory, measurements made (in order) -/
structure SpeedSt where
  budget : Nat
  dir : SpeedDir
  log : List Request

/-- a piece of the program: what it does to the state, also if it stops -/
abbrev Proc (α : Type) := EStateM Stop SpeedSt α

/-- one more effect -/
def tick : Proc Unit := fun s => if s.budget = 0 then .error .killed s else .ok () { s with budget := s.budget - 1 }

/-- an exception stops the call -/
def raising {α : Type} : Except PyErr α → Proc α
  | .ok a => fun s => .ok a s
  | .error e => fun s => .error (.raised e) s

/-- the numbers of times, benchmark.py:431 -/
def speedSteps : List Int := [1, 10, 100, 1000, 10000, 50000, 100000, 500000]

/-- the numbers of places, benchmark.py:432, as label of the column and as argument; the flag marks those of line 454 -/
def speedColumns : List (String × NLocs × Bool) :=
  [("1", .int 1, false), ("10", .int 10, false), ("100", .int 100, false), ("10x10", .text ['1', '0', 'x', '1', '0'], false),
   ("50x50", .text ['5', '0', 'x', '5', '0'], true), ("100x100", .text ['1', '0', '0', 'x', '1', '0', '0'], true)]

/-- libraries and algorithms, benchmark.py:422-429, in order -/
def speedMethods : List (String × String) :=
  ["nrel_numexpr", "soltrack_numexpr", "soltrack_numpy", "psa_numexpr", "psa_numpy", "iqbal_numexpr", "iqbal_numpy"].map (fun a => ("sunwhere", a)) ++
    [("pvlib", "nrel_numba"), ("pvlib", "nrel_numpy"), ("sg2", "sg2_c++")]

/-- the pairs of row and column, `iter_dataframe`, benchmark.py:434-437 -/
def speedCells : List (Int × (String × NLocs × Bool)) := speedSteps.flatMap fun n => speedColumns.map fun c => (n, c)

/-- the frame without values, benchmark.py:448 -/
def blankTable : SpeedTable := speedCells.map fun x => ((x.1, x.2.1), none)

/-- `df.loc[n_times][n_locs] = v`, benchmark.py:458. Before pandas 3 the row is a view of the frame. With the copy-on-write of pandas 3 (`pyproject.toml` asks for at least
3.0.2) it is a temporary that is thrown away, and the frame keeps what it had. -/
def setCell (cow : Bool) (t : SpeedTable) (n : Int) (col : String) (v : Option ℝ) : SpeedTable :=
  if cow then t else t.map fun x => if x.1 = (n, col) then (x.1, v) else x

/-- the loop of benchmark.py:452-458 over the cells that are left -/
noncomputable def measureCells (cow : Bool) (env : Request → SpeedEnv XR) (library algorithm : String) : List (Int × (String × NLocs × Bool)) → SpeedTable → Proc SpeedTable
  | [], t => fun s => .ok t s
  | (n, (label, locs, big)) :: rest, t =>
    if 1000 < n ∧ big = true then measureCells cow env library algorithm rest t
    else do
      tick
      let sp ← raising (speedMeter (env (library, algorithm, n, locs)) library algorithm n locs 3 1)
      modify fun s => { s with log := s.log ++ [(library, algorithm, n, locs)] }
      measureCells cow env library algorithm rest (setCell cow t n label sp.mean)

/-- the name of the file, benchmark.py:446 -/
def speedFile (library algorithm : String) : String := s!"exec_time_us_{library}_{algorithm}.parquet"

/-- `to_parquet`, benchmark.py:459: the file is there before it is complete -/
def writeTable (name : String) (t : SpeedTable) : Proc Unit := do
  tick
  modify fun s => { s with dir := fun m => if m = name then some none else s.dir m }
  tick
  modify fun s => { s with dir := fun m => if m = name then some (some t) else s.dir m }

/-- `pd.read_parquet`, benchmark.py:461; ArrowInvalid is a ValueError, FileNotFoundError an OSError -/
def readTable (name : String) : Proc SpeedTable := fun s =>
  match s.dir name with
  | some (some t) => .ok t s
  | some none => .error (.raised .valueError) s
  | none => .error (.raised .osError) s

/-- one algorithm, benchmark.py:446-461 -/
noncomputable def loadMethod (cow : Bool) (env : Request → SpeedEnv XR) (library algorithm : String) : Proc (String × SpeedTable) := do
  let s ← get
  if s.dir (speedFile library algorithm) = none then
    let t ← measureCells cow env library algorithm speedCells blankTable
    writeTable (speedFile library algorithm) t
  let t ← readTable (speedFile library algorithm)
  return (library ++ "." ++ algorithm, t)

/-- the loop over the algorithms, benchmark.py:443-461 -/
noncomputable def loadMethods (cow : Bool) (env : Request → SpeedEnv XR) : List (String × String) → Proc (List (String × SpeedTable))
  | [] => fun s => .ok [] s
  | (l, a) :: rest => do
    let x ← loadMethod cow env l a
    let xs ← loadMethods cow env rest
    return x :: xs

/-- what a call of `load_speed_tests` leaves and how it ends -/
structure SpeedRun where
  dir : SpeedDir
  log : List Request
  result : Except Stop (List (String × SpeedTable))

/-- `load_speed_tests(out_dir)`, benchmark.py:417-464, killed after `budget` effects (if it has not ended): `env q` is the environment of the measurement `q`. The directory is
there or can be made. The frames are given one by one with their keys instead of concatenated. -/
noncomputable def loadSpeedTests (cow : Bool) (env : Request → SpeedEnv XR) (budget : Nat) (dir : SpeedDir) : SpeedRun :=
  match loadMethods cow env speedMethods ⟨budget, dir, []⟩ with
  | .ok t s => ⟨s.dir, s.log, .ok t⟩
  | .error e s => ⟨s.dir, s.log, .error e⟩

end SW.Bench
