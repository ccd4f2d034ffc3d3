/-
The speed test of the benchmark, `_cli/benchmark.py:323-414` (`speed_meter`), and the columns of the other packages, lines 42-55 (`pvlib_ephemeris`)
and 96-113 (`sg2_ephemeris`).

The random numbers, the measured times and what the statements of the other packages do are parameters. Simplified: `n_repeats` and `number` are not
negative, the names of algorithm and engine contain no quotes (they are pasted into the text of the statement), nothing is printed (`quiet`).
-/
import Verif.BenchReport

namespace SW.Bench

/-- the argument `n_locs`: a Python int (`bool` included), a string, or anything else (a numpy integer, a float, ..) -/
inductive NLocs where
  | int (n : Int)
  | text (s : List Char)
  | other

/-- What the random generator returns, benchmark.py:336-356: `lag_days`, the longitudes and latitudes for `n` sites, `lon0` and `lat0`. -/
structure Rng (F : Type) where
  lagDays : Nat
  lons : Nat → List F
  lats : Nat → List F
  lon0 : F
  lat0 : F

/-- What the speed test takes from its environment: random numbers, Python's `int` of a string (`none` for a ValueError), the time that the repetition
`i` took (seconds), and what the statement of another library does. -/
structure SpeedEnv (F : Type) extends World F where
  rng : Rng F
  readInt : List Char → Option Int
  lapse : Nat → ℝ
  foreign : String → String → Except PyErr Unit

/-- what is measured: places, use case and the number of places, `n_total_locs` -/
structure Places (F : Type) where
  uc : UseCase
  lats : Coord F
  lons : Coord F
  total : Int

/-- what `speed_meter` returns (microseconds; `none` where numpy has NaN or an infinity), and the results of the measured calls, which it throws away -/
structure Speed (F : Type) where
  runs : List (Sunpos F)
  mean : Option ℝ
  std : Option ℝ

section
variable {F : Type} [Scalar F]

/-- `pd.date_range(t0, freq='1min', periods=n)`, benchmark.py:338-339: `t0` is midnight of 1 January 2024 (day 19723) plus `lag` days; ValueError for a negative
number of periods, and (OutOfBoundsDatetime) beyond the last nanosecond of 64 bits -/
def minuteRange (lag : Nat) (n : Int) : Except PyErr Times :=
  let t0 : Int := (19723 + lag) * 86400000000000
  if n < 0 then .error .valueError
  else if 0 < n ∧ 2 ^ 63 ≤ t0 + (n - 1) * 60000000000 then .error .valueError
  else .ok ⟨false, none, (List.range n.toNat).map fun k : Nat => some (t0 + k * 60000000000)⟩

/-- `np.linspace(a, b, n)` -/
def linspace (a b : F) (n : Int) : Except PyErr (List F) :=
  if n < 0 then .error .valueError
  else .ok ((List.range n.toNat).map fun k : Nat =>
    if k = 0 then a
    else if (k : Int) = n - 1 then b
    else Scalar.ofInt k * ((b - a) / Scalar.ofInt (n - 1)) + a)

/-- `int(s)` -/
def intOf (env : SpeedEnv F) (s : List Char) : Except PyErr Int :=
  match env.readInt s with
  | some n => .ok n
  | none => .error .valueError

/-- `l[i]` for a list of pieces -/
def piece (l : List (List Char)) (i : Nat) : Except PyErr (List Char) :=
  match l[i]? with
  | some a => .ok a
  | none => .error .indexError

/-- the places, benchmark.py:341-356; `none` if `n_locs` is neither an int nor a string -/
def drawPlaces (env : SpeedEnv F) : NLocs → Except PyErr (Option (Places F))
  | .int n =>
    if n < 0 then .error .valueError
    else
      let lons := env.rng.lons n.toNat
      let lats := env.rng.lats n.toNat
      match n, lats, lons with
      | 1, [lat], [lon] => .ok (some ⟨.sites, .scalar lat, .scalar lon, 1⟩)
      | n, lats, lons => .ok (some ⟨.sites, .vec lats, .vec lons, n⟩)
  | .text s => do
    let a ← piece (split 'x' s) 0
    let nLats ← intOf env a
    let b ← piece (split 'x' s) 1
    let nLons ← intOf env b
    let lons ← linspace env.rng.lon0 (env.rng.lon0 + 5) nLons
    let lats ← linspace env.rng.lat0 (env.rng.lat0 + 5) nLats
    return some ⟨.regularGrid, .vec lats, .vec lons, nLats * nLons⟩
  | .other => .ok none

/-- `np.array(timer.repeat(n_repeats, number))/(number*n_times*n_total_locs)`, benchmark.py:403; `none` for a division by zero -/
noncomputable def lapses (lapse : Nat → ℝ) (nRepeats : Nat) (divisor : Int) : Option (List ℝ) :=
  if divisor = 0 then none else some ((List.range nRepeats).map fun i => lapse i / divisor)

/-- `np.std` (no degree of freedom less) -/
noncomputable def popStd (l : List ℝ) : Option ℝ :=
  (Bench.mean l).bind fun μ => (Bench.mean (l.map fun x => (x - μ) ^ 2)).map Real.sqrt

/-- `algo, engine = algorithm.split('_')`, benchmark.py:359, only for sunwhere -/
def methodNames (library algorithm : String) : Except PyErr (Option (String × String)) :=
  if library = "sunwhere" then
    match split '_' algorithm.toList with
    | [a, e] => .ok (some (String.ofList a, String.ofList e))
    | _ => .error .valueError
  else .ok none

/-- The statement (`predicate`), benchmark.py:358-393, run `n` times. It is not bound for an unknown library. -/
def runStatement (env : SpeedEnv F) (library algorithm : String) (times : Times) (p : Places F) (n : Nat) : Option (String × String) → Except PyErr (List (Sunpos F))
  | some (a, e) => (List.replicate n ()).mapM fun _ => call p.uc env.toWorld times p.lats p.lons a .pyFalse e
  | none =>
    if library = "pvlib" ∨ library = "sg2" then (env.foreign library algorithm).map fun _ => []
    else .error .unboundLocalError

/-- `site_lats` and `site_lons` are used, benchmark.py:395: they are not bound if `n_locs` is neither an int nor a string -/
def bound {α : Type} : Option α → Except PyErr α
  | some p => .ok p
  | none => .error .unboundLocalError

/-- `speed_meter`, benchmark.py:323-414. The statement is run `number` times in each of `n_repeats` repetitions. -/
noncomputable def speedMeter (env : SpeedEnv F) (library algorithm : String) (nTimes : Int) (nLocs : NLocs) (nRepeats number : Nat) : Except PyErr (Speed F) := do
  let times ← minuteRange env.rng.lagDays nTimes
  let places ← drawPlaces env nLocs
  let names ← methodNames library algorithm
  let p ← bound places
  let runs ← runStatement env library algorithm times p (nRepeats * number) names
  let ls := lapses env.lapse nRepeats (number * nTimes * p.total)
  return ⟨runs, (ls.bind Bench.mean).map (· * 1e6), (ls.bind popStd).map (· * 1e6)⟩

/-- `get_ephemeris` of `pvlib_ephemeris`, benchmark.py:46-51: `rows` are the pairs of zenith and azimuth (degrees) of the package -/
def pvlibMethod (name : String) (rows : List (F × F)) : List ((String × String) × List F) :=
  [(("pvlib." ++ name, "zenith"), rows.map fun r => r.1),
   (("pvlib." ++ name, "azimuth"), rows.map fun r => r.2 - 180),
   (("pvlib." ++ name, "ecf"), rows.map fun _ => Num.nan)]

/-- `sg2_ephemeris` with `add_level`, benchmark.py:104-113, 566: `rows` are elevation and azimuth (radians) and distance (astronomical units) of the package -/
def sg2Columns (rows : List (F × F × F)) : List ((String × String) × List F) :=
  [(("sg2.sg2_c++", "zenith"), rows.map fun r => 90.0 - degrees r.1),
   (("sg2.sg2_c++", "azimuth"), rows.map fun r => degrees r.2.1 - 180),
   (("sg2.sg2_c++", "ecf"), rows.map fun r => 1 / Num.npow r.2.2 2)]

end

end SW.Bench
