/-
`utils/jpl_horizons.py` and the part of `_cli/benchmark.py` that fetches its reference data.
-/
import Verif.Core
import Verif.Bench
import Verif.Calendar

namespace SW.Jpl

/-! ### data frames with one level of columns -/

/-- index (ns since 1970), whether it is time-zone aware, and the columns in order -/
structure Frame (F : Type) where
  index : List Int
  aware : Bool
  cols : List (String × List F)

/-- `df.drop(columns=names)`: KeyError if one of them is missing -/
def Frame.drop {F : Type} (f : Frame F) (names : List String) : Except PyErr (Frame F) :=
  if names.all (fun n => (f.cols.map (·.1)).contains n) then
    .ok { f with cols := f.cols.filter (fun c => !names.contains c.1) }
  else .error .keyError

/-- `df[name]`: KeyError if missing -/
def Frame.col {F : Type} (f : Frame F) (name : String) : Except PyErr (List F) :=
  match f.cols.lookup name with
  | some c => .ok c
  | none => .error .keyError

/-- `df.assign(name=...)` for a new name -/
def Frame.assign {F : Type} (f : Frame F) (name : String) (c : List F) : Frame F :=
  { f with cols := f.cols ++ [(name, c)] }

/-- `df.tz_localize('UTC')`: TypeError if the index is already aware -/
def Frame.tzLocalize {F : Type} (f : Frame F) : Except PyErr (Frame F) :=
  if f.aware then .error .typeError else .ok { f with aware := true }

/-! ### `read_jpl_ephemeris_file`, jpl_horizons.py:74-100 -/

/-- `s[i:j]` -/
def slice (i j : Nat) (s : List Char) : List Char := (s.take j).drop i

/-- Python's parsers: `float` (`none`: ValueError) and `dateutil`'s `parse` (as ns since 1970) -/
structure Parsers (F : Type) where
  float : List Char → Option F
  date : List Char → Except PyErr Int

/-- `float(s)` -/
def Parsers.num {F : Type} (p : Parsers F) (s : List Char) : Except PyErr F :=
  match p.float s with
  | some x => .ok x
  | none => .error .valueError

/-- a parsed line: time, julian day, azimuth, elevation, distance -/
structure Row (F : Type) where
  time : Int
  jd : F
  az : F
  el : F
  r : F

/-- `parse_line`, jpl_horizons.py:76-84. Not modelled: the time goes through a float64 (see
`C40_whole_seconds`). -/
def parseLine {F : Type} (p : Parsers F) (line : List Char) : Except PyErr (Row F) := do
  let t ← p.date (slice 1 21 line)
  let jd ← p.num (slice 22 39 line)
  let az ← p.num (slice 43 54 line)
  let el ← p.num (slice 55 66 line)
  let r ← p.num (slice 67 84 line)
  return ⟨t, jd, az, el, r⟩

/-- a text file: the list `f.readlines()` -/
abbrev Text := List (List Char)

/-- `lines.index(x, start)`: ValueError if missing -/
def indexFrom (lines : Text) (x : List Char) (start : Nat) : Except PyErr Nat :=
  match (lines.drop start).idxOf? x with
  | some i => .ok (start + i)
  | none => .error .valueError

def soe : List Char := "$$SOE\n".toList
def eoe : List Char := "$$EOE\n".toList

variable {F : Type} [Scalar F]

/-- jpl_horizons.py:86-100. With no data lines `a` is one-dimensional and `a[:, 0]` an IndexError. -/
def read (p : Parsers F) (lines : Text) : Except PyErr (Frame F) := do
  let i ← indexFrom lines soe 0
  let first := i + 1
  let last ← indexFrom lines eoe first
  let rows ← ((lines.take last).drop first).mapM (parseLine p)
  if rows.isEmpty then throw .indexError
  let f : Frame F := ⟨rows.map (·.time), false, [("julian_day", rows.map (·.jd)), ("azimuth0-360", rows.map (·.az)),
    ("elevation", rows.map (·.el)), ("R", rows.map (·.r))]⟩
  let az ← f.col "azimuth0-360"
  let f := f.assign "azimuth" (az.map (· - 180))
  let el ← f.col "elevation"
  let f := f.assign "zenith" (el.map (90.0 - ·))
  let r ← f.col "R"
  let f := f.assign "ecf" (r.map (fun x => 1 / Num.npow x 2))
  let f ← f.drop ["julian_day", "azimuth0-360", "elevation", "R"]
  f.tzLocalize

/-! ### files and the network -/

/-- The files of these functions. -/
inductive Path where
  /-- `data/jpl_ephemeris_highres_{year}-{month:02d}.txt` -/
  | month (year : Int) (month : Nat)
  /-- `jpl_ephemerides_{year}_{lat_str}_{lon_str}.txt` in the temporary directory: the absolute values in units of
  the fourth decimal, and the indices of the hemisphere letters -/
  | bench (year lat4 latHem lon4 lonHem : Int)
  /-- any other path -/
  | other (name : String)
  deriving DecidableEq

/-- What is asked from the server: minutes since 1970, the coordinates in units of the sixth decimal (third for the
elevation), and the step in minutes, jpl_horizons.py:45-50 -/
structure Request where
  start : Int
  stop : Int
  lon6 : Int
  lat6 : Int
  elev3 : Int
  step : Int
  deriving DecidableEq

/-- text files, the yearly parquet files, and the requests made so far -/
structure Disk (F : Type) where
  files : Path → Option Text
  parquet : Int → Option (Frame F)
  requests : List Request

/-- What the outside world does: the server's answer to the n-th request (or an exception of the network or of the
decoding), and what ends up in a file when `write` is called as part of the n-th request, with an exception if writing is
interrupted. -/
structure Outside where
  server : Nat → Request → Except PyErr Text
  write : Nat → Path → Text → Text × Option PyErr

/-- `files[p] = t` -/
def Disk.put (d : Disk F) (p : Path) (t : Text) : Disk F :=
  { d with files := fun q => if q = p then some t else d.files q }
/-- `p.unlink()` -/
def Disk.unlink (d : Disk F) (p : Path) : Disk F :=
  { d with files := fun q => if q = p then none else d.files q }

/-! ### `get_jpl_ephemeris`, jpl_horizons.py:11-71 -/

/-- `strftime('%Y-%m-%d %H:%M')`: seconds are dropped; minutes since 1970 of an instant in ns -/
def minutes (t : Int) : Int := t / 60000000000

/-- `len(np.arange(b, e, stride))` -/
def arangeLen (b e stride : Int) : Int := max 0 (-(Int.fdiv (-(e - b)) stride))

/-- `len(pd.date_range(start, stop, freq))` with the stride in ns: pandas' `generate_regular_range` (pandas is not
in /repo) -/
def dateRangeLen (start stop stride : Int) : Int :=
  let e := start + Int.fdiv (stop - start) stride * stride + Int.fdiv stride 2 + 1
  arangeLen start e stride

/-- jpl_horizons.py:52 -/
def maxLines : Int := 90024

/-- result of a function with effects -/
abbrev Eff (F α : Type) := Except PyErr α × Disk F

/-- `get_jpl_ephemeris`: ZeroDivisionError in pandas for a step that rounds to zero -/
noncomputable def get (o : Outside) (d : Disk F) (path : Path) (start stop : Int) (lon lat elev step : ℝ) :
    Eff F Path :=
  let n := rint step
  let a := minutes start
  let b := minutes stop
  if n = 0 then (.error .zeroDivisionError, d)
  else if dateRangeLen (a * 60000000000) (b * 60000000000) (n * 60000000000) > maxLines then
    (.error .valueError, d)
  else
    let req : Request := ⟨a, b, rint (lon * 10 ^ 6), rint (lat * 10 ^ 6), rint (elev * 10 ^ 3), n⟩
    let k := d.requests.length
    let d := { d with requests := d.requests ++ [req] }
    match o.server k req with
    | .error e => (.error e, d)
    | .ok data =>
      match o.write k path data with
      | (t, some e) => (.error e, d.put path t)
      | (t, none) => (.ok path, d.put path t)

/-! ### `load_jpl_ephemeris`, jpl_horizons.py:103-132 -/

/-- nanoseconds of a day -/
def dayNs : Int := 86400000000000

/-- `pd.to_datetime(f'{year}-{month:02d}-01 00:00')`, jpl_horizons.py:116 -/
def startOf (year : Int) (month : Nat) : Int := Cal.daysOf year month * dayNs
/-- `t.replace(day=1)` -/
def replaceDay1 (t : Int) : Int :=
  let day := t / dayNs
  Cal.daysOf (Cal.yearOf day) (Cal.monthOf day) * dayNs + t % dayNs
/-- `stop_time`, jpl_horizons.py:117 -/
def stopOf (year : Int) (month : Nat) : Int := replaceDay1 (startOf year month + 35 * dayNs) - 60000000000

/-- `open(filename).readlines()` -/
def readFile (d : Disk F) (path : Path) : Except PyErr Text :=
  match d.files path with
  | some t => .ok t
  | none => .error .osError

/-- body of the loop over months, jpl_horizons.py:113-122: the frame, and the file if it was downloaded -/
noncomputable def loadMonth (p : Parsers F) (o : Outside) (d : Disk F) (year : Int) (lon lat : ℝ) (month : Nat) :
    Eff F (Frame F × List Path) :=
  let path := Path.month year month
  let r : Eff F (List Path) :=
    if (d.files path).isSome then (.ok [], d)
    else
      match get o d path (startOf year month) (stopOf year month) lon lat 0 12 with
      | (.ok q, d) => (.ok [q], d)
      | (.error e, d) => (.error e, d)
  match r with
  | (.error e, d) => (.error e, d)
  | (.ok new, d) =>
    match (do let t ← readFile d path; let f ← read p t; f.drop ["julian_day"]) with
    | .ok f => (.ok (f, new), d)
    | .error e => (.error e, d)

/-- the loop, jpl_horizons.py:110-122 -/
noncomputable def loadMonths (p : Parsers F) (o : Outside) (d : Disk F) (year : Int) (lon lat : ℝ) :
    List Nat → Eff F (List (Frame F) × List Path)
  | [] => (.ok ([], []), d)
  | m :: ms =>
    match loadMonth p o d year lon lat m with
    | (.error e, d) => (.error e, d)
    | (.ok (f, new), d) =>
      match loadMonths p o d year lon lat ms with
      | (.error e, d) => (.error e, d)
      | (.ok (fs, news), d) => (.ok (f :: fs, new ++ news), d)

/-- `pd.concat(data, axis=0)` of frames with the columns of the first -/
def concat : List (Frame F) → Frame F
  | [] => ⟨[], false, []⟩
  | f :: fs =>
    { index := f.index ++ (fs.map (·.index)).flatten
      aware := f.aware
      cols := f.cols.map fun c => (c.1, c.2 ++ (fs.map fun g => (g.cols.lookup c.1).getD []).flatten) }

/-- `df.insert(0, name, scalar)` -/
def Frame.insert0 (f : Frame F) (name : String) (x : F) : Frame F :=
  { f with cols := (name, f.index.map fun _ => x) :: f.cols }

/-- `load_jpl_ephemeris`; `lonF`, `latF` are the coordinates as floats of the frame -/
noncomputable def load (p : Parsers F) (o : Outside) (d : Disk F) (year : Int) (lon lat : ℝ) (lonF latF : F) :
    Eff F (Frame F) :=
  let r : Eff F Unit :=
    if (d.parquet year).isSome then (.ok (), d)
    else
      match loadMonths p o d year lon lat [1, 2, 3, 4, 5, 6, 7, 8, 9, 10, 11, 12] with
      | (.error e, d) => (.error e, d)
      | (.ok (data, filenames), d) =>
        let df := ((concat data).insert0 "site_lat" latF).insert0 "site_lon" lonF
        let d := { d with parquet := fun y => if y = year then some df else d.parquet y }
        (.ok (), filenames.foldl Disk.unlink d)
  match r with
  | (.error e, d) => (.error e, d)
  | (.ok (), d) =>
    match d.parquet year with
    | none => (.error .osError, d)
    | some f => (f.tzLocalize, d)

/-! ### reference data of `run_benchmark`, benchmark.py:537-556 -/

/-- `out_filename`, benchmark.py:541-545 -/
noncomputable def benchPath (year : Int) (lat lon : ℝ) : Except PyErr Path := do
  let a ← Bench.sign lat
  let b ← Bench.sign lon
  return .bench year (rint (|lat| * 10 ^ 4)) a (rint (|lon| * 10 ^ 4)) b

/-- benchmark.py:548-556: fetch if there is no such file, and read it -/
noncomputable def benchData (p : Parsers F) (o : Outside) (d : Disk F) (year : Int) (lat lon : ℝ) : Eff F (Frame F) :=
  match benchPath year lat lon with
  | .error e => (.error e, d)
  | .ok path =>
    let r : Eff F Path :=
      if (d.files path).isSome then (.ok path, d)
      else get o d path (startOf year 1) (startOf (year + 1) 1) lon lat 0 12
    match r with
    | (.error e, d) => (.error e, d)
    | (.ok _, d) =>
      match (do let t ← readFile d path; read p t) with
      | .ok f => (.ok f, d)
      | .error e => (.error e, d)

end SW.Jpl
