/-
The solar chart: `_cli/solar_chart.py`. What is modelled is which curves and labels are drawn, and
with which coordinates; not matplotlib and line styles. The filled area, the altitude of the day labels and the ticks
are in `Verif/Interp.lean`.
-/
import Verif.Cli
import Verif.Calendar

namespace SW.Chart

open SW.Cli (CliStamp)
open SW.Sunpos (dayNs)

/-- A time zone as pandas knows it: the `tzinfo` object; the UTC instant that
`tz_localize(zone, ambiguous='NaT', nonexistent='NaT')` gives to a wall-clock reading (`none` for
NaT; ns since 1970); and what `tz_localize(zone)`, or `pd.Timestamp(.., tz=zone)`, gives or raises. -/
structure Zone where
  tz : Tz
  toUtc : Int → Option Int
  stamp : Int → Except PyErr Int

/-- What the chart takes from its environment: the system clock (`datetime.now()`), and the time zone of a
name (or an error for an unknown one). -/
structure Env (F : Type) extends World F where
  now : Int
  zone : String → Except PyErr Zone

/-- a minute, in ns -/
def minNs : Int := 60000000000

/-- `pd.Timestamp` of a date: midnight of day `d` of month `m` of year `y` (ns since 1970); ValueError for a
date that does not exist -/
def midnight (y : Int) (m d : Nat) : Except PyErr Int :=
  if 1 ≤ m ∧ m ≤ 12 ∧ 1 ≤ d ∧ (d : Int) ≤ (Cal.monthLengths (Cal.isLeap y)).getD (m - 1) 0 then
    .ok ((Cal.daysOf y m + (d - 1)) * dayNs)
  else .error .valueError

/-- pandas' reading of the string `a/b/y` (with a four-digit year): month first, unless the first number cannot be a
month (`pandas/_libs/tslibs/parsing.pyx`, `_parse_delimited_date`; pandas itself is not in /repo) -/
def parseSlashed (a b : Nat) (y : Int) : Except PyErr Int :=
  if 12 < a then midnight y b a else midnight y a b

/-- year of a wall-clock reading -/
def yearOf (wall : Int) : Int := Cal.yearOf (wall / dayNs)

/-- a curve or a point of the chart: azimuth and altitude (degrees) -/
abbrev Pts (F : Type) := List (F × F)

variable {F : Type} [Scalar F]

/-- position `k` along time of the only location -/
def cellAt (k : Nat) : Dim → Nat
  | .time => k
  | _ => 0

/-- `SolarPosition`, solar_chart.py:19-29 -/
structure SolarPosition (F : Type) where
  latitude : F
  longitude : F

/-- `SolarPosition.__init__`, solar_chart.py:20-24 -/
def SolarPosition.init (latitude longitude : F) : Except PyErr (SolarPosition F) :=
  if (Scalar.leB (-90) latitude && Scalar.leB latitude 90) = false then .error .assertionError
  else if (Scalar.leB (-180) longitude && Scalar.ltB longitude 180) = false then .error .assertionError
  else .ok ⟨latitude, longitude⟩

/-- `SolarPosition.__call__`, solar_chart.py:26-29 (default algorithm, refraction and engine of `sites`,
usecases.py:22-23) -/
def SolarPosition.call (w : World F) (p : SolarPosition F) (times : Times) : Except PyErr (Pts F) := do
  let sw ← sites w times (.scalar p.latitude) (.scalar p.longitude) "psa" .pyTrue "numexpr"
  return (List.range times.stamps.length).map fun k =>
    (sw.azimuthDeg.get (cellAt k), sw.elevation.get (cellAt k))

/-- a `SolarChart` object, without its figure -/
structure SolarChart (F : Type) where
  sunpath : SolarPosition F
  /-- what `pd.Timestamp` makes of the date and time given by the user; `none` if there is none -/
  user : Option (Except PyErr CliStamp)
  timezone : String
  polar : Bool

/-- `timezone or 'UTC'`, solar_chart.py:47 -/
def zoneName : Option String → String
  | none => "UTC"
  | some s => if s = "" then "UTC" else s

/-- `SolarChart.__init__`, solar_chart.py:40-63 (`float` of a number is that number) -/
def SolarChart.init (latitude longitude : F) (user : Option (Except PyErr CliStamp))
    (timezone : Option String) (polar : Bool) : Except PyErr (SolarChart F) :=
  if (Scalar.ltB (-90) latitude && Scalar.ltB latitude 90) = false then .error .assertionError
  else if (Scalar.leB (-180) longitude && Scalar.leB longitude 180) = false then
    .error .assertionError
  else
    match SolarPosition.init latitude longitude with
    | .error e => .error e
    | .ok p => .ok ⟨p, user, zoneName timezone, polar⟩

/-- `_date_range`, solar_chart.py:73-80: instants of the `n` readings from `start` in steps of `step`, without
those which have none or two. The readings of a time-zone-aware `start` are its own ones
(`.tz_localize(None)`). -/
def dateRange (z : Zone) (start : Int) (n : Nat) (step : Int) : List Int :=
  (List.range n).filterMap fun k : Nat => z.toUtc (start + (k : Int) * step)

/-- times in a zone, as passed to `sunpath` -/
def inZone (tz : Tz) (l : List Int) : Times := ⟨false, some tz, l.map some⟩
/-- the time zone of `.tz_convert('UTC')` -/
def utcTz : Tz := ⟨.name "UTC", fun _ => 0⟩
/-- times without zone: `.tz_localize(None)` of times in the zone of `z` -/
def stripped (z : Zone) (l : List Int) : Times :=
  ⟨false, none, l.map fun u => some (u + z.tz.off u)⟩

/-- what `draw_solar_grid` draws -/
structure Grid (F : Type) where
  year : Int
  /-- lines 110-114 -/
  solstice : Pts F
  /-- lines 117-121 -/
  equinox : Pts F
  /-- lines 140-144: hour, minute, curve -/
  analemmas : List (Nat × Nat × Pts F)
  /-- lines 146-160: hour and minute written at azimuth and altitude (without the small displacements of the
  text) -/
  hourLabels : List (Nat × Nat × F × F)
  /-- lines 169-175: day and month written on the curve; the position of the text (lines 194-199) is not
  modelled -/
  days : List (Nat × Nat × Pts F)

/-- `pd.Timestamp(user).tz_localize(zone)`: reading and instant. TypeError if it is aware already; a NaT has
no `tzname` and its year is not a number (ValueError). -/
def localStamp (z : Zone) (st : Except PyErr CliStamp) : Except PyErr (Int × Int) := do
  let st ← st
  if st.aware then throw .typeError
  match st.wall with
  | none => throw .valueError
  | some w => return (w, ← z.stamp w)

/-- `pd.Timestamp(f'{date} {ho}:{mn}')`: ValueError unless it is a time of the day -/
def clock (day : Int) (ho mn : Nat) : Except PyErr Int :=
  if ho < 24 ∧ mn < 60 then .ok (day + (60 * ho + mn : Nat) * minNs) else .error .valueError

/-- number of days of the year -/
def daysInYear (y : Int) : Nat := if Cal.isLeap y then 366 else 365

/-- the list, or the default where it is `None` or empty: `xs or default` -/
def orDefault (xs default : List Nat) : List Nat := if xs.isEmpty then default else xs

/-- `itt.product` -/
def product (xs ys : List Nat) : List (Nat × Nat) := xs.flatMap fun x => ys.map fun y => (x, y)

/-- the days of the daily grid, lines 164-167 -/
def gridDays (days months : List Nat) : List (Nat × Nat) :=
  let l := product (orDefault days [15]) (orDefault months [1, 2, 3, 4, 5, 7, 8, 9, 10, 11])
  let l := if (21, 6) ∈ l then l else l ++ [(21, 6)]
  if (21, 12) ∈ l then l else l ++ [(21, 12)]

/-- one analemma with its label, lines 139-160 -/
def analemma (env : Env F) (c : SolarChart F) (z : Zone) (y : Int) (ho mn : Nat) :
    Except PyErr (Pts F × Option (F × F)) := do
  let start ← clock (← midnight y 1 1) ho mn
  let times := dateRange z start (daysInYear y) dayNs
  let path ← c.sunpath.call env.toWorld (stripped z times)
  let t ← z.stamp (← clock (← midnight y 6 21) ho mn)
  match ← c.sunpath.call env.toWorld (inZone z.tz [t]) with
  | [(az, al)] => return (path, if Scalar.leB 0 al then some (az, al) else none)
  | _ => throw .valueError

/-- one curve of the daily grid, lines 169-175, 194 (`np.interp` of an empty curve is a ValueError) -/
def dayPath (env : Env F) (c : SolarChart F) (z : Zone) (y : Int) (dm : Nat × Nat) :
    Except PyErr (Pts F) := do
  let start ← parseSlashed dm.1 dm.2 y
  let path ← c.sunpath.call env.toWorld (inZone z.tz (dateRange z start 288 (5 * minNs)))
  if path.isEmpty then throw .valueError
  return path

/-- `draw_solar_grid`, solar_chart.py:91-231, with `include_solstice` and `include_equinox` True (their
default) -/
def drawSolarGrid (env : Env F) (c : SolarChart F) (days months hours minutes : List Nat) :
    Except PyErr (Grid F) := do
  let z ← env.zone c.timezone
  let (wall, _) ← localStamp z (c.user.getD (.ok ⟨some env.now, false⟩))
  let y := yearOf wall
  let solstice ← c.sunpath.call env.toWorld
    (inZone utcTz (dateRange z (← midnight y 6 21) 720 (2 * minNs)))
  let equinox ← c.sunpath.call env.toWorld
    (inZone utcTz (dateRange z (← midnight y 12 21) 720 (2 * minNs)))
  -- `np.interp` (lines 126-127)
  if solstice.isEmpty || equinox.isEmpty then throw .valueError
  let hm := product (orDefault hours (List.range 24)) (orDefault minutes [0])
  let curves ← hm.mapM fun x => analemma env c z y x.1 x.2
  let gd := gridDays days months
  let paths ← gd.mapM fun dm => dayPath env c z y dm
  return { year := y, solstice, equinox
           analemmas := List.zipWith (fun x r => (x.1, x.2, r.1)) hm curves
           hourLabels := (List.zipWith (fun x r => r.2.map fun p => (x.1, x.2, p.1, p.2)) hm curves).filterMap id
           days := List.zipWith (fun x r => (x.1, x.2, r)) gd paths }

/-- what `draw_solar_path` draws -/
structure UserPath (F : Type) where
  /-- lines 310-312 -/
  path : Pts F
  /-- lines 315-318 -/
  analemma : Pts F
  /-- lines 321-322 -/
  marker : Pts F

/-- `draw_solar_path`, solar_chart.py:303-329. `pd.Timestamp(None)` is a NaT. -/
def drawSolarPath (env : Env F) (c : SolarChart F) (user : Option (Except PyErr CliStamp)) :
    Except PyErr (UserPath F) := do
  let z ← env.zone c.timezone
  let (wall, t) ← localStamp z (user.getD (.ok ⟨none, false⟩))
  let path ← c.sunpath.call env.toWorld
    (inZone z.tz (dateRange z (wall / dayNs * dayNs) 288 (5 * minNs)))
  -- `ts.tz_convert('UTC').replace(month=1, day=1)`: year and time of the day of the UTC reading
  let start := (← midnight (yearOf t) 1 1) + t % dayNs
  let analemma ← c.sunpath.call env.toWorld
    (stripped z (dateRange z start (daysInYear (yearOf wall)) dayNs))
  let marker ← c.sunpath.call env.toWorld (inZone utcTz [t])
  return { path, analemma, marker }

/-- `make_solar_chart`, solar_chart.py:336-343 (the figure is saved, or not) -/
def makeSolarChart (env : Env F) (latitude longitude : F) (user : Option (Except PyErr CliStamp))
    (timezone : Option String) (polar : Bool) : Except PyErr (Grid F × UserPath F) := do
  let c ← SolarChart.init latitude longitude user timezone polar
  let grid ← drawSolarGrid env c [] [] [] []
  let path ← drawSolarPath env c user
  return (grid, path)

/-! ### where things are on the figure -/

/-- Position of a point of azimuth `az` and altitude `al` (degrees) on the figure, as fractions of the width and
height of the axes, from the left and from below. `plot_sunpath` and `text`, lines 82-89, with the axes
set up in lines 55-63: a polar chart has angle zero below (`set_theta_offset(-np.pi/2)`), angles
counter-clockwise, and radius zero for altitude 90, one for altitude 0.1 (`set_ylim([90., 0.1])`). -/
noncomputable def onFigure (polar : Bool) (az al : ℝ) : ℝ × ℝ :=
  if polar then
    let r := (90 - al) / (90 - 0.1)
    let θ := az * (Real.pi / 180) + -Real.pi / 2
    (0.5 + 0.5 * (r * Real.cos θ), 0.5 + 0.5 * (r * Real.sin θ))
  else ((az - -180) / (180 - -180), al / 90)

/-- the names of the cardinal points written on the figure (fractions of the axes), lines 214-217 and
225-229 -/
noncomputable def compass (polar : Bool) : List (String × ℝ × ℝ) :=
  if polar then [("N", 0.5, 1.08), ("S", 0.5, -0.08), ("W", -0.09, 0.5), ("E", 1.09, 0.5)]
  else [("North", 0, 1.06), ("NortH", 1, 1.06), ("South", 0.5, 1.06), ("West", 0.25, 1.06),
    ("East", 0.75, 1.06)]

end SW.Chart
