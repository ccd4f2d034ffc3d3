/-
The switches `include_solstice` and `include_equinox` of `draw_solar_grid`, `_cli/solar_chart.py:91-131`. The rest of the grid is that of `Verif/Chart.lean`.
-/
import Verif.Chart

namespace SW.Chart
variable {F : Type} [Scalar F]

/-- what `draw_solar_grid` draws, with the curves that can be switched off -/
structure FlagGrid (F : Type) where
  year : Int
  /-- lines 110-114 -/
  solstice : Option (Pts F)
  /-- lines 117-121 -/
  equinox : Option (Pts F)
  /-- lines 124-129: the curves between which the figure is filled -/
  filled : Option (Pts F × Pts F)
  analemmas : List (Nat × Nat × Pts F)
  hourLabels : List (Nat × Nat × F × F)
  days : List (Nat × Nat × Pts F)

/-- one of the two curves, lines 110-121: `if flag is True` -/
def flagCurve (env : Env F) (c : SolarChart F) (z : Zone) (y : Int) (month : Nat) : Bool → Except PyErr (Option (Pts F))
  | true => do
    let pts ← c.sunpath.call env.toWorld (inZone utcTz (dateRange z (← midnight y month 21) 720 (2 * minNs)))
    return some pts
  | false => .ok none

/-- lines 124-129: `np.interp` of an empty curve is a ValueError -/
def fillBetween : Option (Pts F) → Option (Pts F) → Except PyErr (Option (Pts F × Pts F))
  | some s, some e => if s.isEmpty || e.isEmpty then .error .valueError else .ok (some (s, e))
  | _, _ => .ok none

/-- `draw_solar_grid` with all its arguments, solar_chart.py:91-231 -/
def drawSolarGridWith (env : Env F) (c : SolarChart F) (days months hours minutes : List Nat) (includeSolstice includeEquinox : PyVal) :
    Except PyErr (FlagGrid F) := do
  let z ← env.zone c.timezone
  let (wall, _) ← localStamp z (c.user.getD (.ok ⟨some env.now, false⟩))
  let y := yearOf wall
  let solstice ← flagCurve env c z y 6 includeSolstice.isTrue
  let equinox ← flagCurve env c z y 12 includeEquinox.isTrue
  let filled ← fillBetween solstice equinox
  let hm := product (orDefault hours (List.range 24)) (orDefault minutes [0])
  let curves ← hm.mapM fun x => analemma env c z y x.1 x.2
  let gd := gridDays days months
  let paths ← gd.mapM fun dm => dayPath env c z y dm
  return { year := y, solstice, equinox, filled
           analemmas := List.zipWith (fun x r => (x.1, x.2, r.1)) hm curves
           hourLabels := (List.zipWith (fun x r => r.2.map fun p => (x.1, x.2, p.1, p.2)) hm curves).filterMap id
           days := List.zipWith (fun x r => (x.1, x.2, r)) gd paths }

end SW.Chart
