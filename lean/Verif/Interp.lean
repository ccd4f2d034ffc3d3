/-
`np.interp(x, xp, fp, period=360)` as used by `_cli/solar_chart.py:123-130, 190-199` for the filled area and for the position of
the day labels. numpy itself is not in /repo: the model follows `numpy/lib/_function_base_impl.py` (`interp`) and
`numpy/_core/src/multiarray/compiled_base.c` (`arr_interp`, `binary_search_with_guess`).
-/
import Verif.Chart

namespace SW.Chart
variable {F : Type} [Scalar F]

/-- `arr_interp` from a sample `p` with `p.1 <= x` on: the binary search finds the last sample not after `x`; there the value is that
of the sample if it is the last one or exactly at `x`, otherwise linear, with numpy's ways out of a NaN. -/
def interpFrom (x : F) : F × F → List (F × F) → F
  | p, [] => p.2
  | p, q :: rest =>
    if Scalar.leB q.1 x then interpFrom x q rest
    else if Scalar.leB p.1 x && Scalar.leB x p.1 then p.2
    else
      let slope := (q.2 - p.2) / (q.1 - p.1)
      let r := slope * (x - p.1) + p.2
      if Scalar.isNan r then
        let r' := slope * (x - q.1) + q.2
        if Scalar.isNan r' && (Scalar.leB p.2 q.2 && Scalar.leB q.2 p.2) then p.2 else r'
      else r

/-- `arr_interp`: a NaN abscissa is returned; to the left of all samples the first value -/
def arrInterp (x : F) : List (F × F) → Except PyErr F
  | [] => .error .valueError
  | p :: rest => .ok (if Scalar.isNan x then x else if Scalar.ltB x p.1 then p.2 else interpFrom x p rest)

/-- abscissas modulo the period -/
def reduced (period : F) (pts : Pts F) : Pts F := pts.map fun p => (Num.pmod p.1 period, p.2)

/-- the samples with one more at either end, a period away -/
def extended (period : F) (sorted : Pts F) : Pts F :=
  match sorted.head?, sorted.getLast? with
  | some a, some b => (b.1 - period, b.2) :: sorted ++ [(a.1 + period, a.2)]
  | _, _ => []

/-- `np.interp(x, xp, fp, period=period)`. `sort` is what `np.argsort` makes of the samples: numpy's quicksort is not stable, so
nothing but "sorted and a permutation" is assumed of it. -/
def interpPeriod (sort : Pts F → Pts F) (period x : F) (pts : Pts F) : Except PyErr F :=
  arrInterp (Num.pmod x period) (extended period (sort (reduced period pts)))

/-- altitude of the label of a day, solar_chart.py:178, 190-191: `np.interp(0., .., period=360)` of the curve of the day -/
def labelAltitude (sort : Pts F → Pts F) (path : Pts F) : Except PyErr F := interpPeriod sort 360 0.0 path

/-- the area between the curves of 21 June and 21 December, solar_chart.py:123-130: for the azimuths -180, -179, .., 180
(`np.linspace(-180, 180, 361)`) the two altitudes between which the area is filled -/
def filledArea (sort : Pts F → Pts F) (g : Grid F) : Except PyErr (List (F × F × F)) :=
  (List.range 361).mapM fun k : Nat => do
    let x : F := Scalar.ofInt ((k : Int) - 180)
    return (x, ← interpPeriod sort 360 x g.solstice, ← interpPeriod sort 360 x g.equinox)

/-- `transform`, solar_chart.py:258-259: `np.where(azimuth >= 0., azimuth, azimuth + 360.)` -/
def tickTransform (azimuth : F) : F := Num.whereLe 0.0 azimuth azimuth (azimuth + 360.0)

/-- where the azimuth tick labelled `azimuth` is, in degrees of the axis: solar_chart.py:276, 282 (polar), 296, 299 (rectilinear) -/
def tickAt (polar : Bool) (azimuth : F) : F := if polar then tickTransform azimuth else azimuth

/-- the azimuths of the major ticks, `np.arange(-160., 181., 20)` (solar_chart.py:244) and `np.arange(-150, 180, 30)` (line 253) -/
def majorAzimuths (polar : Bool) : List Int :=
  if polar then (List.range 18).map fun k : Nat => -160 + 20 * k else (List.range 11).map fun k : Nat => -150 + 30 * k

end SW.Chart
