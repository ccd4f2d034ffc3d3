/-
The benchmark: residues and scores of `_cli/benchmark.py`.
-/
import Verif.Core
import Verif.RealXR

namespace SW.Bench

/-! ### `calc_residues`, benchmark.py:125-144 -/

section
universe u
variable {A : Type u} [Num A]
/-- the two `where` lines, benchmark.py:130-131; `x.where(c, y)` keeps `x` where `c` holds -/
def wrapAzimuth (d : A) : A :=
  let d := Num.whereLt (-330) d d (-360 - d)
  Num.whereLt d 330 d (360 - d)
end

/-- A data frame with two-level columns (method, variable) and a common row index: the columns in order, each with
its values by row. -/
structure Frame (F : Type) where
  cols : List ((String × String) × List F)

/-- `data[method]`: the columns of one method, labelled by variable -/
def Frame.method {F : Type} (d : Frame F) (m : String) : List (String × List F) :=
  (d.cols.filter (fun c => c.1.1 == m)).map (fun c => (c.1.2, c.2))

/-- `data.columns.get_level_values('method').unique()` -/
def Frame.methods {F : Type} (d : Frame F) : List String := (d.cols.map (·.1.1)).dedup

variable {F : Type} [Scalar F]

/-- binary operation of two columns, the second of which may be missing -/
def alignedCol (op : F → F → F) (c : List F) : Option (List F) → List F
  | some v => List.zipWith op c v
  | none => c.map fun _ => Num.nan

/-- Binary operation of two frames: the columns of the left one in the result. pandas aligns the columns by name
and fills with NaN what one side lacks; columns only of the right frame are left out here, because
`residue[method] = ...` (benchmark.py:138) keeps only the columns `method` has. -/
def aligned (op : F → F → F) (m o : List (String × List F)) : List (String × List F) :=
  m.map fun c => (c.1, alignedCol op c.2 (o.lookup c.1))

/-- `calc_error`, benchmark.py:127-132 -/
def calcError (relative : Bool) (m o : List (String × List F)) : List (String × List F) :=
  let diff := aligned (· - ·) m o
  let diff := diff.map fun c => if c.1 == "azimuth" then (c.1, c.2.map wrapAzimuth) else c
  if relative then aligned (· / ·) diff o else diff

/-- `residue[method] = value` for a frame `value` whose columns are those of the method: column by
column -/
def Frame.set (r : Frame F) (m : String) (value : List (String × List F)) : Frame F :=
  ⟨r.cols.map fun c => if c.1.1 == m then (c.1, (value.lookup c.1.2).getD c.2) else c⟩

/-- `calc_residues`: KeyError if the reference is not among the methods. Simplified: labels of columns are
unique. -/
def calcResidues (data : Frame F) (reference : String) (relative : Bool) : Except PyErr (Frame F) :=
  if reference ∉ data.methods then .error .keyError
  else
    let residue := (data.methods.filter (· != reference)).foldl
      (fun r m => r.set m (calcError relative (data.method m) (data.method reference))) data
    .ok ⟨residue.cols.filter (fun c => c.1.1 != reference)⟩

/-! ### scores, benchmark.py:157-166 (same lines 216-225), of one column of residues in exact
arithmetic; pandas skips NaN. The result is `none` (NaN) where pandas has no value. -/

/-- the values that are not NaN -/
def values (r : List XR) : List ℝ := r.filterMap fun x => match x with
  | .nan => none
  | .fin a => some a

/-- `r.mean()` of the values -/
noncomputable def mean (l : List ℝ) : Option ℝ := if l = [] then none else some (l.sum / l.length)
/-- `r.std()`, with one degree of freedom less -/
noncomputable def std (l : List ℝ) : Option ℝ :=
  if l.length < 2 then none
  else (mean l).map fun μ => √((l.map fun x => (x - μ) ^ 2).sum / (l.length - 1))
/-- `r.quantile(q)`, linear interpolation between the two sorted values next to position `q (n-1)` -/
noncomputable def quantile (l : List ℝ) (q : ℝ) : Option ℝ :=
  if l = [] then none
  else
    let s := l.mergeSort (fun a b => open Classical in decide (a ≤ b))
    let pos := q * (l.length - 1)
    let i := ⌊pos⌋.toNat
    let a := s.getD i 0
    let b := s.getD (i + 1) a
    some (a + (b - a) * (pos - i))

/-- the scores of one column -/
structure Scores where
  mbe : Option ℝ
  std : Option ℝ
  mae : Option ℝ
  rmse : Option ℝ
  p66 : Option ℝ
  p90 : Option ℝ

/-- benchmark.py:157-166 -/
noncomputable def scores (r : List XR) : Scores :=
  let l := values r
  let dev := match mean l with
    | none => []
    | some μ => l.map fun x => |x - μ|
  { mbe := mean l
    std := std l
    mae := mean (l.map fun x => |x|)
    rmse := (mean (l.map fun x => x ^ 2)).map fun m => m ^ (0.5 : ℝ)
    p66 := quantile dev 0.66
    p90 := quantile dev 0.90 }

/-! ### `run_benchmark`, benchmark.py:537-553 -/

/-- `sign = lambda x: int(0.5*(1 + x / abs(x)))`, benchmark.py:541: division by zero at zero -/
noncomputable def sign (x : ℝ) : Except PyErr Int :=
  if x = 0 then .error .zeroDivisionError else .ok (rtrunc (0.5 * (1 + x / |x|)))

end SW.Bench
