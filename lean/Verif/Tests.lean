/-
The project's own test suite: tests/conftest.py and tests/test_consistency.py.
-/
import Verif.Sunpos

namespace SW.Tests
open SW

/-- The value an `assert` statement gets: a truth value, or a tuple (here with the number of its entries
only; Python takes a tuple for true if it has any). -/
inductive TestVal where
  | bool (b : Bool)
  | tuple (n : Nat)

/-- Python's truth value -/
def TestVal.truthy : TestVal → Bool
  | .bool b => b
  | .tuple n => n != 0

/-- `assert v` -/
def assertThat (v : TestVal) : Except PyErr Unit := if v.truthy then .ok () else .error .assertionError

section
variable {F : Type} [Scalar F]

/-- one entry of `np.isclose(x, y, rtol, atol)` with finite tolerances (NaN is close to nothing): what
`pytest_allclose` applies, with the expected value second -/
def isclose (atol rtol x y : F) : Bool := Scalar.leB (Num.absv (x - y)) (atol + rtol * Num.absv y)

open Classical in
/-- the fixture `allclose` of `pytest_allclose`: arrays of one shape, all entries close. Arrays of different
shapes, which numpy would broadcast or refuse, count as not close; they do not occur. -/
noncomputable def allclose (a b : DA F) (atol rtol : F) : TestVal :=
  .bool (decide (a.dims = b.dims ∧ ∀ e : Dim → Nat, (∀ p ∈ a.dims, e p.1 < p.2) → isclose atol rtol (a.get e) (b.get e) = true))

/-- `angular_distance`, conftest.py:31-35, with `cosr` and `sinr`, 7-12 -/
def angularDistance (a1 a2 : F) : F :=
  degrees (Num.arccos (Num.round6 (Num.cos (radians a1) * Num.cos (radians a2) + Num.sin (radians a1) * Num.sin (radians a2))))

open Classical in
/-- the condition of `azimdist`, conftest.py:39-40 and 43: every distance is below 5 degrees (the argument `thresh` is not used) -/
noncomputable def azimCondition (a b : DA F) : Bool :=
  decide (a.dims = b.dims ∧ ∀ e : Dim → Nat, (∀ p ∈ a.dims, e p.1 < p.2) → Scalar.ltB (angularDistance (a.get e) (b.get e)) 5 = true)

/-- `azimdist`, conftest.py:38-43: it returns the pair of the condition and of a message. The text of the message is left out. -/
noncomputable def azimdist (a b : DA F) : TestVal :=
  let pair : List (Option Bool) := [some (azimCondition a b), none]
  .tuple pair.length

/-- `da.isel(d=0)`: the dimension goes; IndexError if it is empty -/
def isel0 (d : Dim) (a : DA F) : Except PyErr (DA F) :=
  if a.dims.any (fun p => p.1 == d && p.2 == 0) then .error .indexError
  else .ok ⟨a.dims.filter (fun p => p.1 != d), fun e => a.get (fun x => if x = d then 0 else e x)⟩

/-- `get_da_for_regular_grid` and `get_da_for_transect`, conftest.py:19-28 -/
def getFirst (a : DA F) : Except PyErr (DA F) :=
  if a.names = [.time] then .ok a
  else if a.names = [.time, .location] then isel0 .location a
  else if a.names.contains .latitude && a.names.contains .longitude then do isel0 .longitude (← isel0 .latitude a)
  else .error .valueError

/-- `get_da_for_sites`, conftest.py:15-16 -/
def getAll (a : DA F) : Except PyErr (DA F) := .ok a

/-- the five assertions that end every test, e.g. test_consistency.py:60-64 -/
noncomputable def assertions (get : DA F → Except PyErr (DA F)) (s1 s2 : Sunpos F) : Except PyErr Unit := do
  assertThat (allclose (← get s1.zenithDeg) (← get s2.zenithDeg) 2.0 0.0)
  assertThat (allclose (← get s1.decDeg) (← get s2.decDeg) 2.0 0.0)
  assertThat (allclose (← get s1.eot) (← get s2.eot) 10 0.0)
  assertThat (allclose (← get s1.ecf) (← get s2.ecf) 0.0 0.01)
  assertThat (azimdist (← get s1.azimuthDeg) (← get s2.azimuthDeg))

/-- `test_psa_numpy_consistency` and its five siblings, test_consistency.py:54-129, with the fixture
`sites_nrel`, 48-51: `times`, `lats` and `lons` are what the fixture `space_time_sites` has drawn -/
noncomputable def algorithmTest (w : World F) (times : Times) (lats lons : List F) (alg eng : String) : Except PyErr Unit := do
  let nrel ← call .sites w times (.vec lats) (.vec lons) "nrel" .pyFalse "numexpr"
  let other ← call .sites w times (.vec lats) (.vec lons) alg .pyFalse eng
  assertions getAll nrel other

/-- `test_nrel_numexpr_regular_grid_consistency` and its six siblings, test_consistency.py:132-220 -/
noncomputable def gridTest (w : World F) (times : Times) (lats lons : List F) (alg eng : String) : Except PyErr Unit := do
  let sites ← call .sites w times (.vec lats) (.vec lons) alg .pyFalse eng
  let rgrid ← call .regularGrid w times (.vec lats) (.vec lons) alg .pyFalse eng
  assertions getFirst sites rgrid

/-- one turn of the loop of `transectTest` -/
noncomputable def transectStep (w : World F) (alg eng : String) (p : Int × F × F) : Except PyErr Unit := do
  let time : Times := ⟨false, none, [some p.1]⟩
  let sites ← call .sites w time (.scalar p.2.1) (.scalar p.2.2) alg .pyFalse eng
  let trans ← call .transect w time (.scalar p.2.1) (.scalar p.2.2) alg .pyFalse eng
  assertions getFirst sites trans

/-- `test_nrel_numexpr_transect_consistency` and its six siblings, test_consistency.py:223-319: a loop over
time stamps (naive, ns), latitudes and longitudes -/
noncomputable def transectTest (w : World F) (steps : List (Int × F × F)) (alg eng : String) : Except PyErr Unit :=
  steps.forM (transectStep w alg eng)

end
end SW.Tests
