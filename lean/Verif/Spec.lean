/-
Vocabulary of the property statements that talk about calls. Nothing here mentions how the code
computes anything.
-/
import Verif.Sunpos

namespace SW.Spec

/-- the documented (algorithm, engine) pairs -/
def KnownPair (alg eng : String) : Prop :=
  (alg ∈ ["psa", "soltrack", "iqbal"] ∧ eng ∈ ["numpy", "numexpr"]) ∨
    (alg = "nrel" ∧ eng = "numexpr")

variable {F : Type}

/-- the argument is a scalar or a sequence holding exactly the values `l` -/
def Holds : Coord F → List F → Prop
  | .scalar x, l => l = [x]
  | .vec v, l => l = v
  | .nd _, _ => False

/-- positions `e` along the dimensions designate a cell of `a` -/
def Within {G : Type} (a : DA G) (e : Dim → Nat) : Prop := ∀ p ∈ a.dims, e p.1 < p.2

/-- the length rule of each use case (K times, J latitudes, I longitudes) -/
def Lengths (uc : UseCase) (K J I : Nat) : Prop :=
  match uc with
  | .sites => J = I
  | .regularGrid => True
  | .transect => K = J ∧ K = I

/-- documented dimensions of zenith and azimuth -/
def documentedDims (uc : UseCase) (K J I : Nat) : List (Dim × Nat) :=
  match uc with
  | .sites => [(.time, K), (.location, J)]
  | .regularGrid => [(.time, K), (.latitude, J), (.longitude, I)]
  | .transect => [(.time, K)]

/-- entry `k` of a list of stamps (`none` for NaT) -/
def stampAt (l : List (Option Int)) (k : Nat) : Option Int := (l[k]?).getD none

/-- an admissible latitude in the exact-real reading: NaN or in [-90, 90] -/
def LatAdm : XR → Prop
  | .nan => True
  | .fin r => -90 ≤ r ∧ r ≤ 90
/-- an admissible longitude: NaN or in [-180, 180) -/
def LonAdm : XR → Prop
  | .nan => True
  | .fin r => -180 ≤ r ∧ r < 180

/-- two objects have the same five computed variables at the cells `e` and `e'` -/
def SameAt (s s' : Sunpos F) (e e' : Dim → Nat) : Prop :=
  s.zenith.get e = s'.zenith.get e' ∧ s.azimuth.get e = s'.azimuth.get e' ∧
  s.ecf.get e = s'.ecf.get e' ∧ s.eot.get e = s'.eot.get e' ∧
  s.declination.get e = s'.declination.get e'

/-- the same time-only variables -/
def SameTimeAt (s s' : Sunpos F) (e e' : Dim → Nat) : Prop :=
  s.ecf.get e = s'.ecf.get e' ∧ s.eot.get e = s'.eot.get e' ∧
  s.declination.get e = s'.declination.get e'

/-- degrees to radians -/
noncomputable def rad (x : ℝ) : ℝ := x * (Real.pi / 180)

/-- A cell of the object computed from `times` whose instant is `t` (nanoseconds since 1970, in the
range of `datetime64[ns]`), whose latitude is `φ` and whose longitude is `l` (degrees). -/
structure At (s : Sunpos XR) (times : Times) (e : Dim → Nat) (t : Int) (φ l : ℝ) : Prop where
  within : Within s.zenith e
  time : stampAt times.stamps (e .time) = some t
  range : |t| < 2 ^ 63
  lat : s.latitude.get e = .fin φ
  lon : s.longitude.get e = .fin l

/-- A sun at hour angle `H` and declination `δ`, seen from latitude `φ`, is at zenith angle `zg` and
azimuth `az` (zero towards south, positive towards west): the components up, south and west of the
unit vector towards the sun are what they should be. All angles in radians. -/
structure SeenAt (φ δ H zg az : ℝ) : Prop where
  zen_nonneg : 0 ≤ zg
  zen_le : zg ≤ Real.pi
  up : Real.cos zg = Real.sin φ * Real.sin δ + Real.cos φ * Real.cos δ * Real.cos H
  south : Real.sin zg * Real.cos az
    = Real.sin φ * Real.cos δ * Real.cos H - Real.cos φ * Real.sin δ
  west : Real.sin zg * Real.sin az = Real.cos δ * Real.sin H


end SW.Spec
