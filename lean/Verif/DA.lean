/-
xarray DataArrays: named dimensions and broadcasting by name.
-/
import Verif.Core

namespace SW

universe u v w

/-- dimension names used by the package -/
inductive Dim where
  | time | location | latitude | longitude
  deriving DecidableEq, Repr

/-- A DataArray. `dims` are its dimensions, in order, with their lengths; `get` its value at given
positions along the dimensions (positions along dimensions it does not have are ignored).

All DataArrays of the model are built from one `Sunpos` object and share its coordinates, so xarray's
alignment (which compares coordinates) never drops or reorders anything: `C79_labels`, about the model with
coordinates in `Verif/Labels.lean`. -/
structure DA (F : Type u) where
  dims : List (Dim × Nat)
  get : (Dim → Nat) → F

/-- dimensions of a broadcast binary operation: those of the left operand, then the new ones of the
right operand (xarray's rule) -/
def dimUnion (a b : List (Dim × Nat)) : List (Dim × Nat) :=
  a ++ b.filter (fun q => !(a.any (fun p => p.1 == q.1)))

namespace DA
variable {F : Type u} {G : Type v} {H : Type w}

/-- Python scalar in an expression with DataArrays -/
def scalar (x : F) : DA F := ⟨[], fun _ => x⟩
/-- element-wise function, `.copy(data=...)`, `.astype` -/
def map (f : F → G) (a : DA F) : DA G := ⟨a.dims, fun e => f (a.get e)⟩
/-- element-wise binary function -/
def map2 (f : F → G → H) (a : DA F) (b : DA G) : DA H :=
  ⟨dimUnion a.dims b.dims, fun e => f (a.get e) (b.get e)⟩
/-- `a.where(cond, other)`: `cond` has the dimensions of `a` or fewer -/
def map4 (f : F → F → F → F → F) (a b c d : DA F) : DA F :=
  map2 (fun p q => f p.1 p.2 q.1 q.2) (map2 Prod.mk a b) (map2 Prod.mk c d)

/-- names of the dimensions -/
def names (a : DA F) : List Dim := a.dims.map Prod.fst
/-- `.shape` -/
def shape (a : DA F) : List Nat := a.dims.map Prod.snd

instance instNumDA [Num F] : Num (DA F) where
  add := map2 (· + ·)
  sub := map2 (· - ·)
  mul := map2 (· * ·)
  div := map2 (· / ·)
  neg := map (fun x => -x)
  lit m s e := scalar (Num.lit m s e)
  nat n := scalar (Num.nat n)
  pi := scalar Num.pi
  nan := scalar Num.nan
  sin := map Num.sin
  cos := map Num.cos
  tan := map Num.tan
  arcsin := map Num.arcsin
  arccos := map Num.arccos
  arctan := map Num.arctan
  sqrt := map Num.sqrt
  absv := map Num.absv
  exp := map Num.exp
  log := map Num.log
  arctan2 := map2 Num.arctan2
  pmod := map2 Num.pmod
  cmod := map2 Num.cmod
  max2 := map2 Num.max2
  npow a n := map (fun x => Num.npow x n) a
  rpow := map2 Num.rpow
  trunc := map Num.trunc
  round6 := map Num.round6
  f32 := map Num.f32
  whereLt := map4 Num.whereLt
  whereLe := map4 Num.whereLe

end DA

/-- a DataArray of a 1-dim array along dimension `d` -/
def DA.along {F : Type u} (d : Dim) (n : Nat) (f : Nat → F) : DA F := ⟨[(d, n)], fun e => f (e d)⟩

end SW
