/-
The arithmetic vocabulary of the code, and its exact-real interpretation.

Every formula of the model is written once, over an arbitrary type `F` with a `Num F` structure.
`F` is then instantiated by
  * any interpretation of the floating-point operations (structural theorems),
  * `XR`, the real numbers with a NaN (numeric theorems),
  * `ℝ` itself (auxiliary, used to name the real value of an `XR` computation),
  * numpy arrays (`Verif/Arr.lean`) and xarray DataArrays (`Verif/DA.lean`) over any of these.
-/
import Mathlib.Analysis.SpecialFunctions.Trigonometric.Basic
import Mathlib.Analysis.SpecialFunctions.Trigonometric.Inverse
import Mathlib.Analysis.SpecialFunctions.Trigonometric.Arctan
import Mathlib.Analysis.SpecialFunctions.Complex.Arg
import Mathlib.Analysis.SpecialFunctions.Pow.Real
import Mathlib.Analysis.SpecialFunctions.Log.Basic
import Mathlib.Analysis.SpecialFunctions.Sqrt
import Mathlib.Algebra.Order.Floor.Ring

namespace SW

universe u

/-- The numeric operations used by `/repo/src/sunwhere`. One field per Python/numpy/numexpr
operation; no laws are assumed, so that a theorem about an arbitrary `Num F` holds for IEEE
arithmetic with any rounding.

* `lit`, `nat`: numeric literals;
* `pmod`: numpy/Python `%` (floored); `cmod`: numexpr `%` (C `fmod`, truncated);
* `max2`: `np.maximum`; `npow`: `x**n` with integer `n`; `rpow`: `x**y` with float `y`;
* `trunc`: `np.int32(x)`, back as a number; `round6`: `np.round(x, 6)`;
* `f32`: rounding of a result to binary32 (arrays with dtype float32);
* `whereLt x y a b`: `np.where(x < y, a, b)`; `whereLe` likewise with `<=`. -/
class Num (F : Type u) extends Add F, Sub F, Mul F, Div F, Neg F where
  lit : Nat → Bool → Nat → F
  nat : Nat → F
  pi : F
  nan : F
  sin : F → F
  cos : F → F
  tan : F → F
  arcsin : F → F
  arccos : F → F
  arctan : F → F
  sqrt : F → F
  absv : F → F
  exp : F → F
  log : F → F
  arctan2 : F → F → F
  pmod : F → F → F
  cmod : F → F → F
  max2 : F → F → F
  npow : F → Nat → F
  rpow : F → F → F
  trunc : F → F
  round6 : F → F
  f32 : F → F
  whereLt : F → F → F → F → F
  whereLe : F → F → F → F → F

instance (priority := low) instOfSciNum {F : Type u} [Num F] : OfScientific F := ⟨Num.lit⟩
instance (priority := low) instOfNatNum {F : Type u} [Num F] (n : Nat) : OfNat F n := ⟨Num.nat n⟩

/-- Numbers that can also be compared (Python `bool` results), tested for NaN, and converted from
and to integers: `ofInt` is `astype('float64')` of an integer, `toInt` is the truncating cast of a
float to an integer time unit (NaN becomes NaT, i.e. `none`). -/
class Scalar (F : Type u) extends Num F where
  leB : F → F → Bool
  ltB : F → F → Bool
  isNan : F → Bool
  ofInt : Int → F
  toInt : F → Option Int

/-- `np.radians` (numpy multiplies by `pi/180`). -/
def radians {F : Type u} [Num F] (x : F) : F := x * (Num.pi / 180)
/-- `np.degrees` (numpy multiplies by `180/pi`). -/
def degrees {F : Type u} [Num F] (x : F) : F := x * (180 / Num.pi)
/-- module constant `DEG2RAD = np.radians(1)`. -/
def DEG2RAD {F : Type u} [Num F] : F := Num.pi / 180
/-- module constant `RAD2DEG = np.degrees(1)`. -/
def RAD2DEG {F : Type u} [Num F] : F := 180 / Num.pi
/-- module constant `TWOPI = 2.*PI`. -/
def TWOPI {F : Type u} [Num F] : F := 2.0 * Num.pi
/-- module constant `HALFPI = 0.5*PI`. -/
def HALFPI {F : Type u} [Num F] : F := 0.5 * Num.pi

/-! ### Exact-real meaning of the operations -/

/-- `x - trunc(x)` helper: truncation of a real towards zero. -/
noncomputable def rtrunc (x : ℝ) : ℤ := if 0 ≤ x then ⌊x⌋ else ⌈x⌉

/-- Round half to even, as `np.rint`. -/
noncomputable def rint (x : ℝ) : ℤ :=
  if x - ⌊x⌋ < 1/2 then ⌊x⌋
  else if 1/2 < x - ⌊x⌋ then ⌊x⌋ + 1
  else if Even ⌊x⌋ then ⌊x⌋ else ⌊x⌋ + 1

/-- `np.round(x, 6)`. -/
noncomputable def rround6 (x : ℝ) : ℝ := (rint (x * 1000000) : ℝ) / 1000000

/-- `tan`. At the poles, where exact arithmetic has no value, we use the value the double
`tan` returns at the double nearest to `±pi/2`, namely `±16331239353195370` (so that a latitude of
exactly ±90 behaves in the model as it does in the program). -/
noncomputable def rtan (x : ℝ) : ℝ :=
  if Real.cos x = 0 then (if 0 < Real.sin x then 16331239353195370 else -16331239353195370)
  else Real.tan x

/-- `np.arctan2(y, x)`. -/
noncomputable def ratan2 (y x : ℝ) : ℝ := Complex.arg ⟨x, y⟩

/-- numpy `%`. -/
noncomputable def rpmod (x y : ℝ) : ℝ := x - ⌊x / y⌋ * y
/-- C `fmod`. -/
noncomputable def rcmod (x y : ℝ) : ℝ := x - rtrunc (x / y) * y

noncomputable instance instNumReal : Num ℝ where
  lit := OfScientific.ofScientific
  nat n := match n with | 0 => 0 | 1 => 1 | n + 2 => ((n + 2 : ℕ) : ℝ)
  pi := Real.pi
  nan := 0
  sin := Real.sin
  cos := Real.cos
  tan := rtan
  arcsin := Real.arcsin
  arccos := Real.arccos
  arctan := Real.arctan
  sqrt := Real.sqrt
  absv := fun x => |x|
  exp := Real.exp
  log := Real.log
  arctan2 := ratan2
  pmod := rpmod
  cmod := rcmod
  max2 := max
  npow := fun x n => x ^ n
  rpow := fun x y => x ^ y
  trunc := fun x => rtrunc x
  round6 := rround6
  f32 := id
  whereLt := fun x y a b => open Classical in if x < y then a else b
  whereLe := fun x y a b => open Classical in if x ≤ y then a else b

/-- Reals with a NaN. `nan` also stands for the infinities a division by zero, a logarithm of zero
or an overflow would give: none of them is a usable number. -/
inductive XR where
  | nan : XR
  | fin : ℝ → XR

namespace XR
open Classical

/-- total function -/
noncomputable def m1 (f : ℝ → ℝ) : XR → XR
  | nan => nan
  | fin a => fin (f a)
/-- function with a domain -/
noncomputable def m1p (p : ℝ → Prop) (f : ℝ → ℝ) : XR → XR
  | nan => nan
  | fin a => if p a then fin (f a) else nan
/-- total binary function -/
noncomputable def m2 (f : ℝ → ℝ → ℝ) : XR → XR → XR
  | fin a, fin b => fin (f a b)
  | fin _, nan => nan
  | nan, _ => nan
/-- binary function with a domain -/
noncomputable def m2p (p : ℝ → ℝ → Prop) (f : ℝ → ℝ → ℝ) : XR → XR → XR
  | fin a, fin b => if p a b then fin (f a b) else nan
  | fin _, nan => nan
  | nan, _ => nan
/-- comparison, false on NaN as in IEEE -/
noncomputable def cmp (p : ℝ → ℝ → Prop) : XR → XR → Bool
  | fin a, fin b => decide (p a b)
  | fin _, nan => false
  | nan, _ => false

end XR

open Classical in
noncomputable instance instScalarXR : Scalar XR where
  add := XR.m2 (· + ·)
  sub := XR.m2 (· - ·)
  mul := XR.m2 (· * ·)
  neg := XR.m1 (fun x => -x)
  div := XR.m2p (fun _ b => b ≠ 0) (· / ·)
  lit m s e := XR.fin (Num.lit m s e)
  nat n := XR.fin (Num.nat n)
  pi := XR.fin Real.pi
  nan := XR.nan
  sin := XR.m1 Real.sin
  cos := XR.m1 Real.cos
  tan := XR.m1 rtan
  arcsin := XR.m1p (fun x => -1 ≤ x ∧ x ≤ 1) Real.arcsin
  arccos := XR.m1p (fun x => -1 ≤ x ∧ x ≤ 1) Real.arccos
  arctan := XR.m1 Real.arctan
  sqrt := XR.m1p (fun x => 0 ≤ x) Real.sqrt
  absv := XR.m1 (fun x => |x|)
  exp := XR.m1 Real.exp
  log := XR.m1p (fun x => 0 < x) Real.log
  arctan2 := XR.m2 ratan2
  pmod := XR.m2p (fun _ b => b ≠ 0) rpmod
  cmod := XR.m2p (fun _ b => b ≠ 0) rcmod
  max2 := XR.m2 max
  npow x n := XR.m1 (fun y => y ^ n) x
  rpow := XR.m2p (fun x y => 0 < x ∨ (x = 0 ∧ 0 < y)) (fun x y => x ^ y)
  trunc := XR.m1 (fun x => rtrunc x)
  round6 := XR.m1 rround6
  f32 := id
  whereLt x y a b := if XR.cmp (· < ·) x y then a else b
  whereLe x y a b := if XR.cmp (· ≤ ·) x y then a else b
  leB := XR.cmp (· ≤ ·)
  ltB := XR.cmp (· < ·)
  isNan x := match x with | XR.nan => true | XR.fin _ => false
  ofInt n := XR.fin (n : ℝ)
  toInt x := match x with | XR.nan => none | XR.fin r => some (rtrunc r)

end SW
