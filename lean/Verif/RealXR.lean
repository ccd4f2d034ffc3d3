/-
Reduction of `XR` computations on finite operands to real computations.
-/
import Verif.Arr
import Mathlib.Tactic.NormNum
import Mathlib.Tactic.Linarith
import Mathlib.Tactic.Positivity
import Mathlib.Tactic.FieldSimp
import Mathlib.Tactic.Ring

namespace SW.XR
open Classical

section
variable {a b c d : ℝ}
theorem fin_inj : XR.fin a = XR.fin b ↔ a = b := ⟨fun h => by cases h; rfl, fun h => h ▸ rfl⟩
theorem add_fin : (XR.fin a + XR.fin b : XR) = XR.fin (a + b) := rfl
theorem sub_fin : (XR.fin a - XR.fin b : XR) = XR.fin (a - b) := rfl
theorem mul_fin : (XR.fin a * XR.fin b : XR) = XR.fin (a * b) := rfl
theorem neg_fin : (-XR.fin a : XR) = XR.fin (-a) := rfl
theorem div_fin (h : b ≠ 0) : (XR.fin a / XR.fin b : XR) = XR.fin (a / b) := if_pos h
theorem sci_fin {m : Nat} {s : Bool} {e : Nat} : (OfScientific.ofScientific m s e : XR)
    = XR.fin (OfScientific.ofScientific m s e) := rfl
theorem zero_fin : (0 : XR) = XR.fin 0 := rfl
theorem one_fin : (1 : XR) = XR.fin 1 := rfl
theorem nat_fin {n : Nat} [h : n.AtLeastTwo] :
    (no_index (OfNat.ofNat n) : XR) = XR.fin (OfNat.ofNat n) := by
  obtain ⟨k, rfl⟩ := Nat.exists_eq_add_of_le' h.prop
  rfl
theorem pi_fin : (Num.pi : XR) = XR.fin Real.pi := rfl
theorem sin_fin : Num.sin (XR.fin a) = XR.fin (Real.sin a) := rfl
theorem cos_fin : Num.cos (XR.fin a) = XR.fin (Real.cos a) := rfl
theorem tan_fin : Num.tan (XR.fin a) = XR.fin (rtan a) := rfl
theorem arcsin_fin (h : -1 ≤ a ∧ a ≤ 1) : Num.arcsin (XR.fin a) = XR.fin (Real.arcsin a) := if_pos h
theorem arccos_fin (h : -1 ≤ a ∧ a ≤ 1) : Num.arccos (XR.fin a) = XR.fin (Real.arccos a) := if_pos h
theorem arctan_fin : Num.arctan (XR.fin a) = XR.fin (Real.arctan a) := rfl
theorem sqrt_fin (h : 0 ≤ a) : Num.sqrt (XR.fin a) = XR.fin (Real.sqrt a) := if_pos h
theorem abs_fin : Num.absv (XR.fin a) = XR.fin |a| := rfl
theorem exp_fin : Num.exp (XR.fin a) = XR.fin (Real.exp a) := rfl
theorem log_fin (h : 0 < a) : Num.log (XR.fin a) = XR.fin (Real.log a) := if_pos h
theorem atan2_fin : Num.arctan2 (XR.fin a) (XR.fin b) = XR.fin (ratan2 a b) := rfl
theorem pmod_fin (h : b ≠ 0) : Num.pmod (XR.fin a) (XR.fin b) = XR.fin (rpmod a b) := if_pos h
theorem cmod_fin (h : b ≠ 0) : Num.cmod (XR.fin a) (XR.fin b) = XR.fin (rcmod a b) := if_pos h
theorem max2_fin : Num.max2 (XR.fin a) (XR.fin b) = XR.fin (max a b) := rfl
theorem npow_fin {n : Nat} : Num.npow (XR.fin a) n = XR.fin (a ^ n) := rfl
theorem rpow_fin (h : 0 < a ∨ (a = 0 ∧ 0 < b)) : Num.rpow (XR.fin a) (XR.fin b) = XR.fin (a ^ b) :=
  if_pos h
theorem trunc_fin : Num.trunc (XR.fin a) = XR.fin (rtrunc a) := rfl
theorem round6_fin : Num.round6 (XR.fin a) = XR.fin (rround6 a) := rfl
theorem f32_id {x : XR} : Num.f32 x = x := rfl
theorem ofInt_fin {n : Int} : (Scalar.ofInt n : XR) = XR.fin n := rfl
theorem whereLt_fin : Num.whereLt (XR.fin a) (XR.fin b) (XR.fin c) (XR.fin d)
    = XR.fin (Num.whereLt a b c d) := by
  show (if XR.cmp (· < ·) (XR.fin a) (XR.fin b) = true then XR.fin c else XR.fin d)
    = XR.fin (if a < b then c else d)
  simp only [XR.cmp, decide_eq_true_eq]
  split_ifs <;> rfl
theorem whereLe_fin : Num.whereLe (XR.fin a) (XR.fin b) (XR.fin c) (XR.fin d)
    = XR.fin (Num.whereLe a b c d) := by
  show (if XR.cmp (· ≤ ·) (XR.fin a) (XR.fin b) = true then XR.fin c else XR.fin d)
    = XR.fin (if a ≤ b then c else d)
  simp only [XR.cmp, decide_eq_true_eq]
  split_ifs <;> rfl
theorem radians_fin : radians (XR.fin a) = XR.fin (radians a) := by
  have h : ((180 : XR)) = XR.fin 180 := rfl
  unfold radians
  rw [h, pi_fin, div_fin (by norm_num)]; rfl
theorem degrees_fin : degrees (XR.fin a) = XR.fin (degrees a) := by
  have h : ((180 : XR)) = XR.fin 180 := rfl
  unfold degrees
  rw [h, pi_fin, div_fin Real.pi_ne_zero]; rfl
theorem DEG2RAD_fin : (DEG2RAD : XR) = XR.fin DEG2RAD := by
  have h : ((180 : XR)) = XR.fin 180 := rfl
  unfold DEG2RAD
  rw [h, pi_fin, div_fin (by norm_num)]; rfl
theorem RAD2DEG_fin : (RAD2DEG : XR) = XR.fin RAD2DEG := by
  have h : ((180 : XR)) = XR.fin 180 := rfl
  unfold RAD2DEG
  rw [h, pi_fin, div_fin Real.pi_ne_zero]; rfl
theorem TWOPI_fin : (TWOPI : XR) = XR.fin TWOPI := rfl
theorem HALFPI_fin : (HALFPI : XR) = XR.fin HALFPI := rfl
end

end SW.XR

namespace SW

/-! ### the operations at `ℝ`, in Mathlib's terms -/
section
variable {a b c d : ℝ}
open Classical
theorem TWOPI_real : (TWOPI : ℝ) = 2 * Real.pi := by
  show (2.0 : ℝ) * Real.pi = _; norm_num
theorem HALFPI_real : (HALFPI : ℝ) = Real.pi / 2 := by
  show (0.5 : ℝ) * Real.pi = _; norm_num; ring
theorem DEG2RAD_real : (DEG2RAD : ℝ) = Real.pi / 180 := rfl
theorem RAD2DEG_real : (RAD2DEG : ℝ) = 180 / Real.pi := rfl
theorem radians_real : radians a = a * (Real.pi / 180) := rfl
theorem degrees_real : degrees a = a * (180 / Real.pi) := rfl
theorem whereLt_real : Num.whereLt a b c d = if a < b then c else d := rfl
theorem whereLe_real : Num.whereLe a b c d = if a ≤ b then c else d := rfl
theorem TWOPI_ne : (TWOPI : ℝ) ≠ 0 := by rw [TWOPI_real]; positivity
theorem TWOPI_pos : 0 < (TWOPI : ℝ) := by rw [TWOPI_real]; positivity
end

/-- `ℝ` as a scalar type (used to name the real value of a computation without NaN) -/
noncomputable instance instScalarReal : Scalar ℝ where
  toNum := instNumReal
  leB x y := open Classical in decide (x ≤ y)
  ltB x y := open Classical in decide (x < y)
  isNan _ := false
  ofInt n := (n : ℝ)
  toInt x := some (rtrunc x)

theorem ofInt_real (n : Int) : (Scalar.ofInt n : ℝ) = n := rfl

/-- a real result as an `XR` result -/
def Out.fin (o : Out ℝ) : Out XR :=
  ⟨XR.fin o.zenith, XR.fin o.azimuth, XR.fin o.ecf, XR.fin o.declination, XR.fin o.eot⟩

/-- pushes `XR.fin` outwards; side conditions by `norm_num` -/
macro "xr" : tactic => `(tactic| simp (disch := first | exact TWOPI_ne | norm_num) only [XR.add_fin, XR.sub_fin, XR.mul_fin, XR.neg_fin, XR.div_fin,
  XR.sci_fin, XR.zero_fin, XR.one_fin, XR.nat_fin, XR.pi_fin, XR.sin_fin, XR.cos_fin, XR.tan_fin,
  XR.arctan_fin, XR.abs_fin, XR.exp_fin, XR.atan2_fin, XR.pmod_fin, XR.cmod_fin, XR.max2_fin, XR.npow_fin,
  XR.trunc_fin, XR.round6_fin, XR.f32_id, XR.ofInt_fin, XR.whereLt_fin, XR.whereLe_fin,
  XR.radians_fin, XR.degrees_fin, XR.DEG2RAD_fin, XR.RAD2DEG_fin, XR.TWOPI_fin, XR.HALFPI_fin])
/-- `f (fin x) = fin (f x)` for a formula `f` without domain conditions -/
macro "xrfl" : tactic => `(tactic| first | rfl | (xr; done) | (xr; rfl))
end SW
