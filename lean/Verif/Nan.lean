/-
Propagation of NaN. `LawfulNan F` lists the laws of NaN that IEEE arithmetic has (with all NaNs
identified); they are assumed of `F` where a theorem needs them, and `XR` satisfies them.
-/
import Verif.Master
import Verif.RealXR

namespace SW

universe u

/-- NaN is absorbing for arithmetic and elementary functions, and comparisons with it are false.
(Powers are not listed: IEEE `pow(x, 0) = 1` even for NaN.) -/
class LawfulNan (F : Type u) [Scalar F] : Prop where
  add_l : ∀ x : F, Num.nan + x = Num.nan
  add_r : ∀ x : F, x + Num.nan = Num.nan
  sub_l : ∀ x : F, Num.nan - x = Num.nan
  sub_r : ∀ x : F, x - Num.nan = Num.nan
  mul_l : ∀ x : F, Num.nan * x = Num.nan
  mul_r : ∀ x : F, x * Num.nan = Num.nan
  div_l : ∀ x : F, Num.nan / x = Num.nan
  div_r : ∀ x : F, x / Num.nan = Num.nan
  neg : -(Num.nan : F) = Num.nan
  sin : Num.sin (Num.nan : F) = Num.nan
  cos : Num.cos (Num.nan : F) = Num.nan
  tan : Num.tan (Num.nan : F) = Num.nan
  arcsin : Num.arcsin (Num.nan : F) = Num.nan
  arccos : Num.arccos (Num.nan : F) = Num.nan
  arctan : Num.arctan (Num.nan : F) = Num.nan
  sqrt : Num.sqrt (Num.nan : F) = Num.nan
  absv : Num.absv (Num.nan : F) = Num.nan
  exp : Num.exp (Num.nan : F) = Num.nan
  log : Num.log (Num.nan : F) = Num.nan
  atan2_l : ∀ x : F, Num.arctan2 Num.nan x = Num.nan
  atan2_r : ∀ x : F, Num.arctan2 x Num.nan = Num.nan
  pmod_l : ∀ x : F, Num.pmod Num.nan x = Num.nan
  cmod_l : ∀ x : F, Num.cmod Num.nan x = Num.nan
  max_l : ∀ x : F, Num.max2 Num.nan x = Num.nan
  max_r : ∀ x : F, Num.max2 x Num.nan = Num.nan
  sq : Num.npow (Num.nan : F) 2 = Num.nan
  round6 : Num.round6 (Num.nan : F) = Num.nan
  f32 : Num.f32 (Num.nan : F) = Num.nan
  whereLt_l : ∀ x a b : F, Num.whereLt Num.nan x a b = b
  whereLt_r : ∀ x a b : F, Num.whereLt x Num.nan a b = b
  whereLe_l : ∀ x a b : F, Num.whereLe Num.nan x a b = b
  whereLe_r : ∀ x a b : F, Num.whereLe x Num.nan a b = b
  isNan : Scalar.isNan (Num.nan : F) = true
  toInt : Scalar.toInt (Num.nan : F) = none

instance : LawfulNan XR where
  add_l _ := rfl
  add_r x := by cases x <;> rfl
  sub_l _ := rfl
  sub_r x := by cases x <;> rfl
  mul_l _ := rfl
  mul_r x := by cases x <;> rfl
  div_l _ := rfl
  div_r x := by cases x <;> rfl
  neg := rfl
  sin := rfl
  cos := rfl
  tan := rfl
  arcsin := rfl
  arccos := rfl
  arctan := rfl
  sqrt := rfl
  absv := rfl
  exp := rfl
  log := rfl
  atan2_l _ := rfl
  atan2_r x := by cases x <;> rfl
  pmod_l _ := rfl
  cmod_l _ := rfl
  max_l _ := rfl
  max_r x := by cases x <;> rfl
  sq := rfl
  round6 := rfl
  f32 := rfl
  whereLt_l x a b := if_neg (by simp [XR.cmp, Num.nan])
  whereLt_r x a b := if_neg (by cases x <;> simp [XR.cmp, Num.nan])
  whereLe_l x a b := if_neg (by simp [XR.cmp, Num.nan])
  whereLe_r x a b := if_neg (by cases x <;> simp [XR.cmp, Num.nan])
  isNan := rfl
  toInt := rfl

/-- pushes NaN outwards -/
macro "nan" : tactic => `(tactic| simp only [LawfulNan.add_l, LawfulNan.add_r, LawfulNan.sub_l,
  LawfulNan.sub_r, LawfulNan.mul_l, LawfulNan.mul_r, LawfulNan.div_l, LawfulNan.div_r, LawfulNan.neg,
  LawfulNan.sin, LawfulNan.cos, LawfulNan.tan, LawfulNan.arcsin, LawfulNan.arccos, LawfulNan.arctan,
  LawfulNan.sqrt, LawfulNan.absv, LawfulNan.exp, LawfulNan.log, LawfulNan.atan2_l, LawfulNan.atan2_r,
  LawfulNan.pmod_l, LawfulNan.cmod_l, LawfulNan.max_l, LawfulNan.max_r, LawfulNan.sq,
  LawfulNan.round6, LawfulNan.f32, LawfulNan.whereLt_l, LawfulNan.whereLt_r, LawfulNan.whereLe_l,
  LawfulNan.whereLe_r, LawfulNan.isNan, LawfulNan.toInt, ite_self])

variable {F : Type} [Scalar F] [LawfulNan F]

/-- a NaN latitude or longitude gives a NaN zenith and a NaN azimuth -/
theorem Backend.cell_nan (b : Backend) (uc : UseCase) (t : Int) {lon lat : F} (r : Bool)
    (h : lon = Num.nan ∨ lat = Num.nan) :
    (b.cell uc t lon lat r).zenith = Num.nan ∧ (b.cell uc t lon lat r).azimuth = Num.nan := by
  rcases h with rfl | rfl
  · cases b
    · simp only [Backend.cell, Psa.cellPy, Psa.zenithPy, Psa.azimuthPy, Psa.zen0Py, Psa.az0, Psa.azWrap,
        Psa.parallax, Psa.withRefr, Psa.refract, Psa.hourAnglePy, Psa.cosz, radians]; nan; exact ⟨trivial, trivial⟩
    · simp only [Backend.cell, Psa.cellNe, Psa.zenithNe, Psa.azimuthNe, Psa.zen0Ne, Psa.az0, Psa.azWrap,
        Psa.parallax, Psa.withRefr, Psa.refract, Psa.hourAngleNe, Psa.cosz, radians]; nan; exact ⟨trivial, trivial⟩
    · simp only [Backend.cell, Soltrack.cellPy, Soltrack.zenith, Soltrack.sinAlt, Soltrack.azimuth,
        Soltrack.parallax, Soltrack.withRefr, Soltrack.refract, Soltrack.rad32, radians]
      nan; exact ⟨trivial, trivial⟩
    · simp only [Backend.cell, Soltrack.cellNe, Soltrack.zenith, Soltrack.sinAlt, Soltrack.azimuth,
        Soltrack.parallax, Soltrack.withRefr, Soltrack.refract, Soltrack.rad32, radians]
      nan; exact ⟨trivial, trivial⟩
    · simp only [Backend.cell, Iqbal.cellPy, Iqbal.lonHours, Iqbal.haPy, Iqbal.hourAngle, Iqbal.lat0,
        Iqbal.lat1Py, Iqbal.lat2Py, Iqbal.zenith, Iqbal.withRefr, Iqbal.cosz, Iqbal.refract, Iqbal.az0,
        Iqbal.azWrapPy, Iqbal.refcor]
      nan; exact ⟨trivial, trivial⟩
    · simp only [Backend.cell, Iqbal.cellNe, Iqbal.lonHours, Iqbal.haNe, Iqbal.hourAngle, Iqbal.lat0,
        Iqbal.lat1Ne, Iqbal.lat2Ne, Iqbal.zenith, Iqbal.withRefr, Iqbal.cosz, Iqbal.refract, Iqbal.az0,
        Iqbal.azWrapNe, Iqbal.refcor]
      nan; exact ⟨trivial, trivial⟩
    · simp only [Backend.cell, Nrel.cell, Nrel.hourAngle, Nrel.zen, Nrel.azi, Nrel.Hp, Nrel.zenith,
        Nrel.azimuth, Nrel.elev, Nrel.withRefr, Nrel.refract]
      nan; exact ⟨trivial, trivial⟩
  · cases b
    · simp only [Backend.cell, Psa.cellPy, Psa.zenithPy, Psa.azimuthPy, Psa.zen0Py, Psa.az0, Psa.azWrap,
        Psa.parallax, Psa.withRefr, Psa.refract, Psa.coslatPy, Psa.sinlatPy, Psa.cosz, radians]; nan; exact ⟨trivial, trivial⟩
    · simp only [Backend.cell, Psa.cellNe, Psa.zenithNe, Psa.azimuthNe, Psa.zen0Ne, Psa.az0, Psa.azWrap,
        Psa.parallax, Psa.withRefr, Psa.refract, Psa.coslatNe, Psa.sinlatNe, Psa.cosz, radians]; nan; exact ⟨trivial, trivial⟩
    · simp only [Backend.cell, Soltrack.cellPy, Soltrack.zenith, Soltrack.sinAlt, Soltrack.azimuth,
        Soltrack.parallax, Soltrack.withRefr, Soltrack.refract, Soltrack.rad32, Soltrack.sinlatPy,
        Soltrack.coslatPy, radians]
      nan; exact ⟨trivial, trivial⟩
    · simp only [Backend.cell, Soltrack.cellNe, Soltrack.zenith, Soltrack.sinAlt, Soltrack.azimuth,
        Soltrack.parallax, Soltrack.withRefr, Soltrack.refract, Soltrack.rad32, radians]
      nan; exact ⟨trivial, trivial⟩
    · simp only [Backend.cell, Iqbal.cellPy, Iqbal.cosLat, Iqbal.sinLat, Iqbal.latRad,
        Iqbal.zenith, Iqbal.withRefr, Iqbal.cosz, Iqbal.refract, Iqbal.az0,
        Iqbal.azWrapPy, Iqbal.refcor]
      nan; exact ⟨trivial, trivial⟩
    · simp only [Backend.cell, Iqbal.cellNe, Iqbal.cosLat, Iqbal.sinLat, Iqbal.latRad,
        Iqbal.zenith, Iqbal.withRefr, Iqbal.cosz, Iqbal.refract, Iqbal.az0,
        Iqbal.azWrapNe, Iqbal.refcor]
      nan; exact ⟨trivial, trivial⟩
    · simp only [Backend.cell, Nrel.cell, Nrel.zen, Nrel.azi, Nrel.Hp, Nrel.zenith,
        Nrel.azimuth, Nrel.elev, Nrel.withRefr, Nrel.refract]
      nan; exact ⟨trivial, trivial⟩

end SW
