/-
Exact shapes of the engine outputs (used for the assertions of `Sunpos.__init__` and for the
assignment `output[nonat, ...] = values` of `_core.py`).
-/
import Verif.Psa
import Verif.Soltrack
import Verif.Iqbal
import Verif.Nrel

set_option linter.unusedSimpArgs false

namespace SW

@[simp] theorem bdim_self (d : Nat) : bdim d d = d := by unfold bdim; split <;> simp_all
@[simp] theorem bdim_one_left (d : Nat) : bdim 1 d = d := by simp [bdim]
@[simp] theorem bdim_one_right (d : Nat) : bdim d 1 = d := by unfold bdim; split <;> simp_all
@[simp] theorem bshape_nil_left (a : List Nat) : bshape [] a = a := rfl
@[simp] theorem bshape_nil_right (a : List Nat) : bshape a [] = a := by cases a <;> rfl
@[simp] theorem bshape_cons (d e : Nat) (ds es : List Nat) :
    bshape (d :: ds) (e :: es) = bdim d e :: bshape ds es := rfl

namespace Arr
variable {F : Type _} [Num F] {a b c d : Arr F}
theorem rs_sci {m s e} : (OfScientific.ofScientific m s e : Arr F).rs = [] := rfl
theorem rs_ofNat {n : Nat} : (no_index (OfNat.ofNat n : Arr F)).rs = [] := rfl
theorem rs_lit {m s e} : (Num.lit m s e : Arr F).rs = [] := rfl
theorem rs_nat {n : Nat} : (Num.nat n : Arr F).rs = [] := rfl
theorem rs_pi : (Num.pi : Arr F).rs = [] := rfl
theorem rs_deg2rad : (DEG2RAD : Arr F).rs = [] := rfl
theorem rs_rad2deg : (RAD2DEG : Arr F).rs = [] := rfl
theorem rs_twopi : (TWOPI : Arr F).rs = [] := rfl
theorem rs_halfpi : (HALFPI : Arr F).rs = [] := rfl
theorem rs_RAD : (Iqbal.RAD : Arr F).rs = [] := rfl
theorem rs_atm : (Nrel.ATM_REFR : Arr F).rs = [] := rfl
theorem rs_add : (a + b).rs = bshape a.rs b.rs := rfl
theorem rs_sub : (a - b).rs = bshape a.rs b.rs := rfl
theorem rs_mul : (a * b).rs = bshape a.rs b.rs := rfl
theorem rs_div : (a / b).rs = bshape a.rs b.rs := rfl
theorem rs_neg : (-a).rs = a.rs := rfl
theorem rs_sin : (Num.sin a).rs = a.rs := rfl
theorem rs_cos : (Num.cos a).rs = a.rs := rfl
theorem rs_tan : (Num.tan a).rs = a.rs := rfl
theorem rs_arcsin : (Num.arcsin a).rs = a.rs := rfl
theorem rs_arccos : (Num.arccos a).rs = a.rs := rfl
theorem rs_arctan : (Num.arctan a).rs = a.rs := rfl
theorem rs_sqrt : (Num.sqrt a).rs = a.rs := rfl
theorem rs_absv : (Num.absv a).rs = a.rs := rfl
theorem rs_trunc : (Num.trunc a).rs = a.rs := rfl
theorem rs_round6 : (Num.round6 a).rs = a.rs := rfl
theorem rs_f32 : (Num.f32 a).rs = a.rs := rfl
theorem rs_npow {n : Nat} : (Num.npow a n).rs = a.rs := rfl
theorem rs_arctan2 : (Num.arctan2 a b).rs = bshape a.rs b.rs := rfl
theorem rs_pmod : (Num.pmod a b).rs = bshape a.rs b.rs := rfl
theorem rs_cmod : (Num.cmod a b).rs = bshape a.rs b.rs := rfl
theorem rs_whereLt :
    (Num.whereLt a b c d).rs = bshape (bshape a.rs b.rs) (bshape c.rs d.rs) := rfl
theorem rs_whereLe :
    (Num.whereLe a b c d).rs = bshape (bshape a.rs b.rs) (bshape c.rs d.rs) := rfl
theorem rs_radians : (radians a).rs = a.rs := by simp [radians, rs_mul, rs_div, rs_pi, rs_ofNat]
theorem rs_degrees : (degrees a).rs = a.rs := by simp [degrees, rs_mul, rs_div, rs_pi, rs_ofNat]
omit [Num F] in
theorem rs_t2 : a.t2.rs = 1 :: a.rs := rfl
omit [Num F] in
theorem rs_t3 : a.t3.rs = 1 :: 1 :: a.rs := rfl
omit [Num F] in
theorem rs_l2 : a.l2.rs = a.rs ++ [1] := rfl
omit [Num F] in
theorem rs_x3 : a.x3.rs = a.rs ++ [1, 1] := rfl
omit [Num F] in
theorem rs_y3 : a.y3.rs = 1 :: (a.rs ++ [1]) := rfl
theorem rs_map {α : Type _} {G : Type _} (f : α → G) (a : Arr α) : (a.map f).rs = a.rs := rfl
theorem rs_dec (x : Nrel.Dec) : (x.num : Arr F).rs = [] := by unfold Nrel.Dec.num; split <;> rfl
theorem rs_inum (x : Int) : (Nrel.inum x : Arr F).rs = [] := by unfold Nrel.inum; split <;> rfl
end Arr

section
variable {F : Type _}

/-- the shapes of the five outputs -/
structure OutShape {F : Type _} (o : Out (Arr F)) (sh : List Nat) (K : Nat) : Prop where
  zenith : o.zenith.rs = sh
  azimuth : o.azimuth.rs = sh
  ecf : o.ecf.rs = [K]
  declination : o.declination.rs = [K]
  eot : o.eot.rs = [K]

end

section modules
open Arr
attribute [local simp] rs_sci rs_ofNat rs_lit rs_nat rs_pi rs_deg2rad rs_rad2deg rs_twopi rs_halfpi
  rs_RAD rs_atm rs_add rs_sub rs_mul rs_div rs_neg rs_sin rs_cos rs_tan rs_arcsin rs_arccos rs_arctan
  rs_sqrt rs_absv rs_trunc rs_round6 rs_f32 rs_npow rs_arctan2 rs_pmod rs_cmod rs_whereLt rs_whereLe
  rs_radians rs_degrees rs_t2 rs_t3 rs_l2 rs_x3 rs_y3 rs_map rs_dec rs_inum
variable {F : Type _} [Scalar F] {ts : Arr Int} {lon lat : Arr F} {I J K : Nat}

theorem Psa.time_rs {u : Arr F} (h : u.rs = [K]) :
    (Psa.timePy u).gmst.rs = [K] ∧ (Psa.timePy u).ra.rs = [K] ∧ (Psa.timePy u).delta.rs = [K]
    ∧ (Psa.timePy u).ecf.rs = [K] ∧ (Psa.timePy u).eot.rs = [K]
    ∧ (Psa.timeNe u).gmst.rs = [K] ∧ (Psa.timeNe u).ra.rs = [K] ∧ (Psa.timeNe u).delta.rs = [K]
    ∧ (Psa.timeNe u).ecf.rs = [K] ∧ (Psa.timeNe u).eot.rs = [K] := by
  have hj : (Psa.jde u).rs = [K] := by simp [Psa.jde, h]
  have hc : (Psa.jdc (Psa.jde u)).rs = [K] := by simp [Psa.jdc, hj]
  have hL : (Psa.L (Psa.jde u)).rs = [K] := by simp [Psa.L, hj]
  have hg : (Psa.g (Psa.jde u)).rs = [K] := by simp [Psa.g, hj]
  have ho : (Psa.omega (Psa.jde u)).rs = [K] := by simp [Psa.omega, hj]
  have he : (Psa.eclon (Psa.jde u)).rs = [K] := by simp [Psa.eclon, hL, hg, ho]
  have hp : (Psa.ep (Psa.jde u)).rs = [K] := by simp [Psa.ep, hj, ho]
  have hr : (Psa.ra (Psa.ep (Psa.jde u)) (Psa.eclon (Psa.jde u))).rs = [K] := by
    simp [Psa.ra, Psa.ra0, he, hp]
  have hm : (Psa.ma (Psa.jdc (Psa.jde u))).rs = [K] := by simp [Psa.ma, hc]
  have hs : (Psa.sec (Psa.jdc (Psa.jde u))).rs = [K] := by simp [Psa.sec, hc, hm]
  have hx : (Psa.ecc (Psa.jdc (Psa.jde u))).rs = [K] := by simp [Psa.ecc, hc]
  simp only [Psa.timePy, Psa.timeNe]
  refine ⟨?_, hr, ?_, ?_, ?_, ?_, hr, ?_, ?_, ?_⟩ <;>
  simp [Psa.gmst, Psa.decimalHourPy, Psa.decimalHourNe, Psa.delta, Psa.ecf, Psa.R, Psa.eot0Py,
    Psa.eot0Ne, Psa.eot1, Psa.eot2, Psa.Lred, Psa.dX, h, hj, hL, he, hp, hr, hm, hs, hx]

theorem Psa.py1_shape (ht : ts.rs = [K]) (hx : lon.rs = [K]) (hy : lat.rs = [K]) (r : Bool) :
    OutShape (Psa.py1 ts lon lat r) [K] K := by
  obtain ⟨h1, h2, h3, h4, h5, -⟩ := Psa.time_rs (F := F) (u := ts.map Scalar.ofInt) (K := K) ht
  constructor <;> cases r <;>
  simp [Psa.py1, Psa.zenithPy, Psa.azimuthPy, Psa.withRefr, Psa.refract, Psa.refrCorr, Psa.zen0Py,
    Psa.parallax, Psa.cosz, Psa.azWrap, Psa.az0, Psa.coslatPy, Psa.sinlatPy, Psa.hourAnglePy,
    h1, h2, h3, h4, h5, hx, hy]

theorem Psa.py2_shape (ht : ts.rs = [K]) (hx : lon.rs = [J]) (hy : lat.rs = [J]) (r : Bool) :
    OutShape (Psa.py2 ts lon lat r) [J, K] K := by
  obtain ⟨h1, h2, h3, h4, h5, -⟩ := Psa.time_rs (F := F) (u := ts.map Scalar.ofInt) (K := K) ht
  constructor <;> cases r <;>
  simp [Psa.py2, Psa.zenithPy, Psa.azimuthPy, Psa.withRefr, Psa.refract, Psa.refrCorr, Psa.zen0Py,
    Psa.parallax, Psa.cosz, Psa.azWrap, Psa.az0, Psa.coslatPy, Psa.sinlatPy, Psa.hourAnglePy,
    h1, h2, h3, h4, h5, hx, hy]

theorem Psa.py3_shape (ht : ts.rs = [K]) (hx : lon.rs = [I]) (hy : lat.rs = [J]) (r : Bool) :
    OutShape (Psa.py3 ts lon lat r) [I, J, K] K := by
  obtain ⟨h1, h2, h3, h4, h5, -⟩ := Psa.time_rs (F := F) (u := ts.map Scalar.ofInt) (K := K) ht
  constructor <;> cases r <;>
  simp [Psa.py3, Psa.zenithPy, Psa.azimuthPy, Psa.withRefr, Psa.refract, Psa.refrCorr, Psa.zen0Py,
    Psa.parallax, Psa.cosz, Psa.azWrap, Psa.az0, Psa.coslatPy, Psa.sinlatPy, Psa.hourAnglePy,
    h1, h2, h3, h4, h5, hx, hy]

theorem Psa.ne1_shape (ht : ts.rs = [K]) (hx : lon.rs = [K]) (hy : lat.rs = [K]) (r : Bool) :
    OutShape (Psa.ne1 ts lon lat r) [K] K := by
  obtain ⟨-, -, -, -, -, h1, h2, h3, h4, h5⟩ :=
    Psa.time_rs (F := F) (u := ts.map Scalar.ofInt) (K := K) ht
  constructor <;> cases r <;>
  simp [Psa.ne1, Psa.zenithNe, Psa.azimuthNe, Psa.withRefr, Psa.refract, Psa.refrCorr, Psa.zen0Ne,
    Psa.parallax, Psa.cosz, Psa.azWrap, Psa.az0, Psa.coslatNe, Psa.sinlatNe, Psa.hourAngleNe,
    h1, h2, h3, h4, h5, hx, hy]

theorem Psa.ne2_shape (ht : ts.rs = [K]) (hx : lon.rs = [J]) (hy : lat.rs = [J]) (r : Bool) :
    OutShape (Psa.ne2 ts lon lat r) [J, K] K := by
  obtain ⟨-, -, -, -, -, h1, h2, h3, h4, h5⟩ :=
    Psa.time_rs (F := F) (u := ts.map Scalar.ofInt) (K := K) ht
  constructor <;> cases r <;>
  simp [Psa.ne2, Psa.zenithNe, Psa.azimuthNe, Psa.withRefr, Psa.refract, Psa.refrCorr, Psa.zen0Ne,
    Psa.parallax, Psa.cosz, Psa.azWrap, Psa.az0, Psa.coslatNe, Psa.sinlatNe, Psa.hourAngleNe,
    h1, h2, h3, h4, h5, hx, hy]

theorem Psa.ne3_shape (ht : ts.rs = [K]) (hx : lon.rs = [I]) (hy : lat.rs = [J]) (r : Bool) :
    OutShape (Psa.ne3 ts lon lat r) [I, J, K] K := by
  obtain ⟨-, -, -, -, -, h1, h2, h3, h4, h5⟩ :=
    Psa.time_rs (F := F) (u := ts.map Scalar.ofInt) (K := K) ht
  constructor <;> cases r <;>
  simp [Psa.ne3, Psa.zenithNe, Psa.azimuthNe, Psa.withRefr, Psa.refract, Psa.refrCorr, Psa.zen0Ne,
    Psa.parallax, Psa.cosz, Psa.azWrap, Psa.az0, Psa.coslatNe, Psa.sinlatNe, Psa.hourAngleNe,
    h1, h2, h3, h4, h5, hx, hy]

theorem Soltrack.time_rs {u : Arr F} (h : u.rs = [K]) :
    (Soltrack.timePy u).agst.rs = [K] ∧ (Soltrack.timePy u).ra.rs = [K]
    ∧ (Soltrack.timePy u).decl.rs = [K]
    ∧ (Soltrack.timePy u).ecf.rs = [K] ∧ (Soltrack.timePy u).eot.rs = [K]
    ∧ (Soltrack.timeNe u).agst.rs = [K] ∧ (Soltrack.timeNe u).ra.rs = [K]
    ∧ (Soltrack.timeNe u).decl.rs = [K]
    ∧ (Soltrack.timeNe u).ecf.rs = [K] ∧ (Soltrack.timeNe u).eot.rs = [K] := by
  have hd : (Soltrack.tJD u).rs = [K] := by simp [Soltrack.tJD, h]
  have hc : (Soltrack.tJC (Soltrack.tJD u)).rs = [K] := by simp [Soltrack.tJC, hd]
  have hc2 : (Soltrack.tJC2 (Soltrack.tJC (Soltrack.tJD u))).rs = [K] := by
    simp [Soltrack.tJC2, hc]
  have hl : (Soltrack.l0 (Soltrack.tJC (Soltrack.tJD u))).rs = [K] := by
    simp [Soltrack.l0, hc, hc2]
  have hm : (Soltrack.ma (Soltrack.tJC (Soltrack.tJD u))).rs = [K] := by
    simp [Soltrack.ma, hc, hc2]
  have hs : (Soltrack.sec (Soltrack.tJC (Soltrack.tJD u))).rs = [K] := by
    simp [Soltrack.sec, hc, hc2, hm]
  have ho : (Soltrack.omg (Soltrack.tJC (Soltrack.tJD u))).rs = [K] := by
    simp [Soltrack.omg, hc, hc2]
  have hp : (Soltrack.dpsi (Soltrack.tJC (Soltrack.tJD u))).rs = [K] := by
    simp [Soltrack.dpsi, ho]
  have he : (Soltrack.ecc (Soltrack.tJC (Soltrack.tJD u))).rs = [K] := by
    simp [Soltrack.ecc, hc, hc2]
  have hR : (Soltrack.R (Soltrack.tJC (Soltrack.tJD u))).rs = [K] := by
    simp [Soltrack.R, he, hm, hs]
  have hL : (Soltrack.Lraw (Soltrack.tJC (Soltrack.tJD u))).rs = [K] := by
    simp [Soltrack.Lraw, hl, hs, hR, hp]
  have hb : (Soltrack.obliquity (Soltrack.tJC (Soltrack.tJD u))).rs = [K] := by
    simp [Soltrack.obliquity, hc, hc2, ho]
  simp only [Soltrack.timePy, Soltrack.timeNe]
  refine ⟨?_, ?_, ?_, ?_, ?_, ?_, ?_, ?_, ?_, ?_⟩ <;>
  simp [Soltrack.agst, Soltrack.gmst, Soltrack.raPy, Soltrack.raNe, Soltrack.LPy, Soltrack.LNe,
    Soltrack.decl, Soltrack.sinoPy, Soltrack.sinoNe, Soltrack.ecf, Soltrack.eot0Py,
    Soltrack.eot0Ne, Soltrack.eot1, Soltrack.eot2, Soltrack.xdegPy, Soltrack.xdegNe,
    h, hd, hc2, hl, hp, hR, hL, hb]

theorem Soltrack.py1_shape (ht : ts.rs = [K]) (hx : lon.rs = [K]) (hy : lat.rs = [K]) (r : Bool) :
    OutShape (Soltrack.py1 ts lon lat r) [K] K := by
  obtain ⟨h1, h2, h3, h4, h5, -⟩ :=
    Soltrack.time_rs (F := F) (u := ts.map Scalar.ofInt) (K := K) ht
  constructor <;> cases r <;>
  simp [Soltrack.py1, Soltrack.zenith, Soltrack.withRefr, Soltrack.refract, Soltrack.parallax, Soltrack.sinAlt, Soltrack.azimuth, Soltrack.cosdecPy, Soltrack.coslatPy, Soltrack.sinlatPy, Soltrack.rad32,
    h1, h2, h3, h4, h5, hx, hy]

theorem Soltrack.py2_shape (ht : ts.rs = [K]) (hx : lon.rs = [J]) (hy : lat.rs = [J]) (r : Bool) :
    OutShape (Soltrack.py2 ts lon lat r) [J, K] K := by
  obtain ⟨h1, h2, h3, h4, h5, -⟩ :=
    Soltrack.time_rs (F := F) (u := ts.map Scalar.ofInt) (K := K) ht
  constructor <;> cases r <;>
  simp [Soltrack.py2, Soltrack.zenith, Soltrack.withRefr, Soltrack.refract, Soltrack.parallax, Soltrack.sinAlt, Soltrack.azimuth, Soltrack.cosdecPy, Soltrack.coslatPy, Soltrack.sinlatPy, Soltrack.rad32,
    h1, h2, h3, h4, h5, hx, hy]

theorem Soltrack.py3_shape (ht : ts.rs = [K]) (hx : lon.rs = [I]) (hy : lat.rs = [J]) (r : Bool) :
    OutShape (Soltrack.py3 ts lon lat r) [I, J, K] K := by
  obtain ⟨h1, h2, h3, h4, h5, -⟩ :=
    Soltrack.time_rs (F := F) (u := ts.map Scalar.ofInt) (K := K) ht
  constructor <;> cases r <;>
  simp [Soltrack.py3, Soltrack.zenith, Soltrack.withRefr, Soltrack.refract, Soltrack.parallax, Soltrack.sinAlt, Soltrack.azimuth, Soltrack.cosdecPy, Soltrack.coslatPy, Soltrack.sinlatPy, Soltrack.rad32,
    h1, h2, h3, h4, h5, hx, hy]

theorem Soltrack.ne1_shape (ht : ts.rs = [K]) (hx : lon.rs = [K]) (hy : lat.rs = [K]) (r : Bool) :
    OutShape (Soltrack.ne1 ts lon lat r) [K] K := by
  obtain ⟨-, -, -, -, -, h1, h2, h3, h4, h5⟩ :=
    Soltrack.time_rs (F := F) (u := ts.map Scalar.ofInt) (K := K) ht
  constructor <;> cases r <;>
  simp [Soltrack.ne1, Soltrack.zenith, Soltrack.withRefr, Soltrack.refract, Soltrack.parallax, Soltrack.sinAlt, Soltrack.azimuth,
    h1, h2, h3, h4, h5, hx, hy]

theorem Soltrack.ne2_shape (ht : ts.rs = [K]) (hx : lon.rs = [J]) (hy : lat.rs = [J]) (r : Bool) :
    OutShape (Soltrack.ne2 ts lon lat r) [J, K] K := by
  obtain ⟨-, -, -, -, -, h1, h2, h3, h4, h5⟩ :=
    Soltrack.time_rs (F := F) (u := ts.map Scalar.ofInt) (K := K) ht
  constructor <;> cases r <;>
  simp [Soltrack.ne2, Soltrack.zenith, Soltrack.withRefr, Soltrack.refract, Soltrack.parallax, Soltrack.sinAlt, Soltrack.azimuth,
    h1, h2, h3, h4, h5, hx, hy]

theorem Soltrack.ne3_shape (ht : ts.rs = [K]) (hx : lon.rs = [I]) (hy : lat.rs = [J]) (r : Bool) :
    OutShape (Soltrack.ne3 ts lon lat r) [I, J, K] K := by
  obtain ⟨-, -, -, -, -, h1, h2, h3, h4, h5⟩ :=
    Soltrack.time_rs (F := F) (u := ts.map Scalar.ofInt) (K := K) ht
  constructor <;> cases r <;>
  simp [Soltrack.ne3, Soltrack.zenith, Soltrack.withRefr, Soltrack.refract, Soltrack.parallax, Soltrack.sinAlt, Soltrack.azimuth,
    h1, h2, h3, h4, h5, hx, hy]

theorem Iqbal.series_rs {a : Arr F} (h : a.rs = [K]) :
    (Iqbal.ecf a).rs = [K] ∧ (Iqbal.eotHours a).rs = [K] ∧ (Iqbal.decl a).rs = [K]
    ∧ (Iqbal.eotMinutes a).rs = [K] := by
  refine ⟨?_, ?_, ?_, ?_⟩ <;>
  simp [Iqbal.ecf, Iqbal.eotHours, Iqbal.decl, Iqbal.eotMinutes, h]

theorem Iqbal.py1_shape (ht : ts.rs = [K]) (hx : lon.rs = [K]) (hy : lat.rs = [K]) (r : Bool) :
    OutShape (Iqbal.py1 ts lon lat r) [K] K := by
  have hs : (ts.map (Iqbal.stdTime (F := F))).rs = [K] := ht
  obtain ⟨h1, h2, h3, h4⟩ := Iqbal.series_rs (F := F) (a := ts.map Iqbal.dayAngle) (K := K) ht
  constructor <;> cases r <;>
  simp [Iqbal.py1, Iqbal.zenith, Iqbal.withRefr, Iqbal.refract, Iqbal.refcor, Iqbal.cosz, Iqbal.az0, Iqbal.cosLat, Iqbal.sinLat, Iqbal.latRad, Iqbal.lonHours, Iqbal.lat0, Iqbal.hourAngle, Iqbal.azWrapPy, Iqbal.haPy, Iqbal.lat1Py, Iqbal.lat2Py,
    hs, h1, h2, h3, h4, hx, hy, ht]

theorem Iqbal.py2_shape (ht : ts.rs = [K]) (hx : lon.rs = [J]) (hy : lat.rs = [J]) (r : Bool) :
    OutShape (Iqbal.py2 ts lon lat r) [J, K] K := by
  have hs : (ts.map (Iqbal.stdTime (F := F))).rs = [K] := ht
  obtain ⟨h1, h2, h3, h4⟩ := Iqbal.series_rs (F := F) (a := ts.map Iqbal.dayAngle) (K := K) ht
  constructor <;> cases r <;>
  simp [Iqbal.py2, Iqbal.zenith, Iqbal.withRefr, Iqbal.refract, Iqbal.refcor, Iqbal.cosz, Iqbal.az0, Iqbal.cosLat, Iqbal.sinLat, Iqbal.latRad, Iqbal.lonHours, Iqbal.lat0, Iqbal.hourAngle, Iqbal.azWrapPy, Iqbal.haPy, Iqbal.lat1Py, Iqbal.lat2Py,
    hs, h1, h2, h3, h4, hx, hy, ht]

theorem Iqbal.py3_shape (ht : ts.rs = [K]) (hx : lon.rs = [I]) (hy : lat.rs = [J]) (r : Bool) :
    OutShape (Iqbal.py3 ts lon lat r) [I, J, K] K := by
  have hs : (ts.map (Iqbal.stdTime (F := F))).rs = [K] := ht
  obtain ⟨h1, h2, h3, h4⟩ := Iqbal.series_rs (F := F) (a := ts.map Iqbal.dayAngle) (K := K) ht
  constructor <;> cases r <;>
  simp [Iqbal.py3, Iqbal.zenith, Iqbal.withRefr, Iqbal.refract, Iqbal.refcor, Iqbal.cosz, Iqbal.az0, Iqbal.cosLat, Iqbal.sinLat, Iqbal.latRad, Iqbal.lonHours, Iqbal.lat0, Iqbal.hourAngle, Iqbal.azWrapPy, Iqbal.haPy, Iqbal.lat1Py, Iqbal.lat2Py,
    hs, h1, h2, h3, h4, hx, hy, ht]

theorem Iqbal.ne1_shape (ht : ts.rs = [K]) (hx : lon.rs = [K]) (hy : lat.rs = [K]) (r : Bool) :
    OutShape (Iqbal.ne1 ts lon lat r) [K] K := by
  have hs : (ts.map (Iqbal.stdTime (F := F))).rs = [K] := ht
  obtain ⟨h1, h2, h3, h4⟩ := Iqbal.series_rs (F := F) (a := ts.map Iqbal.dayAngle) (K := K) ht
  constructor <;> cases r <;>
  simp [Iqbal.ne1, Iqbal.zenith, Iqbal.withRefr, Iqbal.refract, Iqbal.refcor, Iqbal.cosz, Iqbal.az0, Iqbal.cosLat, Iqbal.sinLat, Iqbal.latRad, Iqbal.lonHours, Iqbal.lat0, Iqbal.hourAngle, Iqbal.azWrapNe, Iqbal.haNe, Iqbal.lat1Ne, Iqbal.lat2Ne,
    hs, h1, h2, h3, h4, hx, hy, ht]

theorem Iqbal.ne2_shape (ht : ts.rs = [K]) (hx : lon.rs = [J]) (hy : lat.rs = [J]) (r : Bool) :
    OutShape (Iqbal.ne2 ts lon lat r) [J, K] K := by
  have hs : (ts.map (Iqbal.stdTime (F := F))).rs = [K] := ht
  obtain ⟨h1, h2, h3, h4⟩ := Iqbal.series_rs (F := F) (a := ts.map Iqbal.dayAngle) (K := K) ht
  constructor <;> cases r <;>
  simp [Iqbal.ne2, Iqbal.zenith, Iqbal.withRefr, Iqbal.refract, Iqbal.refcor, Iqbal.cosz, Iqbal.az0, Iqbal.cosLat, Iqbal.sinLat, Iqbal.latRad, Iqbal.lonHours, Iqbal.lat0, Iqbal.hourAngle, Iqbal.azWrapNe, Iqbal.haNe, Iqbal.lat1Ne, Iqbal.lat2Ne,
    hs, h1, h2, h3, h4, hx, hy, ht]

theorem Iqbal.ne3_shape (ht : ts.rs = [K]) (hx : lon.rs = [I]) (hy : lat.rs = [J]) (r : Bool) :
    OutShape (Iqbal.ne3 ts lon lat r) [I, J, K] K := by
  have hs : (ts.map (Iqbal.stdTime (F := F))).rs = [K] := ht
  obtain ⟨h1, h2, h3, h4⟩ := Iqbal.series_rs (F := F) (a := ts.map Iqbal.dayAngle) (K := K) ht
  constructor <;> cases r <;>
  simp [Iqbal.ne3, Iqbal.zenith, Iqbal.withRefr, Iqbal.refract, Iqbal.refcor, Iqbal.cosz, Iqbal.az0, Iqbal.cosLat, Iqbal.sinLat, Iqbal.latRad, Iqbal.lonHours, Iqbal.lat0, Iqbal.hourAngle, Iqbal.azWrapNe, Iqbal.haNe, Iqbal.lat1Ne, Iqbal.lat2Ne,
    hs, h1, h2, h3, h4, hx, hy, ht]

theorem Nrel.sumRows_rs {α : Type _} {f : α → Arr F} (h : ∀ r, (f r).rs = [K]) {l : List α}
    (hl : l ≠ []) : (Nrel.sumRows (l.map f)).rs = [K] := by
  obtain ⟨x, xs, rfl⟩ := List.exists_cons_of_ne_nil hl
  simp only [List.map_cons, Nrel.sumRows]
  have : ∀ (xs : List α) (a : Arr F), a.rs = [K] →
      ((xs.map f).foldl (fun a b => a + b) a).rs = [K] := by
    intro xs
    induction xs with
    | nil => intro a ha; exact ha
    | cons y ys ih => intro a ha; exact ih _ (by simp [ha, h])
  exact this xs _ (h x)

theorem Nrel.series_rs {a : Arr F} (h : a.rs = [K]) (n : Nat) {t : List Nrel.Row} (ht : t ≠ []) :
    (Nrel.series n t a).rs = [K] := by
  unfold Nrel.series
  exact Nrel.sumRows_rs (fun r => by simp [Nrel.term, h]) (by simp [Nrel.pad, ht])

theorem Nrel.time_rs {u : Arr F} (h : u.rs = [K]) :
    (Nrel.time u).alpha.rs = [K] ∧ (Nrel.time u).delta.rs = [K] ∧ (Nrel.time u).eot.rs = [K]
    ∧ (Nrel.time u).v.rs = [K] ∧ (Nrel.time u).R.rs = [K] := by
  have hd : (Nrel.jd u).rs = [K] := by simp [Nrel.jd, h]
  have hC : (Nrel.jc (Nrel.jd u)).rs = [K] := by simp [Nrel.jc, hd]
  simp only [Nrel.time]
  have hc' : (Nrel.jce (Nrel.jde (Nrel.jd u))).rs = [K] := by simp [Nrel.jce, Nrel.jde, hd]
  generalize Nrel.jce (Nrel.jde (Nrel.jd u)) = c at hc'
  have hm' : (Nrel.jme c).rs = [K] := by simp [Nrel.jme, hc']
  generalize Nrel.jme c = m at hm'
  have hR : (Nrel.R m).rs = [K] := by
    unfold Nrel.R
    simp [Nrel.series_rs hm' 40 (t := Nrel.paramsR0) (by simp [Nrel.paramsR0]),
      Nrel.series_rs hm' 40 (t := Nrel.paramsR1) (by simp [Nrel.paramsR1]),
      Nrel.series_rs hm' 40 (t := Nrel.paramsR2) (by simp [Nrel.paramsR2]),
      Nrel.series_rs hm' 40 (t := Nrel.paramsR3) (by simp [Nrel.paramsR3]),
      Nrel.series_rs hm' 40 (t := Nrel.paramsR4) (by simp [Nrel.paramsR4]), hm']
  have hL : (Nrel.Lraw m).rs = [K] := by
    unfold Nrel.Lraw
    simp [Nrel.series_rs hm' 64 (t := Nrel.paramsL0) (by simp [Nrel.paramsL0]),
      Nrel.series_rs hm' 64 (t := Nrel.paramsL1) (by simp [Nrel.paramsL1]),
      Nrel.series_rs hm' 64 (t := Nrel.paramsL2) (by simp [Nrel.paramsL2]),
      Nrel.series_rs hm' 64 (t := Nrel.paramsL3) (by simp [Nrel.paramsL3]),
      Nrel.series_rs hm' 64 (t := Nrel.paramsL4) (by simp [Nrel.paramsL4]),
      Nrel.series_rs hm' 64 (t := Nrel.paramsL5) (by simp [Nrel.paramsL5]), hm']
  have hB : (Nrel.beta m).rs = [K] := by
    unfold Nrel.beta Nrel.B
    simp [Nrel.series_rs hm' 5 (t := Nrel.paramsB0) (by simp [Nrel.paramsB0]),
      Nrel.series_rs hm' 5 (t := Nrel.paramsB1) (by simp [Nrel.paramsB1]), hm']
  have hN : ∀ r, (Nrel.nutArg c r).rs = [K] := fun r => by
    simp [Nrel.nutArg, Nrel.x0, Nrel.x1, Nrel.x2, Nrel.x3, Nrel.x4, hc']
  have hP : (Nrel.deltaPsi m c).rs = [K] := by
    unfold Nrel.deltaPsi
    exact Nrel.sumRows_rs (fun r => by simp [Nrel.psiTerm, hN, hm']) (by simp [Nrel.paramsNut])
  have hE : (Nrel.deltaEps m c).rs = [K] := by
    unfold Nrel.deltaEps
    exact Nrel.sumRows_rs (fun r => by simp [Nrel.epsTerm, hN, hm']) (by simp [Nrel.paramsNut])
  have hep : (Nrel.epsilon (Nrel.epsilon0 m) (Nrel.deltaEps m c)).rs = [K] := by
    simp [Nrel.epsilon, Nrel.epsilon0, hm', hE]
  have hth : (Nrel.theta m).rs = [K] := by simp [Nrel.theta, Nrel.L, hL]
  have hla : (Nrel.lamd (Nrel.theta m) (Nrel.deltaPsi m c) (Nrel.deltaTau (Nrel.R m))).rs = [K] := by
    simp [Nrel.lamd, Nrel.deltaTau, hth, hP, hR]
  refine ⟨?_, ?_, ?_, ?_, hR⟩ <;>
  simp [Nrel.alpha, Nrel.delta, Nrel.eot0, Nrel.eot1, Nrel.eot2, Nrel.v, Nrel.v0, Nrel.meanLon,
    hd, hC, hm', hB, hP, hep, hla]

theorem Nrel.ne1_shape (ht : ts.rs = [K]) (hx : lon.rs = [K]) (hy : lat.rs = [K]) (r : Bool) :
    OutShape (Nrel.ne1 ts lon lat r) [K] K := by
  obtain ⟨h1, h2, h3, h4, h5⟩ :=
    Nrel.time_rs (F := F) (u := ts.map Scalar.ofInt) (K := K) ht
  constructor <;> cases r <;>
  simp [Nrel.ne1, Nrel.zen, Nrel.azi, Nrel.zenith, Nrel.withRefr, Nrel.refract, Nrel.refrCorr, Nrel.elev, Nrel.azimuth, Nrel.deltap, Nrel.deltaa, Nrel.Hp, Nrel.px, Nrel.py, Nrel.uu, Nrel.xi, Nrel.hourAngle, Nrel.ecf,
    h1, h2, h3, h4, h5, hx, hy]

theorem Nrel.ne2_shape (ht : ts.rs = [K]) (hx : lon.rs = [J]) (hy : lat.rs = [J]) (r : Bool) :
    OutShape (Nrel.ne2 ts lon lat r) [J, K] K := by
  obtain ⟨h1, h2, h3, h4, h5⟩ :=
    Nrel.time_rs (F := F) (u := ts.map Scalar.ofInt) (K := K) ht
  constructor <;> cases r <;>
  simp [Nrel.ne2, Nrel.zen, Nrel.azi, Nrel.zenith, Nrel.withRefr, Nrel.refract, Nrel.refrCorr, Nrel.elev, Nrel.azimuth, Nrel.deltap, Nrel.deltaa, Nrel.Hp, Nrel.px, Nrel.py, Nrel.uu, Nrel.xi, Nrel.hourAngle, Nrel.ecf,
    h1, h2, h3, h4, h5, hx, hy]

theorem Nrel.ne3_shape (ht : ts.rs = [K]) (hx : lon.rs = [I]) (hy : lat.rs = [J]) (r : Bool) :
    OutShape (Nrel.ne3 ts lon lat r) [I, J, K] K := by
  obtain ⟨h1, h2, h3, h4, h5⟩ :=
    Nrel.time_rs (F := F) (u := ts.map Scalar.ofInt) (K := K) ht
  constructor <;> cases r <;>
  simp [Nrel.ne3, Nrel.zen, Nrel.azi, Nrel.zenith, Nrel.withRefr, Nrel.refract, Nrel.refrCorr, Nrel.elev, Nrel.azimuth, Nrel.deltap, Nrel.deltaa, Nrel.Hp, Nrel.px, Nrel.py, Nrel.uu, Nrel.xi, Nrel.hourAngle, Nrel.ecf,
    h1, h2, h3, h4, h5, hx, hy]

end modules

end SW
