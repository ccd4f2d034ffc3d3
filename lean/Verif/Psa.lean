/-
The PSA algorithm: `libspa/py_psa.py` and `libspa/ne_psa.py`.
-/
import Verif.Arr

namespace SW.Psa

universe u
variable {A : Type u} [Num A]

/-! ### `time_dependent_calculations` (py_psa.py:62-105, ne_psa.py:66-110) -/

/-- py_psa.py:63, ne_psa.py:70 -/
def jde (unixtime : A) : A := unixtime / 86400 - 10957.5
/-- py_psa.py:64 (numpy `%`) -/
def decimalHourPy (unixtime : A) : A := Num.pmod (unixtime / 86400) 1 * 24
/-- ne_psa.py:71 (numexpr `%`) -/
def decimalHourNe (unixtime : A) : A := Num.cmod (unixtime / 86400) 1 * 24
/-- py_psa.py:67, ne_psa.py:75 -/
def omega (jde : A) : A := 2.267127827 - 9.300339267e-4 * jde
/-- mean longitude, py_psa.py:68, ne_psa.py:76 -/
def L (jde : A) : A := 4.895036035 + 1.720279602e-2 * jde
/-- mean anomaly, py_psa.py:69, ne_psa.py:77 -/
def g (jde : A) : A := 6.239468336 + 1.720200135e-2 * jde
/-- ecliptic longitude, py_psa.py:70-72, ne_psa.py:78-80 -/
def eclon (jde : A) : A :=
  L jde - 1.544353226e-4 + 3.338320972e-2 * Num.sin (g jde)
    + 3.497596876e-4 * Num.sin (2 * g jde) - 8.689729360e-6 * Num.sin (omega jde)
/-- obliquity of the ecliptic, py_psa.py:74, ne_psa.py:82 -/
def ep (jde : A) : A :=
  4.090904909e-1 - 6.213605399e-9 * jde + 4.418094944e-5 * Num.cos (omega jde)
/-- right ascension before wrapping, py_psa.py:76-79, ne_psa.py:85 -/
def ra0 (ep eclon : A) : A := Num.arctan2 (Num.cos ep * Num.sin eclon) (Num.cos eclon)
/-- right ascension, py_psa.py:80, ne_psa.py:86 -/
def ra (ep eclon : A) : A := Num.whereLt (ra0 ep eclon) 0.0 (ra0 ep eclon + TWOPI) (ra0 ep eclon)
/-- declination, py_psa.py:81, ne_psa.py:87 -/
def delta (ep eclon : A) : A := Num.arcsin (Num.sin ep * Num.sin eclon)
/-- py_psa.py:83, ne_psa.py:72 -/
def gmst (jde decimalHour : A) : A := 6.697096103 + 6.570984737e-2 * jde + decimalHour
/-- py_psa.py:90, ne_psa.py:100 -/
def jdc (jde : A) : A := jde / 36525.0
/-- py_psa.py:91, ne_psa.py:101 -/
def ecc (jdc : A) : A := 0.016708634 - 0.000042037 * jdc - 0.0000001267 * jdc * jdc
/-- py_psa.py:92, ne_psa.py:102 -/
def ma (jdc : A) : A := 6.240060141 + 628.301955152 * jdc - 2.682571e-6 * jdc * jdc
/-- py_psa.py:93-94, ne_psa.py:103-104 -/
def sec (jdc : A) : A :=
  (3.34161088e-2 - 8.40725e-5 * jdc - 2.443e-7 * jdc * jdc) * Num.sin (ma jdc)
    + (3.489437e-4 - 1.76278e-6 * jdc) * Num.sin (2 * ma jdc)
/-- sun-earth distance, py_psa.py:95, ne_psa.py:105 -/
def R (jdc : A) : A :=
  1.0000010178 * (1.0 - Num.npow (ecc jdc) 2) / (1.0 + ecc jdc * Num.cos (ma jdc + sec jdc))
/-- py_psa.py:97, ne_psa.py:108 -/
def ecf (jdc : A) : A := 1.0 / Num.npow (R jdc) 2
/-- `dXsun = np.int32(np.abs(L)/TWOPI)`, py_psa.py:100, ne_psa.py:90 -/
def dX (l : A) : A := Num.trunc (Num.absv l / TWOPI)
/-- mean longitude reduced to one turn, py_psa.py:101, ne_psa.py:91 -/
def Lred (l : A) : A := l + TWOPI * Num.whereLt l 0.0 (1.0 + dX l) (-(dX l))
/-- py_psa.py:101 -/
def eot0Py (l ra : A) : A := 4.0 * degrees (Lred l - ra)
/-- ne_psa.py:91 -/
def eot0Ne (l ra : A) : A := 4 * (Lred l - ra) * RAD2DEG
/-- py_psa.py:102, ne_psa.py:92 -/
def eot1 (eot : A) : A := Num.whereLt 20.0 eot (eot - 1440.0) eot
/-- py_psa.py:103, ne_psa.py:93 -/
def eot2 (eot : A) : A := Num.whereLt eot (-20.0) (eot + 1440.0) eot

/-- the five values returned by `time_dependent_calculations` -/
structure TimeOut (A : Type u) where
  gmst : A
  ra : A
  delta : A
  ecf : A
  eot : A

/-- py_psa.py:62-105 -/
def timePy (unixtime : A) : TimeOut A :=
  let j := jde unixtime
  { gmst := gmst j (decimalHourPy unixtime)
    ra := ra (ep j) (eclon j)
    delta := delta (ep j) (eclon j)
    ecf := ecf (jdc j)
    eot := eot2 (eot1 (eot0Py (L j) (ra (ep j) (eclon j)))) }
/-- ne_psa.py:66-110 -/
def timeNe (unixtime : A) : TimeOut A :=
  let j := jde unixtime
  { gmst := gmst j (decimalHourNe unixtime)
    ra := ra (ep j) (eclon j)
    delta := delta (ep j) (eclon j)
    ecf := ecf (jdc j)
    eot := eot2 (eot1 (eot0Ne (L j) (ra (ep j) (eclon j)))) }

/-! ### Spatial part. The 1-, 2- and 3-dim functions repeat the same formulas with different index
expansions of the operands; the formulas are defined once and cited three times. -/

/-- py_psa.py:117-118, 161-162, 206-207 -/
def hourAnglePy (gmst lon ra : A) : A := radians (gmst * 15 + lon) - ra
/-- ne_psa.py:119, 160, 202 -/
def hourAngleNe (gmst lon ra : A) : A := (gmst * 15 + lon) * DEG2RAD - ra
/-- `np.cos(np.radians(latitude))` in binary32, py_psa.py:120-121, 164-166, 209-211 -/
def coslatPy (lat : A) : A := Num.f32 (Num.cos (Num.f32 (radians lat)))
/-- py_psa.py:120-122, 164-165, 209-210 -/
def sinlatPy (lat : A) : A := Num.f32 (Num.sin (Num.f32 (radians lat)))
/-- ne_psa.py:124, 154+165, 205 -/
def coslatNe (lat : A) : A := Num.cos (lat * DEG2RAD)
/-- ne_psa.py:123, 154+164, 204 -/
def sinlatNe (lat : A) : A := Num.sin (lat * DEG2RAD)
/-- cosine of the geometric zenith, py_psa.py:131, 175, 220; ne_psa.py:130, 172, 214 -/
def cosz (coslat sinlat hour dec : A) : A :=
  coslat * Num.cos hour * Num.cos dec + Num.sin dec * sinlat
/-- `zenith + EMRAU*sin(zenith)`, py_psa.py:133, 177, 222; ne_psa.py:131, 173, 215 -/
def parallax (zenith : A) : A := zenith + 0.000042587565907513806 * Num.sin zenith
/-- py_psa.py:139, 183, 228; ne_psa.py:137, 179, 221 (with `A = 1`) -/
def refrCorr (sunElev : A) : A :=
  1 * 1.7802e-2 / (60 * Num.tan (sunElev + 3.1376e-3 / (sunElev + 8.9186e-2)))
/-- py_psa.py:137-140, 181-184, 226-229; ne_psa.py:135-138, 177-180, 219-222 -/
def refract (zenith : A) : A :=
  HALFPI - Num.whereLe (-1.4545e-2) (HALFPI - zenith)
    ((HALFPI - zenith) + refrCorr (HALFPI - zenith)) (HALFPI - zenith)
/-- py_psa.py:131-133, 175-177, 220-222 -/
def zen0Py (coslat sinlat hour dec : A) : A :=
  parallax (Num.arccos (Num.round6 (cosz coslat sinlat hour dec)))
/-- ne_psa.py:130-131, 172-173, 214-215 -/
def zen0Ne (coslat sinlat hour dec : A) : A :=
  parallax (Num.arccos (cosz coslat sinlat hour dec))
/-- py_psa.py:142, 186, 231; ne_psa.py:140, 182, 224 -/
def az0 (coslat sinlat hour dec : A) : A :=
  Num.arctan2 (-(Num.sin hour)) (Num.tan dec * coslat - sinlat * Num.cos hour)
/-- py_psa.py:143, 187, 232; ne_psa.py:141, 183, 225 -/
def azWrap (az : A) : A := Num.whereLt az 0.0 (az + Num.pi) (az - Num.pi)

/-- `if with_refraction is True: ...` -/
def withRefr (r : Bool) (zenith : A) : A := if r then refract zenith else zenith

/-- zenith and azimuth of the numpy engine from operands of broadcastable shapes -/
def zenithPy (r : Bool) (gmst ra dec lon lat : A) : A :=
  withRefr r (zen0Py (coslatPy lat) (sinlatPy lat) (hourAnglePy gmst lon ra) dec)
def azimuthPy (gmst ra dec lon lat : A) : A :=
  azWrap (az0 (coslatPy lat) (sinlatPy lat) (hourAnglePy gmst lon ra) dec)
def zenithNe (r : Bool) (gmst ra dec lon lat : A) : A :=
  withRefr r (zen0Ne (coslatNe lat) (sinlatNe lat) (hourAngleNe gmst lon ra) dec)
def azimuthNe (gmst ra dec lon lat : A) : A :=
  azWrap (az0 (coslatNe lat) (sinlatNe lat) (hourAngleNe gmst lon ra) dec)

end SW.Psa

namespace SW.Psa
universe u
variable {F : Type u} [Scalar F]

/-- `_sunpos_one_dimensional`, py_psa.py:108-147. `lon`, `lat` are cast to binary32 by `sunpos`
(py_psa.py:28-29). -/
def py1 (ts : Arr Int) (lon lat : Arr F) (r : Bool) : Out (Arr F) :=
  let T := timePy (ts.map Scalar.ofInt)
  let lon := Num.f32 lon
  let lat := Num.f32 lat
  { zenith := zenithPy r T.gmst T.ra T.delta lon lat
    azimuth := azimuthPy T.gmst T.ra T.delta lon lat
    ecf := T.ecf, declination := T.delta, eot := T.eot }

/-- `_sunpos_two_dimensional`, py_psa.py:150-191 -/
def py2 (ts : Arr Int) (lon lat : Arr F) (r : Bool) : Out (Arr F) :=
  let T := timePy (ts.map Scalar.ofInt)
  let lon := Num.f32 lon
  let lat := Num.f32 lat
  { zenith := zenithPy r T.gmst.t2 T.ra.t2 T.delta.t2 lon.l2 lat.l2
    azimuth := azimuthPy T.gmst.t2 T.ra.t2 T.delta.t2 lon.l2 lat.l2
    ecf := T.ecf, declination := T.delta, eot := T.eot }

/-- `_sunpos_three_dimensional`, py_psa.py:194-236 -/
def py3 (ts : Arr Int) (lon lat : Arr F) (r : Bool) : Out (Arr F) :=
  let T := timePy (ts.map Scalar.ofInt)
  let lon := Num.f32 lon
  let lat := Num.f32 lat
  { zenith := zenithPy r T.gmst.t3 T.ra.t3 T.delta.t3 lon.x3 lat.y3
    azimuth := azimuthPy T.gmst.t3 T.ra.t3 T.delta.t3 lon.x3 lat.y3
    ecf := T.ecf, declination := T.delta, eot := T.eot }

/-- `_sunpos_one_dimensional`, ne_psa.py:113-145 -/
def ne1 (ts : Arr Int) (lon lat : Arr F) (r : Bool) : Out (Arr F) :=
  let T := timeNe (ts.map Scalar.ofInt)
  let lon := Num.f32 lon
  let lat := Num.f32 lat
  { zenith := zenithNe r T.gmst T.ra T.delta lon lat
    azimuth := azimuthNe T.gmst T.ra T.delta lon lat
    ecf := T.ecf, declination := T.delta, eot := T.eot }

/-- `_sunpos_two_dimensional`, ne_psa.py:148-187 -/
def ne2 (ts : Arr Int) (lon lat : Arr F) (r : Bool) : Out (Arr F) :=
  let T := timeNe (ts.map Scalar.ofInt)
  let lon := Num.f32 lon
  let lat := Num.f32 lat
  { zenith := zenithNe r T.gmst.t2 T.ra.t2 T.delta.t2 lon.l2 lat.l2
    azimuth := azimuthNe T.gmst.t2 T.ra.t2 T.delta.t2 lon.l2 lat.l2
    ecf := T.ecf, declination := T.delta, eot := T.eot }

/-- `_sunpos_three_dimensional`, ne_psa.py:190-229 -/
def ne3 (ts : Arr Int) (lon lat : Arr F) (r : Bool) : Out (Arr F) :=
  let T := timeNe (ts.map Scalar.ofInt)
  let lon := Num.f32 lon
  let lat := Num.f32 lat
  { zenith := zenithNe r T.gmst.t3 T.ra.t3 T.delta.t3 lon.x3 lat.y3
    azimuth := azimuthNe T.gmst.t3 T.ra.t3 T.delta.t3 lon.x3 lat.y3
    ecf := T.ecf, declination := T.delta, eot := T.eot }

/-! ### The same programs on one cell (used to state what an array cell contains) -/

def cellPy (t : Int) (lon lat : F) (r : Bool) : Out F :=
  let T := timePy (Scalar.ofInt t : F)
  { zenith := zenithPy r T.gmst T.ra T.delta (Num.f32 lon) (Num.f32 lat)
    azimuth := azimuthPy T.gmst T.ra T.delta (Num.f32 lon) (Num.f32 lat)
    ecf := T.ecf, declination := T.delta, eot := T.eot }

def cellNe (t : Int) (lon lat : F) (r : Bool) : Out F :=
  let T := timeNe (Scalar.ofInt t : F)
  { zenith := zenithNe r T.gmst T.ra T.delta (Num.f32 lon) (Num.f32 lat)
    azimuth := azimuthNe T.gmst T.ra T.delta (Num.f32 lon) (Num.f32 lat)
    ecf := T.ecf, declination := T.delta, eot := T.eot }

end SW.Psa

namespace SW
lift_lemma1 Psa.jde
lift_lemma1 Psa.decimalHourPy
lift_lemma1 Psa.decimalHourNe
lift_lemma1 Psa.omega
lift_lemma1 Psa.L
lift_lemma1 Psa.g
lift_lemma1 Psa.eclon
lift_lemma1 Psa.ep
lift_lemma2 Psa.ra0
lift_lemma2 Psa.ra
lift_lemma2 Psa.delta
lift_lemma2 Psa.gmst
lift_lemma1 Psa.jdc
lift_lemma1 Psa.ecc
lift_lemma1 Psa.ma
lift_lemma1 Psa.sec
lift_lemma1 Psa.R
lift_lemma1 Psa.ecf
lift_lemma1 Psa.dX
lift_lemma1 Psa.Lred
lift_lemma2 Psa.eot0Py
lift_lemma2 Psa.eot0Ne
lift_lemma1 Psa.eot1
lift_lemma1 Psa.eot2
lift_lemma3 Psa.hourAnglePy
lift_lemma3 Psa.hourAngleNe
lift_lemma1 Psa.coslatPy
lift_lemma1 Psa.sinlatPy
lift_lemma1 Psa.coslatNe
lift_lemma1 Psa.sinlatNe
lift_lemma4 Psa.cosz
lift_lemma1 Psa.parallax
lift_lemma1 Psa.refrCorr
lift_lemma1 Psa.refract
lift_lemma4 Psa.zen0Py
lift_lemma4 Psa.zen0Ne
lift_lemma4 Psa.az0
lift_lemma1 Psa.azWrap

theorem Psa.withRefr.lift {F : Type _} [Num F] {sh i : List Nat} {a : Arr F} {x : F} {r : Bool}
    (h : Lift sh i a x) : Lift sh i (Psa.withRefr r a) (Psa.withRefr r x) := by
  cases r
  · exact h
  · exact Psa.refract.lift h
macro_rules | `(tactic| lift1) => `(tactic| with_reducible apply Psa.withRefr.lift)

theorem Psa.zenithPy.lift {F : Type _} [Num F] {sh i : List Nat} {a b c d e : Arr F}
    {x y z t u : F} {r : Bool} (h1 : Lift sh i a x) (h2 : Lift sh i b y) (h3 : Lift sh i c z)
    (h4 : Lift sh i d t) (h5 : Lift sh i e u) :
    Lift sh i (Psa.zenithPy r a b c d e) (Psa.zenithPy r x y z t u) := by
  unfold Psa.zenithPy; lift
macro_rules | `(tactic| lift1) => `(tactic| with_reducible apply Psa.zenithPy.lift)
theorem Psa.zenithNe.lift {F : Type _} [Num F] {sh i : List Nat} {a b c d e : Arr F}
    {x y z t u : F} {r : Bool} (h1 : Lift sh i a x) (h2 : Lift sh i b y) (h3 : Lift sh i c z)
    (h4 : Lift sh i d t) (h5 : Lift sh i e u) :
    Lift sh i (Psa.zenithNe r a b c d e) (Psa.zenithNe r x y z t u) := by
  unfold Psa.zenithNe; lift
macro_rules | `(tactic| lift1) => `(tactic| with_reducible apply Psa.zenithNe.lift)
lift_lemma5 Psa.azimuthPy
lift_lemma5 Psa.azimuthNe

namespace Psa
variable {F : Type _} [Scalar F] {ts : Arr Int} {lon lat : Arr F} {t : Int} {x y : F}
  {I J K i j k : Nat} {r : Bool}

theorem py1_lift (ht : Lift [K] [k] ts t) (hx : Lift [K] [k] lon x) (hy : Lift [K] [k] lat y) :
    LiftOut [K] [k] [K] [k] (py1 ts lon lat r) (cellPy t x y r) := by
  have hu : Lift [K] [k] (ts.map (Scalar.ofInt (F := F))) (Scalar.ofInt t) := ht.map _
  constructor <;> simp only [py1, cellPy, timePy] <;> lift

theorem ne1_lift (ht : Lift [K] [k] ts t) (hx : Lift [K] [k] lon x) (hy : Lift [K] [k] lat y) :
    LiftOut [K] [k] [K] [k] (ne1 ts lon lat r) (cellNe t x y r) := by
  have hu : Lift [K] [k] (ts.map (Scalar.ofInt (F := F))) (Scalar.ofInt t) := ht.map _
  constructor <;> simp only [ne1, cellNe, timeNe] <;> lift

theorem py2_lift (ht : Lift [K] [k] ts t) (hx : Lift [J] [j] lon x) (hy : Lift [J] [j] lat y) :
    LiftOut [J, K] [j, k] [K] [k] (py2 ts lon lat r) (cellPy t x y r) := by
  have hu : Lift [K] [k] (ts.map (Scalar.ofInt (F := F))) (Scalar.ofInt t) := ht.map _
  have h1 : Lift [J, K] [j, k] (Num.f32 lon).l2 (Num.f32 x) := hx.f32.l2
  have h2 : Lift [J, K] [j, k] (Num.f32 lat).l2 (Num.f32 y) := hy.f32.l2
  constructor <;> simp only [py2, cellPy, timePy] <;> first | lift; done | skip
  all_goals
    repeat' first | with_reducible assumption | with_reducible apply Lift.t2 | lift1

theorem ne2_lift (ht : Lift [K] [k] ts t) (hx : Lift [J] [j] lon x) (hy : Lift [J] [j] lat y) :
    LiftOut [J, K] [j, k] [K] [k] (ne2 ts lon lat r) (cellNe t x y r) := by
  have hu : Lift [K] [k] (ts.map (Scalar.ofInt (F := F))) (Scalar.ofInt t) := ht.map _
  have h1 : Lift [J, K] [j, k] (Num.f32 lon).l2 (Num.f32 x) := hx.f32.l2
  have h2 : Lift [J, K] [j, k] (Num.f32 lat).l2 (Num.f32 y) := hy.f32.l2
  constructor <;> simp only [ne2, cellNe, timeNe] <;> first | lift; done | skip
  all_goals
    repeat' first | with_reducible assumption | with_reducible apply Lift.t2 | lift1

theorem py3_lift (ht : Lift [K] [k] ts t) (hx : Lift [I] [i] lon x) (hy : Lift [J] [j] lat y) :
    LiftOut [I, J, K] [i, j, k] [K] [k] (py3 ts lon lat r) (cellPy t x y r) := by
  have hu : Lift [K] [k] (ts.map (Scalar.ofInt (F := F))) (Scalar.ofInt t) := ht.map _
  have h1 : Lift [I, J, K] [i, j, k] (Num.f32 lon).x3 (Num.f32 x) := hx.f32.x3
  have h2 : Lift [I, J, K] [i, j, k] (Num.f32 lat).y3 (Num.f32 y) := hy.f32.y3
  constructor <;> simp only [py3, cellPy, timePy] <;> first | lift; done | skip
  all_goals
    repeat' first | with_reducible assumption | with_reducible apply Lift.t3 | lift1

theorem ne3_lift (ht : Lift [K] [k] ts t) (hx : Lift [I] [i] lon x) (hy : Lift [J] [j] lat y) :
    LiftOut [I, J, K] [i, j, k] [K] [k] (ne3 ts lon lat r) (cellNe t x y r) := by
  have hu : Lift [K] [k] (ts.map (Scalar.ofInt (F := F))) (Scalar.ofInt t) := ht.map _
  have h1 : Lift [I, J, K] [i, j, k] (Num.f32 lon).x3 (Num.f32 x) := hx.f32.x3
  have h2 : Lift [I, J, K] [i, j, k] (Num.f32 lat).y3 (Num.f32 y) := hy.f32.y3
  constructor <;> simp only [ne3, cellNe, timeNe] <;> first | lift; done | skip
  all_goals
    repeat' first | with_reducible assumption | with_reducible apply Lift.t3 | lift1

end Psa
end SW
