/-
The SolTrack algorithm: `libspa/py_soltrack.py` and `libspa/ne_soltrack.py`.
-/
import Verif.Arr

namespace SW.Soltrack

universe u
variable {A : Type u} [Num A]

/-! ### `time_dependent_calculations` (py_soltrack.py:65-117, ne_soltrack.py:69-126) -/

/-- py_soltrack.py:67, ne_soltrack.py:73 -/
def tJD (unixtime : A) : A := unixtime / 86400 - 10957.5
/-- py_soltrack.py:68, ne_soltrack.py:74 -/
def tJC (tJD : A) : A := tJD / 36525.0
/-- py_soltrack.py:69, ne_soltrack.py:75 -/
def tJC2 (tJC : A) : A := Num.npow tJC 2
/-- mean longitude, py_soltrack.py:73, ne_soltrack.py:79 -/
def l0 (c : A) : A := 4.895063168 + 628.331966786 * c + 5.291838e-6 * tJC2 c
/-- mean anomaly, py_soltrack.py:74, ne_soltrack.py:80 -/
def ma (c : A) : A := 6.240060141 + 628.301955152 * c - 2.682571e-6 * tJC2 c
/-- equation of the centre, py_soltrack.py:76-77, ne_soltrack.py:82-84 -/
def sec (c : A) : A :=
  (3.34161088e-2 - 8.40725e-5 * c - 2.443e-7 * tJC2 c) * Num.sin (ma c)
    + (3.489437e-4 - 1.76278e-6 * c) * Num.sin (2 * ma c)
/-- py_soltrack.py:80, ne_soltrack.py:86 -/
def omg (c : A) : A := 2.1824390725 - 33.7570464271 * c + 3.622256e-5 * tJC2 c
/-- nutation in longitude, py_soltrack.py:81, ne_soltrack.py:87 -/
def dpsi (c : A) : A := -8.338601e-5 * Num.sin (omg c)
/-- eccentricity, py_soltrack.py:82, ne_soltrack.py:88 -/
def ecc (c : A) : A := 0.016708634 - 0.000042037 * c - 0.0000001267 * tJC2 c
/-- distance, py_soltrack.py:83-84, ne_soltrack.py:89 -/
def R (c : A) : A :=
  1.0000010178 * (1.0 - Num.npow (ecc c) 2) / (1.0 + ecc c * Num.cos (ma c + sec c))
/-- `odot + aber + dpsi` before the reduction, py_soltrack.py:78-87, ne_soltrack.py:91-95 -/
def Lraw (c : A) : A := (l0 c + sec c) + (-9.93087e-5 / R c) + dpsi c
/-- apparent longitude, py_soltrack.py:87 -/
def LPy (c : A) : A := Num.pmod (Lraw c) TWOPI
/-- apparent longitude, ne_soltrack.py:91-95 -/
def LNe (c : A) : A := Num.cmod (Lraw c) TWOPI
/-- true obliquity, py_soltrack.py:89-91, ne_soltrack.py:97-100 -/
def obliquity (c : A) : A :=
  (0.409092804222 - 2.26965525e-4 * c - 2.86e-9 * tJC2 c) + (4.4615e-5 * Num.cos (omg c))
/-- py_soltrack.py:98 -/
def sinoPy (ob : A) : A := Num.sqrt (1.0 - Num.npow (Num.cos ob) 2)
/-- ne_soltrack.py:107 -/
def sinoNe (ob : A) : A := Num.sin ob
/-- right ascension, py_soltrack.py:95-99 -/
def raPy (ob L : A) : A := Num.pmod (Num.arctan2 (Num.cos ob * Num.sin L) (Num.cos L)) TWOPI
/-- right ascension, ne_soltrack.py:104-108 -/
def raNe (ob L : A) : A := Num.cmod (Num.arctan2 (Num.cos ob * Num.sin L) (Num.cos L)) TWOPI
/-- declination from `sin_o` and `L`, py_soltrack.py:100, ne_soltrack.py:109 -/
def decl (sino L : A) : A := Num.arcsin (sino * Num.sin L)
/-- py_soltrack.py:104 -/
def xdegPy (l0 ra dpsi ob : A) : A := degrees (l0 - ra + dpsi * Num.cos ob)
/-- ne_soltrack.py:113 -/
def xdegNe (l0 ra dpsi ob : A) : A := (l0 - ra + dpsi * Num.cos ob) * RAD2DEG
/-- py_soltrack.py:105 -/
def eot0Py (xdeg : A) : A := Num.pmod (-0.0057183 + xdeg) 360 * 4
/-- ne_soltrack.py:114 -/
def eot0Ne (xdeg : A) : A := Num.cmod (-0.0057183 + xdeg) 360 * 4
/-- py_soltrack.py:106, ne_soltrack.py:115 -/
def eot1 (eot : A) : A := Num.whereLt eot (-20.0) (eot + 1440) eot
/-- py_soltrack.py:107, ne_soltrack.py:116 -/
def eot2 (eot : A) : A := Num.whereLt 20.0 eot (eot - 1440) eot
/-- py_soltrack.py:111, ne_soltrack.py:120 -/
def ecf (c : A) : A := 1 / Num.npow (R c) 2
/-- py_soltrack.py:114, ne_soltrack.py:123 -/
def gmst (tJD : A) : A := 4.89496121 + 6.300388098985 * tJD + 6.77e-6 * tJC2 (tJC tJD)
/-- py_soltrack.py:115, ne_soltrack.py:124 -/
def agst (tJD : A) : A := gmst tJD + dpsi (tJC tJD) * Num.cos (obliquity (tJC tJD))

/-- the five values returned by `time_dependent_calculations` -/
structure TimeOut (A : Type u) where
  agst : A
  ra : A
  decl : A
  ecf : A
  eot : A

/-- py_soltrack.py:65-117 -/
def timePy (unixtime : A) : TimeOut A :=
  let d := tJD unixtime
  let c := tJC d
  { agst := agst d
    ra := raPy (obliquity c) (LPy c)
    decl := decl (sinoPy (obliquity c)) (LPy c)
    ecf := ecf c
    eot := eot2 (eot1 (eot0Py (xdegPy (l0 c) (raPy (obliquity c) (LPy c)) (dpsi c) (obliquity c)))) }

/-- ne_soltrack.py:69-126 -/
def timeNe (unixtime : A) : TimeOut A :=
  let d := tJD unixtime
  let c := tJC d
  { agst := agst d
    ra := raNe (obliquity c) (LNe c)
    decl := decl (sinoNe (obliquity c)) (LNe c)
    ecf := ecf c
    eot := eot2 (eot1 (eot0Ne (xdegNe (l0 c) (raNe (obliquity c) (LNe c)) (dpsi c) (obliquity c)))) }

/-! ### Spatial part -/

/-- `np.radians` of a binary32 array, py_soltrack.py:124-125, 172-173, 220-221 -/
def rad32 (x : A) : A := Num.f32 (radians x)
/-- py_soltrack.py:135, 183, 231 -/
def sinlatPy (latrad : A) : A := Num.f32 (Num.sin latrad)
/-- binary32 `np.sqrt(1. - sin_lat**2)`, py_soltrack.py:136, 184, 232 -/
def coslatPy (latrad : A) : A :=
  Num.f32 (Num.sqrt (Num.f32 (1.0 - Num.f32 (Num.npow (sinlatPy latrad) 2))))
/-- `np.sqrt(1. - sin_dec**2)`, py_soltrack.py:132, 180, 228 -/
def cosdecPy (sindec : A) : A := Num.sqrt (1.0 - Num.npow sindec 2)
/-- py_soltrack.py:138, 186, 234; ne_soltrack.py:146, 181, 217 -/
def sinAlt (sinlat coslat sindec cosdec ha : A) : A :=
  sinlat * sindec + coslat * cosdec * Num.cos ha
/-- py_soltrack.py:139-140, 187-188, 235-236; ne_soltrack.py:147, 182, 218 -/
def azimuth (sinlat coslat tandec ha : A) : A :=
  Num.arctan2 (Num.sin ha) (Num.cos ha * sinlat - tandec * coslat)
/-- parallax, py_soltrack.py:143-145, 191-193, 239-241; ne_soltrack.py:150-151, 185-186, 221-222 -/
def parallax (alt : A) : A := alt - 4.2635e-5 * Num.cos alt
/-- py_soltrack.py:149-150, 197-198, 245-246; ne_soltrack.py:155, 190, 226 -/
def refract (alt : A) : A := alt + (2.967e-4 / Num.tan (alt + 3.1376e-3 / (alt + 8.92e-2)))
/-- `if with_refraction is True`, py_soltrack.py:148, 196, 244; ne_soltrack.py:154, 189, 225 -/
def withRefr (r : Bool) (alt : A) : A := if r then refract alt else alt
/-- zenith from `sin_alt`, py_soltrack.py:143-161, 191-209, 239-257;
ne_soltrack.py:150-157, 185-192, 221-228 -/
def zenith (r : Bool) (sinAlt : A) : A := HALFPI - withRefr r (parallax (Num.arcsin sinAlt))

end SW.Soltrack

namespace SW.Soltrack
universe u
variable {F : Type u} [Scalar F]

/-- `_sunpos_one_dimensional`, py_soltrack.py:120-165; `lon`, `lat` cast at py_soltrack.py:31-32 -/
def py1 (ts : Arr Int) (lon lat : Arr F) (r : Bool) : Out (Arr F) :=
  let T := timePy (ts.map Scalar.ofInt)
  let latRad := rad32 (Num.f32 lat)
  let lonRad := rad32 (Num.f32 lon)
  let ha := T.agst - T.ra + lonRad
  let sinDec := Num.sin T.decl
  let cosDec := cosdecPy sinDec
  let tanDec := sinDec / cosDec
  { zenith := zenith r (sinAlt (sinlatPy latRad) (coslatPy latRad) sinDec cosDec ha)
    azimuth := azimuth (sinlatPy latRad) (coslatPy latRad) tanDec ha
    ecf := T.ecf, declination := T.decl, eot := T.eot }

/-- `_sunpos_two_dimensional`, py_soltrack.py:168-213 -/
def py2 (ts : Arr Int) (lon lat : Arr F) (r : Bool) : Out (Arr F) :=
  let T := timePy (ts.map Scalar.ofInt)
  let latRad := (rad32 (Num.f32 lat)).l2
  let lonRad := (rad32 (Num.f32 lon)).l2
  let ha := (T.agst - T.ra).t2 + lonRad
  let sinDec := (Num.sin T.decl).t2
  let cosDec := cosdecPy sinDec
  let tanDec := sinDec / cosDec
  { zenith := zenith r (sinAlt (sinlatPy latRad) (coslatPy latRad) sinDec cosDec ha)
    azimuth := azimuth (sinlatPy latRad) (coslatPy latRad) tanDec ha
    ecf := T.ecf, declination := T.decl, eot := T.eot }

/-- `_sunpos_three_dimensional`, py_soltrack.py:216-261 -/
def py3 (ts : Arr Int) (lon lat : Arr F) (r : Bool) : Out (Arr F) :=
  let T := timePy (ts.map Scalar.ofInt)
  let latRad := (rad32 (Num.f32 lat)).y3
  let lonRad := (rad32 (Num.f32 lon)).x3
  let ha := (T.agst - T.ra).t3 + lonRad
  let sinDec := (Num.sin T.decl).t3
  let cosDec := cosdecPy sinDec
  let tanDec := sinDec / cosDec
  { zenith := zenith r (sinAlt (sinlatPy latRad) (coslatPy latRad) sinDec cosDec ha)
    azimuth := azimuth (sinlatPy latRad) (coslatPy latRad) tanDec ha
    ecf := T.ecf, declination := T.decl, eot := T.eot }

/-- `_sunpos_one_dimensional`, ne_soltrack.py:129-161 -/
def ne1 (ts : Arr Int) (lon lat : Arr F) (r : Bool) : Out (Arr F) :=
  let T := timeNe (ts.map Scalar.ofInt)
  let ha := T.agst - T.ra + Num.f32 lon * DEG2RAD
  let sinDec := Num.sin T.decl
  let cosDec := Num.cos T.decl
  let tanDec := Num.tan T.decl
  let sinLat := Num.sin (Num.f32 lat * DEG2RAD)
  let cosLat := Num.cos (Num.f32 lat * DEG2RAD)
  { zenith := zenith r (sinAlt sinLat cosLat sinDec cosDec ha)
    azimuth := azimuth sinLat cosLat tanDec ha
    ecf := T.ecf, declination := T.decl, eot := T.eot }

/-- `_sunpos_two_dimensional`, ne_soltrack.py:164-196: here `tan_dec = sin_dec / cos_dec` -/
def ne2 (ts : Arr Int) (lon lat : Arr F) (r : Bool) : Out (Arr F) :=
  let T := timeNe (ts.map Scalar.ofInt)
  let ha := (T.agst - T.ra).t2 + (Num.f32 lon * DEG2RAD).l2
  let sinDec := (Num.sin T.decl).t2
  let cosDec := (Num.cos T.decl).t2
  let tanDec := sinDec / cosDec
  let sinLat := (Num.sin (Num.f32 lat * DEG2RAD)).l2
  let cosLat := (Num.cos (Num.f32 lat * DEG2RAD)).l2
  { zenith := zenith r (sinAlt sinLat cosLat sinDec cosDec ha)
    azimuth := azimuth sinLat cosLat tanDec ha
    ecf := T.ecf, declination := T.decl, eot := T.eot }

/-- `_sunpos_three_dimensional`, ne_soltrack.py:199-232 -/
def ne3 (ts : Arr Int) (lon lat : Arr F) (r : Bool) : Out (Arr F) :=
  let T := timeNe (ts.map Scalar.ofInt)
  let ha := (T.agst - T.ra).t3 + (Num.f32 lon * DEG2RAD).x3
  let sinDec := (Num.sin T.decl).t3
  let cosDec := (Num.cos T.decl).t3
  let tanDec := (Num.tan T.decl).t3
  let sinLat := (Num.sin (Num.f32 lat * DEG2RAD)).y3
  let cosLat := (Num.cos (Num.f32 lat * DEG2RAD)).y3
  { zenith := zenith r (sinAlt sinLat cosLat sinDec cosDec ha)
    azimuth := azimuth sinLat cosLat tanDec ha
    ecf := T.ecf, declination := T.decl, eot := T.eot }

/-! ### The same programs on one cell -/

def cellPy (t : Int) (lon lat : F) (r : Bool) : Out F :=
  let T := timePy (Scalar.ofInt t : F)
  let latRad := rad32 (Num.f32 lat)
  let ha := T.agst - T.ra + rad32 (Num.f32 lon)
  let sinDec := Num.sin T.decl
  let cosDec := cosdecPy sinDec
  { zenith := zenith r (sinAlt (sinlatPy latRad) (coslatPy latRad) sinDec cosDec ha)
    azimuth := azimuth (sinlatPy latRad) (coslatPy latRad) (sinDec / cosDec) ha
    ecf := T.ecf, declination := T.decl, eot := T.eot }

/-- numexpr cell; `q` tells whether `tan_dec` is the quotient (2-dim path) or `tan` -/
def cellNe (q : Bool) (t : Int) (lon lat : F) (r : Bool) : Out F :=
  let T := timeNe (Scalar.ofInt t : F)
  let ha := T.agst - T.ra + Num.f32 lon * DEG2RAD
  let sinDec := Num.sin T.decl
  let cosDec := Num.cos T.decl
  let sinLat := Num.sin (Num.f32 lat * DEG2RAD)
  let cosLat := Num.cos (Num.f32 lat * DEG2RAD)
  { zenith := zenith r (sinAlt sinLat cosLat sinDec cosDec ha)
    azimuth := azimuth sinLat cosLat (if q then sinDec / cosDec else Num.tan T.decl) ha
    ecf := T.ecf, declination := T.decl, eot := T.eot }

end SW.Soltrack

namespace SW
lift_lemma1 Soltrack.tJD
lift_lemma1 Soltrack.tJC
lift_lemma1 Soltrack.tJC2
lift_lemma1 Soltrack.l0
lift_lemma1 Soltrack.ma
lift_lemma1 Soltrack.sec
lift_lemma1 Soltrack.omg
lift_lemma1 Soltrack.dpsi
lift_lemma1 Soltrack.ecc
lift_lemma1 Soltrack.R
lift_lemma1 Soltrack.Lraw
lift_lemma1 Soltrack.LPy
lift_lemma1 Soltrack.LNe
lift_lemma1 Soltrack.obliquity
lift_lemma1 Soltrack.sinoPy
lift_lemma1 Soltrack.sinoNe
lift_lemma2 Soltrack.raPy
lift_lemma2 Soltrack.raNe
lift_lemma2 Soltrack.decl
lift_lemma4 Soltrack.xdegPy
lift_lemma4 Soltrack.xdegNe
lift_lemma1 Soltrack.eot0Py
lift_lemma1 Soltrack.eot0Ne
lift_lemma1 Soltrack.eot1
lift_lemma1 Soltrack.eot2
lift_lemma1 Soltrack.ecf
lift_lemma1 Soltrack.gmst
lift_lemma1 Soltrack.agst
lift_lemma1 Soltrack.rad32
lift_lemma1 Soltrack.sinlatPy
lift_lemma1 Soltrack.coslatPy
lift_lemma1 Soltrack.cosdecPy
lift_lemma5 Soltrack.sinAlt
lift_lemma4 Soltrack.azimuth
lift_lemma1 Soltrack.parallax
lift_lemma1 Soltrack.refract

theorem Soltrack.zenith.lift {F : Type _} [Num F] {sh i : List Nat} {a : Arr F} {x : F} {r : Bool}
    (h : Lift sh i a x) : Lift sh i (Soltrack.zenith r a) (Soltrack.zenith r x) := by
  unfold Soltrack.zenith Soltrack.withRefr
  cases r <;> simp only [if_true, if_false, Bool.false_eq_true] <;> lift
macro_rules | `(tactic| lift1) => `(tactic| with_reducible apply Soltrack.zenith.lift)

/-- expansion steps for the 2-dim and 3-dim paths -/
macro "liftx" : tactic => `(tactic| repeat' first
  | lift1 | with_reducible apply Lift.t2 | with_reducible apply Lift.l2
  | with_reducible apply Lift.t3 | with_reducible apply Lift.x3 | with_reducible apply Lift.y3)

namespace Soltrack
variable {F : Type _} [Scalar F] {ts : Arr Int} {lon lat : Arr F} {t : Int} {x y : F}
  {I J K i j k : Nat} {r : Bool}

theorem py1_lift (ht : Lift [K] [k] ts t) (hx : Lift [K] [k] lon x) (hy : Lift [K] [k] lat y) :
    LiftOut [K] [k] [K] [k] (py1 ts lon lat r) (cellPy t x y r) := by
  have hu : Lift [K] [k] (ts.map (Scalar.ofInt (F := F))) (Scalar.ofInt t) := ht.map _
  constructor <;> simp only [py1, cellPy, timePy] <;> liftx

theorem py2_lift (ht : Lift [K] [k] ts t) (hx : Lift [J] [j] lon x) (hy : Lift [J] [j] lat y) :
    LiftOut [J, K] [j, k] [K] [k] (py2 ts lon lat r) (cellPy t x y r) := by
  have hu : Lift [K] [k] (ts.map (Scalar.ofInt (F := F))) (Scalar.ofInt t) := ht.map _
  constructor <;> simp only [py2, cellPy, timePy] <;> liftx

theorem py3_lift (ht : Lift [K] [k] ts t) (hx : Lift [I] [i] lon x) (hy : Lift [J] [j] lat y) :
    LiftOut [I, J, K] [i, j, k] [K] [k] (py3 ts lon lat r) (cellPy t x y r) := by
  have hu : Lift [K] [k] (ts.map (Scalar.ofInt (F := F))) (Scalar.ofInt t) := ht.map _
  constructor <;> simp only [py3, cellPy, timePy] <;> liftx

theorem ne1_lift (ht : Lift [K] [k] ts t) (hx : Lift [K] [k] lon x) (hy : Lift [K] [k] lat y) :
    LiftOut [K] [k] [K] [k] (ne1 ts lon lat r) (cellNe false t x y r) := by
  have hu : Lift [K] [k] (ts.map (Scalar.ofInt (F := F))) (Scalar.ofInt t) := ht.map _
  constructor <;> simp only [ne1, cellNe, timeNe, Bool.false_eq_true, if_false] <;> liftx

theorem ne2_lift (ht : Lift [K] [k] ts t) (hx : Lift [J] [j] lon x) (hy : Lift [J] [j] lat y) :
    LiftOut [J, K] [j, k] [K] [k] (ne2 ts lon lat r) (cellNe true t x y r) := by
  have hu : Lift [K] [k] (ts.map (Scalar.ofInt (F := F))) (Scalar.ofInt t) := ht.map _
  constructor <;> simp only [ne2, cellNe, timeNe, if_true] <;> liftx

theorem ne3_lift (ht : Lift [K] [k] ts t) (hx : Lift [I] [i] lon x) (hy : Lift [J] [j] lat y) :
    LiftOut [I, J, K] [i, j, k] [K] [k] (ne3 ts lon lat r) (cellNe false t x y r) := by
  have hu : Lift [K] [k] (ts.map (Scalar.ofInt (F := F))) (Scalar.ofInt t) := ht.map _
  constructor <;> simp only [ne3, cellNe, timeNe, Bool.false_eq_true, if_false] <;> liftx

end Soltrack
end SW
