/-
The Iqbal algorithm: `libspa/py_iqbal.py` and `libspa/ne_iqbal.py`.
-/
import Verif.Soltrack
import Verif.Calendar

namespace SW.Iqbal

universe u

section
variable {F : Type u} [Scalar F]
/-- `std_time = hour + (minute + second / 60.) / 60.`, py_iqbal.py:117, 175, 234;
ne_iqbal.py:121, 179, 240 -/
def stdTime (t : Int) : F :=
  Scalar.ofInt (hour t) + (Scalar.ofInt (minute t) + Scalar.ofInt (second t) / 60.0) / 60.0
/-- `day_angle`, py_iqbal.py:61-67, ne_iqbal.py:62-68 -/
def dayAngle (t : Int) : F :=
  TWOPI * (Scalar.ofInt (doy t) + (stdTime t / 24.0)) / 365.0
end

variable {A : Type u} [Num A]

/-- `RAD = PI / 180.`, py_iqbal.py:11, ne_iqbal.py:11 -/
def RAD : A := Num.pi / 180.0

/-- py_iqbal.py:70-80, ne_iqbal.py:71-82 -/
def ecf (da : A) : A :=
  1.00012825e+00
    + 3.33572253e-02 * Num.cos da + 1.99417932e-03 * Num.sin da
    + 6.97434604e-04 * Num.cos (2 * da) + 1.14828177e-04 * Num.sin (2 * da)
    + 1.74028675e-05 * Num.cos (3 * da) + 1.13778023e-05 * Num.sin (3 * da)

/-- equation of time in hours, py_iqbal.py:83-95, ne_iqbal.py:85-98 -/
def eotHours (da : A) : A :=
  (0.00986571
    + 0.58688718 * Num.cos da - 7.34538133 * Num.sin da
    - 3.31493999 * Num.cos (2 * da) - 9.35366541 * Num.sin (2 * da)
    - 0.08151750 * Num.cos (3 * da) - 0.30892409 * Num.sin (3 * da)
    - 0.13532889 * Num.cos (4 * da) - 0.17336220 * Num.sin (4 * da)) / 60.0

/-- py_iqbal.py:98-103, ne_iqbal.py:101-107 -/
def decl (da : A) : A :=
  0.006918
    - 0.399912 * Num.cos da + 0.070257 * Num.sin da
    - 0.006758 * Num.cos (2 * da) + 0.000907 * Num.sin (2 * da)
    - 0.002697 * Num.cos (3 * da) + 0.001480 * Num.sin (3 * da)

/-- `latitude*RAD` of a binary32 array, py_iqbal.py:132, 191, 251; ne_iqbal.py:135, 195, 257 -/
def latRad (lat : A) : A := Num.f32 (lat * RAD)
/-- py_iqbal.py:133, 192, 252; ne_iqbal.py:136, 196, 258 -/
def cosLat (lat : A) : A := Num.f32 (Num.cos (latRad lat))
/-- py_iqbal.py:134, 193, 253; ne_iqbal.py:137, 197, 259 -/
def sinLat (lat : A) : A := Num.f32 (Num.sin (latRad lat))
/-- `longitude/15.` of a binary32 array under numpy (all py paths, ne 2- and 3-dim) -/
def lonHours (lon : A) : A := Num.f32 (lon / 15.0)
/-- local apparent time before wrapping, py_iqbal.py:136, 195, 255-256;
ne_iqbal.py:139, 199-201, 261-263 -/
def lat0 (std lonh eot : A) : A := std + lonh + eot
/-- py_iqbal.py:137, 196, 257 -/
def lat1Py (l : A) : A := Num.whereLt l 0.0 (l + 24.0) l
/-- py_iqbal.py:138, 197, 258 -/
def lat2Py (l : A) : A := Num.whereLe 24.0 l (l - 24.0) l
/-- ne_iqbal.py:140, 202, 264 -/
def lat1Ne (l : A) : A := Num.whereLt l 0 (l + 24.0) l
/-- ne_iqbal.py:141, 203, 265 -/
def lat2Ne (l : A) : A := Num.whereLe 24 l (l - 24.0) l
/-- py_iqbal.py:139, 198, 259; ne_iqbal.py:142, 204, 266 -/
def hourAngle (l : A) : A := (l - 12.0) * 15.0 * RAD
/-- py_iqbal.py:142, 201, 262; ne_iqbal.py:145, 207, 269 -/
def cosz (coslat sinlat dec ha : A) : A :=
  Num.sin dec * sinlat + Num.cos dec * coslat * Num.cos ha
/-- Rigollier refraction, py_iqbal.py:147-151, 206-210, 267-271;
ne_iqbal.py:150-155, 212-217, 274-279 -/
def refcor (alpha : A) : A :=
  0.061359 * (0.1594 + (1.1230 * alpha) + (0.065656 * (alpha * alpha)))
    / (1.0 + (28.9344 * alpha) + (277.3971 * (alpha * alpha)))
/-- py_iqbal.py:147-152, 206-211, 267-272; ne_iqbal.py:150-156, 212-218, 274-280 -/
def refract (sza : A) : A := HALFPI - ((HALFPI - sza) + refcor (HALFPI - sza))
/-- `if with_refraction is True` -/
def withRefr (r : Bool) (sza : A) : A := if r then refract sza else sza
/-- py_iqbal.py:142-152, 201-211, 262-272; ne_iqbal.py:145-156, 207-218, 269-280 -/
def zenith (r : Bool) (coslat sinlat dec ha : A) : A :=
  withRefr r (Num.arccos (cosz coslat sinlat dec ha))
/-- py_iqbal.py:154-156, 213-215, 274-276; ne_iqbal.py:158-160, 220-222, 282-284 -/
def az0 (coslat sinlat dec ha : A) : A :=
  Num.arctan2 (-(Num.sin ha)) (Num.tan dec * coslat - sinlat * Num.cos ha)
/-- py_iqbal.py:157, 216, 277 -/
def azWrapPy (az : A) : A := Num.whereLt az 0.0 (az + Num.pi) (az - Num.pi)
/-- ne_iqbal.py:161, 223, 285 -/
def azWrapNe (az : A) : A := Num.whereLt az 0 (az + Num.pi) (az - Num.pi)
/-- `eot * 60`, py_iqbal.py:159, 218, 279; ne_iqbal.py:163, 224, 286 -/
def eotMinutes (da : A) : A := eotHours da * 60

/-- zenith, azimuth, ... of the numpy engine from operands of broadcastable shapes -/
def haPy (std eot lonh : A) : A := hourAngle (lat2Py (lat1Py (lat0 std lonh eot)))
/-- the same for the numexpr engine -/
def haNe (std eot lonh : A) : A := hourAngle (lat2Ne (lat1Ne (lat0 std lonh eot)))

end SW.Iqbal

namespace SW.Iqbal
universe u
variable {F : Type u} [Scalar F]

/-- `_sunpos_one_dimensional`, py_iqbal.py:106-161; casts to binary32 at py_iqbal.py:27-28 -/
def py1 (ts : Arr Int) (lon lat : Arr F) (r : Bool) : Out (Arr F) :=
  let std : Arr F := ts.map stdTime
  let da : Arr F := ts.map dayAngle
  let lat := Num.f32 lat
  let ha := haPy std (eotHours da) (lonHours (Num.f32 lon))
  { zenith := zenith r (cosLat lat) (sinLat lat) (decl da) ha
    azimuth := azWrapPy (az0 (cosLat lat) (sinLat lat) (decl da) ha)
    ecf := ecf da, declination := decl da, eot := eotMinutes da }

/-- `_sunpos_two_dimensional`, py_iqbal.py:164-220 -/
def py2 (ts : Arr Int) (lon lat : Arr F) (r : Bool) : Out (Arr F) :=
  let std : Arr F := ts.map stdTime
  let da : Arr F := ts.map dayAngle
  let lat := (Num.f32 lat).l2
  let ha := haPy std.t2 (eotHours da).t2 (lonHours (Num.f32 lon).l2)
  { zenith := zenith r (cosLat lat) (sinLat lat) (decl da).t2 ha
    azimuth := azWrapPy (az0 (cosLat lat) (sinLat lat) (decl da).t2 ha)
    ecf := ecf da, declination := decl da, eot := eotMinutes da }

/-- `_sunpos_three_dimensional`, py_iqbal.py:223-281 -/
def py3 (ts : Arr Int) (lon lat : Arr F) (r : Bool) : Out (Arr F) :=
  let std : Arr F := ts.map stdTime
  let da : Arr F := ts.map dayAngle
  let lat := (Num.f32 lat).y3
  let ha := haPy std.t3 (eotHours da).t3 (lonHours (Num.f32 lon).x3)
  { zenith := zenith r (cosLat lat) (sinLat lat) (decl da).t3 ha
    azimuth := azWrapPy (az0 (cosLat lat) (sinLat lat) (decl da).t3 ha)
    ecf := ecf da, declination := decl da, eot := eotMinutes da }

/-- `_sunpos_one_dimensional`, ne_iqbal.py:110-165: here `longitude/15.` is evaluated by numexpr in
binary64 -/
def ne1 (ts : Arr Int) (lon lat : Arr F) (r : Bool) : Out (Arr F) :=
  let std : Arr F := ts.map stdTime
  let da : Arr F := ts.map dayAngle
  let lat := Num.f32 lat
  let ha := haNe std (eotHours da) (Num.f32 lon / 15.0)
  { zenith := zenith r (cosLat lat) (sinLat lat) (decl da) ha
    azimuth := azWrapNe (az0 (cosLat lat) (sinLat lat) (decl da) ha)
    ecf := ecf da, declination := decl da, eot := eotMinutes da }

/-- `_sunpos_two_dimensional`, ne_iqbal.py:168-226 -/
def ne2 (ts : Arr Int) (lon lat : Arr F) (r : Bool) : Out (Arr F) :=
  let std : Arr F := ts.map stdTime
  let da : Arr F := ts.map dayAngle
  let lat := (Num.f32 lat).l2
  let ha := haNe std.t2 (eotHours da).t2 (lonHours (Num.f32 lon).l2)
  { zenith := zenith r (cosLat lat) (sinLat lat) (decl da).t2 ha
    azimuth := azWrapNe (az0 (cosLat lat) (sinLat lat) (decl da).t2 ha)
    ecf := ecf da, declination := decl da, eot := eotMinutes da }

/-- `_sunpos_three_dimensional`, ne_iqbal.py:229-288 -/
def ne3 (ts : Arr Int) (lon lat : Arr F) (r : Bool) : Out (Arr F) :=
  let std : Arr F := ts.map stdTime
  let da : Arr F := ts.map dayAngle
  let lat := (Num.f32 lat).y3
  let ha := haNe std.t3 (eotHours da).t3 (lonHours (Num.f32 lon).x3)
  { zenith := zenith r (cosLat lat) (sinLat lat) (decl da).t3 ha
    azimuth := azWrapNe (az0 (cosLat lat) (sinLat lat) (decl da).t3 ha)
    ecf := ecf da, declination := decl da, eot := eotMinutes da }

/-! ### The same programs on one cell -/

def cellPy (t : Int) (lon lat : F) (r : Bool) : Out F :=
  let da : F := dayAngle t
  let lat := Num.f32 lat
  let ha := haPy (stdTime t) (eotHours da) (lonHours (Num.f32 lon))
  { zenith := zenith r (cosLat lat) (sinLat lat) (decl da) ha
    azimuth := azWrapPy (az0 (cosLat lat) (sinLat lat) (decl da) ha)
    ecf := ecf da, declination := decl da, eot := eotMinutes da }

/-- numexpr cell; `q` tells whether `longitude/15.` is rounded to binary32 (2- and 3-dim paths) -/
def cellNe (q : Bool) (t : Int) (lon lat : F) (r : Bool) : Out F :=
  let da : F := dayAngle t
  let lat := Num.f32 lat
  let ha := haNe (stdTime t) (eotHours da) (if q then lonHours (Num.f32 lon) else Num.f32 lon / 15.0)
  { zenith := zenith r (cosLat lat) (sinLat lat) (decl da) ha
    azimuth := azWrapNe (az0 (cosLat lat) (sinLat lat) (decl da) ha)
    ecf := ecf da, declination := decl da, eot := eotMinutes da }

end SW.Iqbal

namespace SW
theorem Iqbal.RAD.lift {F : Type _} [Num F] {sh i : List Nat} :
    Lift sh i (Iqbal.RAD : Arr F) (Iqbal.RAD : F) := by unfold Iqbal.RAD; lift
macro_rules | `(tactic| lift1) => `(tactic| with_reducible apply Iqbal.RAD.lift)
lift_lemma1 Iqbal.ecf
lift_lemma1 Iqbal.eotHours
lift_lemma1 Iqbal.decl
lift_lemma1 Iqbal.latRad
lift_lemma1 Iqbal.cosLat
lift_lemma1 Iqbal.sinLat
lift_lemma1 Iqbal.lonHours
lift_lemma3 Iqbal.lat0
lift_lemma1 Iqbal.lat1Py
lift_lemma1 Iqbal.lat2Py
lift_lemma1 Iqbal.lat1Ne
lift_lemma1 Iqbal.lat2Ne
lift_lemma1 Iqbal.hourAngle
lift_lemma4 Iqbal.cosz
lift_lemma1 Iqbal.refcor
lift_lemma1 Iqbal.refract
lift_lemma4 Iqbal.az0
lift_lemma1 Iqbal.azWrapPy
lift_lemma1 Iqbal.azWrapNe
lift_lemma1 Iqbal.eotMinutes
lift_lemma3 Iqbal.haPy
lift_lemma3 Iqbal.haNe

theorem Iqbal.zenith.lift {F : Type _} [Num F] {sh i : List Nat} {a b c d : Arr F} {x y z t : F}
    {r : Bool} (h1 : Lift sh i a x) (h2 : Lift sh i b y) (h3 : Lift sh i c z) (h4 : Lift sh i d t) :
    Lift sh i (Iqbal.zenith r a b c d) (Iqbal.zenith r x y z t) := by
  unfold Iqbal.zenith Iqbal.withRefr
  cases r <;> simp only [if_true, if_false, Bool.false_eq_true] <;> lift
macro_rules | `(tactic| lift1) => `(tactic| with_reducible apply Iqbal.zenith.lift)

namespace Iqbal
variable {F : Type _} [Scalar F] {ts : Arr Int} {lon lat : Arr F} {t : Int} {x y : F}
  {I J K i j k : Nat} {r : Bool}

theorem py1_lift (ht : Lift [K] [k] ts t) (hx : Lift [K] [k] lon x) (hy : Lift [K] [k] lat y) :
    LiftOut [K] [k] [K] [k] (py1 ts lon lat r) (cellPy t x y r) := by
  have hu : Lift [K] [k] (ts.map (stdTime (F := F))) (stdTime t) := ht.map _
  have hv : Lift [K] [k] (ts.map (dayAngle (F := F))) (dayAngle t) := ht.map _
  constructor <;> simp only [py1, cellPy] <;> liftx

theorem py2_lift (ht : Lift [K] [k] ts t) (hx : Lift [J] [j] lon x) (hy : Lift [J] [j] lat y) :
    LiftOut [J, K] [j, k] [K] [k] (py2 ts lon lat r) (cellPy t x y r) := by
  have hu : Lift [K] [k] (ts.map (stdTime (F := F))) (stdTime t) := ht.map _
  have hv : Lift [K] [k] (ts.map (dayAngle (F := F))) (dayAngle t) := ht.map _
  constructor <;> simp only [py2, cellPy] <;> liftx

theorem py3_lift (ht : Lift [K] [k] ts t) (hx : Lift [I] [i] lon x) (hy : Lift [J] [j] lat y) :
    LiftOut [I, J, K] [i, j, k] [K] [k] (py3 ts lon lat r) (cellPy t x y r) := by
  have hu : Lift [K] [k] (ts.map (stdTime (F := F))) (stdTime t) := ht.map _
  have hv : Lift [K] [k] (ts.map (dayAngle (F := F))) (dayAngle t) := ht.map _
  constructor <;> simp only [py3, cellPy] <;> liftx

theorem ne1_lift (ht : Lift [K] [k] ts t) (hx : Lift [K] [k] lon x) (hy : Lift [K] [k] lat y) :
    LiftOut [K] [k] [K] [k] (ne1 ts lon lat r) (cellNe false t x y r) := by
  have hu : Lift [K] [k] (ts.map (stdTime (F := F))) (stdTime t) := ht.map _
  have hv : Lift [K] [k] (ts.map (dayAngle (F := F))) (dayAngle t) := ht.map _
  constructor <;> simp only [ne1, cellNe, Bool.false_eq_true, if_false] <;> liftx

theorem ne2_lift (ht : Lift [K] [k] ts t) (hx : Lift [J] [j] lon x) (hy : Lift [J] [j] lat y) :
    LiftOut [J, K] [j, k] [K] [k] (ne2 ts lon lat r) (cellNe true t x y r) := by
  have hu : Lift [K] [k] (ts.map (stdTime (F := F))) (stdTime t) := ht.map _
  have hv : Lift [K] [k] (ts.map (dayAngle (F := F))) (dayAngle t) := ht.map _
  constructor <;> simp only [ne2, cellNe, if_true] <;> liftx

theorem ne3_lift (ht : Lift [K] [k] ts t) (hx : Lift [I] [i] lon x) (hy : Lift [J] [j] lat y) :
    LiftOut [I, J, K] [i, j, k] [K] [k] (ne3 ts lon lat r) (cellNe true t x y r) := by
  have hu : Lift [K] [k] (ts.map (stdTime (F := F))) (stdTime t) := ht.map _
  have hv : Lift [K] [k] (ts.map (dayAngle (F := F))) (dayAngle t) := ht.map _
  constructor <;> simp only [ne3, cellNe, if_true] <;> liftx

end Iqbal
end SW
