/-
NREL's SPA: `libspa/ne_nrel.py`.
-/
import Verif.Soltrack
import Verif.NrelTables

namespace SW.Nrel

universe u
variable {A : Type u} [Num A]

/-- a table entry as a number -/
def Dec.num (d : Dec) : A :=
  if d.m < 0 then -(Num.lit d.m.natAbs true d.e) else Num.lit d.m.natAbs true d.e
/-- an integer table entry as a number -/
def inum (n : Int) : A := if n < 0 then -(Num.nat n.natAbs) else Num.nat n.natAbs

/-- `PARAMS_*.resize((n, 3))`: rows of zeros are appended (ne_nrel.py:400, 414, ...) -/
def pad (n : Nat) (t : List Row) : List Row :=
  t ++ List.replicate (n - t.length) ⟨⟨0, 0⟩, ⟨0, 0⟩, ⟨0, 0⟩⟩

/-- one row of `C_R_0*cos(C_R_1+C_R_2*jme_)` and its likes, ne_nrel.py:95, 99, 103 -/
def term (jme : A) (r : Row) : A := r.a.num * Num.cos (r.b.num + r.c.num * jme)

/-- `np.sum(..., axis=1)`: rows are accumulated one after the other (numpy may use another order for
an input of a single time; over the reals the order does not matter). -/
def sumRows : List A → A
  | [] => 0
  | x :: xs => xs.foldl (fun a b => a + b) x

/-- a summed series, ne_nrel.py:95, 99, 103 -/
def series (n : Nat) (t : List Row) (jme : A) : A := sumRows ((pad n t).map (term jme))

/-- ne_nrel.py:79 -/
def jd (unixtime : A) : A := unixtime / 86400 + 2440587.5
/-- ne_nrel.py:82 (`DELTA_T = 67.0`) -/
def jde (jd : A) : A := jd + 67.0 / 86400
/-- ne_nrel.py:85 -/
def jc (jd : A) : A := (jd - 2451545) / 36525
/-- ne_nrel.py:88 -/
def jce (jde : A) : A := (jde - 2451545) / 36525
/-- ne_nrel.py:91 -/
def jme (jce : A) : A := jce / 10
/-- sun-earth distance, ne_nrel.py:95-96 -/
def R (m : A) : A :=
  (series 40 paramsR0 m + series 40 paramsR1 m * m + series 40 paramsR2 m * Num.npow m 2
    + series 40 paramsR3 m * Num.npow m 3 + series 40 paramsR4 m * Num.npow m 4) / 100000000
/-- heliocentric longitude, degrees, before reduction, ne_nrel.py:99-100 -/
def Lraw (m : A) : A :=
  RAD2DEG * (series 64 paramsL0 m + series 64 paramsL1 m * m + series 64 paramsL2 m * Num.npow m 2
    + series 64 paramsL3 m * Num.npow m 3 + series 64 paramsL4 m * Num.npow m 4
    + series 64 paramsL5 m * Num.npow m 5) / 100000000
/-- heliocentric longitude, degrees, ne_nrel.py:100 -/
def L (m : A) : A := Num.cmod (Lraw m) 360
/-- heliocentric latitude, degrees, ne_nrel.py:103-104 -/
def B (m : A) : A := RAD2DEG * (series 5 paramsB0 m + series 5 paramsB1 m * m) / 100000000
/-- geocentric longitude, ne_nrel.py:107 -/
def theta (m : A) : A := Num.cmod (L m + 180.0) 360
/-- geocentric latitude, ne_nrel.py:110 -/
def beta (m : A) : A := -DEG2RAD * B m
/-- mean elongation, ne_nrel.py:113 -/
def x0 (c : A) : A :=
  297.85036 + 445267.111480 * c - 0.0019142 * Num.npow c 2 + Num.npow c 3 / 189474
/-- ne_nrel.py:117 -/
def x1 (c : A) : A :=
  357.52772 + 35999.050340 * c - 0.0001603 * Num.npow c 2 - Num.npow c 3 / 300000
/-- ne_nrel.py:121 -/
def x2 (c : A) : A :=
  134.96298 + 477198.867398 * c + 0.0086972 * Num.npow c 2 + Num.npow c 3 / 56250
/-- ne_nrel.py:125 -/
def x3 (c : A) : A :=
  93.27191 + 483202.017538 * c - 0.0036825 * Num.npow c 2 + Num.npow c 3 / 327270
/-- ne_nrel.py:129 -/
def x4 (c : A) : A :=
  125.04452 - 1934.136261 * c + 0.0020708 * Num.npow c 2 + Num.npow c 3 / 450000
/-- argument of a nutation row, ne_nrel.py:137-139, 149-151 -/
def nutArg (c : A) (r : NutRow) : A :=
  (inum r.y0 * x0 c + inum r.y1 * x1 c + inum r.y2 * x2 c + inum r.y3 * x3 c + inum r.y4 * x4 c)
    * DEG2RAD
/-- a row of the longitude nutation, ne_nrel.py:135-140 (the secular factor is `jme`, as coded) -/
def psiTerm (m c : A) (r : NutRow) : A :=
  (r.a.num + r.b.num * m) * Num.sin (nutArg c r) / 36000000
/-- a row of the obliquity nutation, ne_nrel.py:147-152 -/
def epsTerm (m c : A) (r : NutRow) : A :=
  (r.c.num + r.d.num * m) * Num.cos (nutArg c r) / 36000000
/-- ne_nrel.py:133-142 -/
def deltaPsi (m c : A) : A := sumRows (paramsNut.map (psiTerm m c))
/-- ne_nrel.py:145-154 -/
def deltaEps (m c : A) : A := sumRows (paramsNut.map (epsTerm m c))
/-- ne_nrel.py:157-160 -/
def epsilon0 (m : A) : A :=
  84381.448 - 4680.93 * (m / 10.0) - 1.55 * Num.npow (m / 10.0) 2 + 1999.25 * Num.npow (m / 10.0) 3
    - 51.38 * Num.npow (m / 10.0) 4 - 249.67 * Num.npow (m / 10.0) 5
    - 39.05 * Num.npow (m / 10.0) 6 + 7.12 * Num.npow (m / 10.0) 7
    + 27.87 * Num.npow (m / 10.0) 8 + 5.79 * Num.npow (m / 10.0) 9 + 2.45 * Num.npow (m / 10.0) 10
/-- ne_nrel.py:163 -/
def epsilon (eps0 deps : A) : A := (eps0 / 3600.0 + deps) * DEG2RAD
/-- ne_nrel.py:166 -/
def deltaTau (R : A) : A := -20.4898 / (3600.0 * R)
/-- ne_nrel.py:169 -/
def lamd (theta dpsi dtau : A) : A := (theta + dpsi + dtau) * DEG2RAD
/-- ne_nrel.py:172-173 -/
def v0 (jd jc : A) : A :=
  Num.cmod (280.46061837 + 360.98564736629 * (jd - 2451545) + 0.000387933 * Num.npow jc 2
    - Num.npow jc 3 / 38710000) 360.0
/-- ne_nrel.py:176 -/
def v (v0 dpsi eps : A) : A := v0 + dpsi * Num.cos eps
/-- ne_nrel.py:179-182 -/
def alpha (lamd eps beta : A) : A :=
  Num.cmod (Num.arctan2 (Num.sin lamd * Num.cos eps - Num.tan beta * Num.sin eps) (Num.cos lamd)
    * RAD2DEG) 360
/-- ne_nrel.py:185 -/
def delta (beta eps lamd : A) : A :=
  Num.arcsin (Num.sin beta * Num.cos eps + Num.cos beta * Num.sin eps * Num.sin lamd)
/-- ne_nrel.py:188-189 -/
def meanLon (m : A) : A :=
  280.4664567 + 360007.6982779 * m + 0.03032028 * Num.npow m 2 + Num.npow m 3 / 49931
    - Num.npow m 4 / 15300 - Num.npow m 5 / 2000000
/-- ne_nrel.py:192 -/
def eot0 (mlon alpha dpsi eps : A) : A :=
  Num.cmod (mlon - 0.0057183 - alpha + dpsi * Num.cos eps) 360 * 4
/-- ne_nrel.py:193 -/
def eot1 (eot : A) : A := Num.whereLt eot (-20.0) (eot + 1440) eot
/-- ne_nrel.py:194 -/
def eot2 (eot : A) : A := Num.whereLt 20.0 eot (eot - 1440) eot

/-- the five values returned by `time_dependent_calculations` -/
structure TimeOut (A : Type u) where
  alpha : A
  delta : A
  eot : A
  v : A
  R : A

/-- ne_nrel.py:74-196 -/
def time (unixtime : A) : TimeOut A :=
  let jd := jd unixtime
  let c := jce (jde jd)
  let m := jme c
  let dpsi := deltaPsi m c
  let eps := epsilon (epsilon0 m) (deltaEps m c)
  let lam := lamd (theta m) dpsi (deltaTau (R m))
  { alpha := alpha lam eps (beta m)
    delta := delta (beta m) eps lam
    eot := eot2 (eot1 (eot0 (meanLon m) (alpha lam eps (beta m)) dpsi eps))
    v := v (v0 jd (jc jd)) dpsi eps
    R := R m }

/-! ### Spatial part (ne_nrel.py:199-245, 248-298, 301-351) -/

/-- local hour angle, ne_nrel.py:212, 264, 317 -/
def hourAngle (v lon alpha : A) : A := Num.cmod (v + lon - alpha) 360 * DEG2RAD
/-- ne_nrel.py:215, 267, 320 -/
def xi (R : A) : A := (8.794 / (3600 * R)) * DEG2RAD
/-- ne_nrel.py:216, 268, 321 -/
def uu (latrad : A) : A := Num.arctan (0.99664719 * Num.tan latrad)
/-- ne_nrel.py:217, 269, 322 (`ELEVATION = 0.`) -/
def px (u latrad : A) : A := Num.cos u + 0.0 / 6378140.0 * Num.cos latrad
/-- ne_nrel.py:218, 270, 323 -/
def py (u latrad : A) : A := 0.99664719 * Num.sin u + 0.0 / 6378140.0 * Num.sin latrad
/-- ne_nrel.py:221, 273, 326 -/
def deltaa (x xi H dec : A) : A :=
  Num.arctan2 (-x * Num.sin xi * Num.sin H) (Num.cos dec - x * Num.sin xi * Num.cos H)
/-- ne_nrel.py:224, 276, 329 -/
def deltap (x y xi H dec : A) : A :=
  Num.arctan2 ((Num.sin dec - y * Num.sin xi) * Num.cos (deltaa x xi H dec))
    (Num.cos dec - x * Num.sin xi * Num.cos H)
/-- ne_nrel.py:227, 279, 332 -/
def Hp (x xi H dec : A) : A := H - deltaa x xi H dec
/-- ne_nrel.py:230, 282, 335 -/
def elev (latrad dp hp : A) : A :=
  Num.arcsin (Num.sin latrad * Num.sin dp + Num.cos latrad * Num.cos dp * Num.cos hp)
/-- `ATM_REFR`, ne_nrel.py:22 -/
def ATM_REFR : A := (1013.25 / 1010.0) * (283.0 / (273 + 12.0))
/-- ne_nrel.py:234, 286, 339 -/
def refrCorr (e : A) : A :=
  ATM_REFR * 1.7802e-2 / (60 * Num.tan (e + 3.1376e-3 / (e + 8.9186e-2)))
/-- ne_nrel.py:235, 287, 340 -/
def refract (e : A) : A := Num.whereLe (-1.4545e-2) e (e + refrCorr e) e
/-- `if with_refraction is True`, ne_nrel.py:233, 285, 338 -/
def withRefr (r : Bool) (e : A) : A := if r then refract e else e
/-- ne_nrel.py:212-237, 264-289, 317-342 -/
def zenith (r : Bool) (latrad dp hp : A) : A := HALFPI - withRefr r (elev latrad dp hp)
/-- ne_nrel.py:240, 292, 345 -/
def azimuth (latrad dp hp : A) : A :=
  Num.arctan2 (Num.sin hp) (Num.cos hp * Num.sin latrad - Num.tan dp * Num.cos latrad)
/-- ne_nrel.py:243, 295, 348 -/
def ecf (R : A) : A := 1 / Num.npow R 2

/-- zenith from operands of broadcastable shapes -/
def zen (r : Bool) (latrad xi H dec : A) : A :=
  let u := uu latrad
  zenith r latrad (deltap (px u latrad) (py u latrad) xi H dec) (Hp (px u latrad) xi H dec)
/-- azimuth from operands of broadcastable shapes -/
def azi (latrad xi H dec : A) : A :=
  let u := uu latrad
  azimuth latrad (deltap (px u latrad) (py u latrad) xi H dec) (Hp (px u latrad) xi H dec)

end SW.Nrel

namespace SW.Nrel
universe u
variable {F : Type u} [Scalar F]

/-- `_sunpos_one_dimensional`, ne_nrel.py:199-245 (no cast to binary32: ne_nrel.py:39-40) -/
def ne1 (ts : Arr Int) (lon lat : Arr F) (r : Bool) : Out (Arr F) :=
  let T := time (ts.map Scalar.ofInt)
  let latrad := lat * DEG2RAD
  let H := hourAngle T.v lon T.alpha
  { zenith := zen r latrad (xi T.R) H T.delta
    azimuth := azi latrad (xi T.R) H T.delta
    ecf := ecf T.R, declination := T.delta, eot := T.eot }

/-- `_sunpos_two_dimensional`, ne_nrel.py:248-298 -/
def ne2 (ts : Arr Int) (lon lat : Arr F) (r : Bool) : Out (Arr F) :=
  let T := time (ts.map Scalar.ofInt)
  let latrad := lat.l2 * DEG2RAD
  let H := hourAngle T.v.t2 lon.l2 T.alpha.t2
  { zenith := zen r latrad (xi T.R).t2 H T.delta.t2
    azimuth := azi latrad (xi T.R).t2 H T.delta.t2
    ecf := ecf T.R, declination := T.delta, eot := T.eot }

/-- `_sunpos_three_dimensional`, ne_nrel.py:301-351 -/
def ne3 (ts : Arr Int) (lon lat : Arr F) (r : Bool) : Out (Arr F) :=
  let T := time (ts.map Scalar.ofInt)
  let latrad := lat.y3 * DEG2RAD
  let H := hourAngle T.v.t3 lon.x3 T.alpha.t3
  { zenith := zen r latrad (xi T.R).t3 H T.delta.t3
    azimuth := azi latrad (xi T.R).t3 H T.delta.t3
    ecf := ecf T.R, declination := T.delta, eot := T.eot }

/-! ### The same program on one cell -/

def cell (t : Int) (lon lat : F) (r : Bool) : Out F :=
  let T := time (Scalar.ofInt t : F)
  let latrad := lat * DEG2RAD
  let H := hourAngle T.v lon T.alpha
  { zenith := zen r latrad (xi T.R) H T.delta
    azimuth := azi latrad (xi T.R) H T.delta
    ecf := ecf T.R, declination := T.delta, eot := T.eot }

end SW.Nrel

namespace SW
section
variable {F : Type _} [Num F] {sh i : List Nat}
theorem Lift.nlit {m : Nat} {s : Bool} {e : Nat} :
    Lift sh i (Num.lit m s e : Arr F) (Num.lit m s e : F) := Lift.scalar _
theorem Lift.nnat {n : Nat} : Lift sh i (Num.nat n : Arr F) (Num.nat n : F) := Lift.scalar _
theorem Nrel.Dec.num.lift {d : Nrel.Dec} : Lift sh i (d.num : Arr F) (d.num : F) := by
  unfold Nrel.Dec.num; split
  · exact Lift.nlit.neg
  · exact Lift.nlit
theorem Nrel.inum.lift {n : Int} : Lift sh i (Nrel.inum n : Arr F) (Nrel.inum n : F) := by
  unfold Nrel.inum; split
  · exact Lift.nnat.neg
  · exact Lift.nnat
macro_rules | `(tactic| lift1) => `(tactic| with_reducible apply Nrel.Dec.num.lift)
macro_rules | `(tactic| lift1) => `(tactic| with_reducible apply Nrel.inum.lift)

theorem Nrel.foldl.lift {α : Type _} {f : α → Arr F} {g : α → F}
    (h : ∀ r, Lift sh i (f r) (g r)) (l : List α) {a : Arr F} {x : F} (ha : Lift sh i a x) :
    Lift sh i ((l.map f).foldl (fun a b => a + b) a) ((l.map g).foldl (fun a b => a + b) x) := by
  induction l generalizing a x with
  | nil => exact ha
  | cons r l ih => exact ih (ha.add (h r))

theorem Nrel.sumRows.lift {α : Type _} {f : α → Arr F} {g : α → F}
    (h : ∀ r, Lift sh i (f r) (g r)) (l : List α) :
    Lift sh i (Nrel.sumRows (l.map f)) (Nrel.sumRows (l.map g)) := by
  cases l with
  | nil => exact Lift.ofNat
  | cons r l => exact Nrel.foldl.lift h l (h r)

theorem Nrel.term.lift {a : Arr F} {x : F} (h : Lift sh i a x) (r : Nrel.Row) :
    Lift sh i (Nrel.term a r) (Nrel.term x r) := by unfold Nrel.term; lift

theorem Nrel.series.lift {a : Arr F} {x : F} {n : Nat} {t : List Nrel.Row} (h : Lift sh i a x) :
    Lift sh i (Nrel.series n t a) (Nrel.series n t x) :=
  Nrel.sumRows.lift (Nrel.term.lift h) _
macro_rules | `(tactic| lift1) => `(tactic| with_reducible apply Nrel.series.lift)
end

lift_lemma1 Nrel.jd
lift_lemma1 Nrel.jde
lift_lemma1 Nrel.jc
lift_lemma1 Nrel.jce
lift_lemma1 Nrel.jme
lift_lemma1 Nrel.R
lift_lemma1 Nrel.Lraw
lift_lemma1 Nrel.L
lift_lemma1 Nrel.B
lift_lemma1 Nrel.theta
lift_lemma1 Nrel.beta
lift_lemma1 Nrel.x0
lift_lemma1 Nrel.x1
lift_lemma1 Nrel.x2
lift_lemma1 Nrel.x3
lift_lemma1 Nrel.x4

section
variable {F : Type _} [Num F] {sh i : List Nat}
theorem Nrel.nutArg.lift {a : Arr F} {x : F} {r : Nrel.NutRow} (h : Lift sh i a x) :
    Lift sh i (Nrel.nutArg a r) (Nrel.nutArg x r) := by unfold Nrel.nutArg; lift
macro_rules | `(tactic| lift1) => `(tactic| with_reducible apply Nrel.nutArg.lift)
theorem Nrel.deltaPsi.lift {a b : Arr F} {x y : F} (h : Lift sh i a x) (h' : Lift sh i b y) :
    Lift sh i (Nrel.deltaPsi a b) (Nrel.deltaPsi x y) :=
  Nrel.sumRows.lift (fun r => by unfold Nrel.psiTerm; lift) _
theorem Nrel.deltaEps.lift {a b : Arr F} {x y : F} (h : Lift sh i a x) (h' : Lift sh i b y) :
    Lift sh i (Nrel.deltaEps a b) (Nrel.deltaEps x y) :=
  Nrel.sumRows.lift (fun r => by unfold Nrel.epsTerm; lift) _
macro_rules | `(tactic| lift1) => `(tactic| with_reducible apply Nrel.deltaPsi.lift)
macro_rules | `(tactic| lift1) => `(tactic| with_reducible apply Nrel.deltaEps.lift)
theorem Nrel.ATM_REFR.lift : Lift sh i (Nrel.ATM_REFR : Arr F) (Nrel.ATM_REFR : F) := by
  unfold Nrel.ATM_REFR; lift
macro_rules | `(tactic| lift1) => `(tactic| with_reducible apply Nrel.ATM_REFR.lift)
end

lift_lemma1 Nrel.epsilon0
lift_lemma2 Nrel.epsilon
lift_lemma1 Nrel.deltaTau
lift_lemma3 Nrel.lamd
lift_lemma2 Nrel.v0
lift_lemma3 Nrel.v
lift_lemma3 Nrel.alpha
lift_lemma3 Nrel.delta
lift_lemma1 Nrel.meanLon
lift_lemma4 Nrel.eot0
lift_lemma1 Nrel.eot1
lift_lemma1 Nrel.eot2
lift_lemma3 Nrel.hourAngle
lift_lemma1 Nrel.xi
lift_lemma1 Nrel.uu
lift_lemma2 Nrel.px
lift_lemma2 Nrel.py
lift_lemma4 Nrel.deltaa
lift_lemma5 Nrel.deltap
lift_lemma4 Nrel.Hp
lift_lemma3 Nrel.elev
lift_lemma1 Nrel.refrCorr
lift_lemma1 Nrel.refract
lift_lemma3 Nrel.azimuth
lift_lemma1 Nrel.ecf
lift_lemma4 Nrel.azi

theorem Nrel.zen.lift {F : Type _} [Num F] {sh i : List Nat} {a b c d : Arr F} {x y z t : F}
    {r : Bool} (h1 : Lift sh i a x) (h2 : Lift sh i b y) (h3 : Lift sh i c z) (h4 : Lift sh i d t) :
    Lift sh i (Nrel.zen r a b c d) (Nrel.zen r x y z t) := by
  unfold Nrel.zen Nrel.zenith Nrel.withRefr
  cases r <;> simp only [if_true, if_false, Bool.false_eq_true] <;> lift
macro_rules | `(tactic| lift1) => `(tactic| with_reducible apply Nrel.zen.lift)

namespace Nrel
variable {F : Type _} [Scalar F] {ts : Arr Int} {lon lat : Arr F} {t : Int} {x y : F}
  {I J K i j k : Nat} {r : Bool}

theorem ne1_lift (ht : Lift [K] [k] ts t) (hx : Lift [K] [k] lon x) (hy : Lift [K] [k] lat y) :
    LiftOut [K] [k] [K] [k] (ne1 ts lon lat r) (cell t x y r) := by
  have hu : Lift [K] [k] (ts.map (Scalar.ofInt (F := F))) (Scalar.ofInt t) := ht.map _
  constructor <;> simp only [ne1, cell, time] <;> liftx

theorem ne2_lift (ht : Lift [K] [k] ts t) (hx : Lift [J] [j] lon x) (hy : Lift [J] [j] lat y) :
    LiftOut [J, K] [j, k] [K] [k] (ne2 ts lon lat r) (cell t x y r) := by
  have hu : Lift [K] [k] (ts.map (Scalar.ofInt (F := F))) (Scalar.ofInt t) := ht.map _
  constructor <;> simp only [ne2, cell, time] <;> liftx

theorem ne3_lift (ht : Lift [K] [k] ts t) (hx : Lift [I] [i] lon x) (hy : Lift [J] [j] lat y) :
    LiftOut [I, J, K] [i, j, k] [K] [k] (ne3 ts lon lat r) (cell t x y r) := by
  have hu : Lift [K] [k] (ts.map (Scalar.ofInt (F := F))) (Scalar.ofInt t) := ht.map _
  constructor <;> simp only [ne3, cell, time] <;> liftx

end Nrel
end SW
