/-
numpy arrays: shapes, element access and broadcasting.

Shapes and indices are written innermost axis first (`[J, K]` is numpy's shape `(K, J)`), because
numpy aligns shapes at their last axis.
-/
import Verif.Num

namespace SW

universe u v w

/-- A numpy array. `rs` is the shape (innermost axis first), `get` the element at an index (same
order), `ok` is false if some operation on the way met incompatible shapes (numpy raises
`ValueError`). -/
structure Arr (F : Type u) where
  rs : List Nat
  ok : Bool
  get : List Nat → F

/-- Broadcast of two axis lengths (given that they are compatible). -/
def bdim (d e : Nat) : Nat := if d = 1 then e else d

/-- Shape of the result of a broadcast binary operation. -/
def bshape : List Nat → List Nat → List Nat
  | [], b => b
  | d :: ds, [] => d :: ds
  | d :: ds, e :: es => bdim d e :: bshape ds es

/-- numpy's compatibility test of two shapes. -/
def compat : List Nat → List Nat → Bool
  | [], _ => true
  | _ :: _, [] => true
  | d :: ds, e :: es => (d == e || d == 1 || e == 1) && compat ds es

/-- Index used for an array of shape `r` when the broadcast result is indexed by `i`: axes of
length 1 are repeated, missing outer axes are ignored. -/
def clip : List Nat → List Nat → List Nat
  | [], _ => []
  | _ :: _, [] => []
  | d :: ds, i :: is => (if d = 1 then 0 else i) :: clip ds is

/-- `r` can be broadcast to the shape `sh`. -/
def fits : List Nat → List Nat → Bool
  | [], _ => true
  | _ :: _, [] => false
  | d :: ds, e :: es => (d == 1 || d == e) && fits ds es

namespace Arr

variable {F : Type u} {G : Type v} {H : Type w}

/-- Element of the (virtually broadcast) array at an index of a larger shape. -/
def at' (a : Arr F) (i : List Nat) : F := a.get (clip a.rs i)

/-- a Python or numpy scalar -/
def scalar (x : F) : Arr F := ⟨[], true, fun _ => x⟩
/-- element-wise function -/
def map (f : F → G) (a : Arr F) : Arr G := ⟨a.rs, a.ok, fun i => f (a.get i)⟩
/-- element-wise binary function with broadcasting -/
def map2 (f : F → G → H) (a : Arr F) (b : Arr G) : Arr H :=
  ⟨bshape a.rs b.rs, a.ok && b.ok && compat a.rs b.rs, fun i => f (a.at' i) (b.at' i)⟩
/-- element-wise function of four arrays (`np.where` with its comparison) -/
def map4 (f : F → F → F → F → F) (a b c d : Arr F) : Arr F :=
  map2 (fun p q => f p.1 p.2 q.1 q.2) (map2 Prod.mk a b) (map2 Prod.mk c d)

/-- 1-dim array from a list -/
def ofList (dflt : F) (l : List F) : Arr F := ⟨[l.length], true, fun i => l.getD (i.headD 0) dflt⟩

/-- `a[:, None]` -/
def t2 (a : Arr F) : Arr F := ⟨1 :: a.rs, a.ok, fun i => a.get i.tail⟩
/-- `a[None, :]` -/
def l2 (a : Arr F) : Arr F := ⟨a.rs ++ [1], a.ok, fun i => a.get (i.take a.rs.length)⟩
/-- `a[:, None, None]` -/
def t3 (a : Arr F) : Arr F := ⟨1 :: 1 :: a.rs, a.ok, fun i => a.get i.tail.tail⟩
/-- `a[None, :, None]` -/
def y3 (a : Arr F) : Arr F := ⟨1 :: (a.rs ++ [1]), a.ok, fun i => a.get (i.tail.take a.rs.length)⟩
/-- `a[None, None, :]` -/
def x3 (a : Arr F) : Arr F := ⟨a.rs ++ [1, 1], a.ok, fun i => a.get (i.take a.rs.length)⟩

instance instNumArr [Num F] : Num (Arr F) where
  add := map2 (· + ·)
  sub := map2 (· - ·)
  mul := map2 (· * ·)
  div := map2 (· / ·)
  neg := map (fun x => -x)
  lit m s e := scalar (Num.lit m s e)
  nat n := scalar (Num.nat n)
  pi := scalar Num.pi
  nan := scalar Num.nan
  sin := map Num.sin
  cos := map Num.cos
  tan := map Num.tan
  arcsin := map Num.arcsin
  arccos := map Num.arccos
  arctan := map Num.arctan
  sqrt := map Num.sqrt
  absv := map Num.absv
  exp := map Num.exp
  log := map Num.log
  arctan2 := map2 Num.arctan2
  pmod := map2 Num.pmod
  cmod := map2 Num.cmod
  max2 := map2 Num.max2
  npow a n := map (fun x => Num.npow x n) a
  rpow := map2 Num.rpow
  trunc := map Num.trunc
  round6 := map Num.round6
  f32 := map Num.f32
  whereLt := map4 Num.whereLt
  whereLe := map4 Num.whereLe

end Arr

/-! ### Relation between an array program and the program of one of its cells -/

theorem clip_clip_left (a b i : List Nat) : clip a (clip (bshape a b) i) = clip a i := by
  induction a generalizing b i with
  | nil => simp [clip]
  | cons d ds ih =>
    cases b with
    | nil =>
      cases i with
      | nil => simp [bshape, clip]
      | cons x xs =>
        have := ih [] xs
        cases ds <;> simp_all [bshape, clip]
    | cons e es =>
      cases i with
      | nil => simp [bshape, clip]
      | cons x xs =>
        simp only [bshape, clip, ih es xs, bdim]
        by_cases hd : d = 1 <;> simp [hd]

theorem clip_clip_right (a b i : List Nat) : clip b (clip (bshape a b) i) = clip b i := by
  induction a generalizing b i with
  | nil =>
    simp only [bshape]
    induction b generalizing i with
    | nil => simp [clip]
    | cons e es ih =>
      cases i with
      | nil => simp [clip]
      | cons x xs => simp only [clip, ih xs]; by_cases h : e = 1 <;> simp [h]
  | cons d ds ih =>
    cases b with
    | nil => simp [clip]
    | cons e es =>
      cases i with
      | nil => simp [bshape, clip]
      | cons x xs =>
        simp only [bshape, clip, ih es xs, bdim]
        by_cases hd : d = 1 <;> by_cases he : e = 1 <;> simp [hd, he]

theorem fits_bshape {a b sh : List Nat} (ha : fits a sh = true) (hb : fits b sh = true) :
    fits (bshape a b) sh = true ∧ compat a b = true := by
  induction a generalizing b sh with
  | nil => exact ⟨by simpa [bshape] using hb, by simp [compat]⟩
  | cons d ds ih =>
    cases b with
    | nil => exact ⟨by simpa [bshape] using ha, by simp [compat]⟩
    | cons e es =>
      cases sh with
      | nil => simp [fits] at ha
      | cons s ss =>
        simp only [fits, Bool.and_eq_true, Bool.or_eq_true, beq_iff_eq] at ha hb
        obtain ⟨h1, h2⟩ := ih ha.2 hb.2
        simp only [bshape, fits, compat, Bool.and_eq_true, Bool.or_eq_true, beq_iff_eq, h1, h2,
          and_true, bdim]
        constructor
        · split_ifs with h
          · exact hb.1
          · exact ha.1
        · rcases ha.1 with h | h <;> rcases hb.1 with h' | h' <;> simp [h, h']

/-- `Lift sh i a x`: the array `a` is well formed, can be broadcast to the shape `sh`, and its
element at index `i` is `x`. -/
structure Lift {F : Type u} (sh i : List Nat) (a : Arr F) (x : F) : Prop where
  ok : a.ok = true
  fit : fits a.rs sh = true
  val : a.at' i = x

namespace Lift

variable {F : Type u} {G : Type v} {H : Type w} {sh i : List Nat}

theorem scalar (x : F) : Lift sh i (Arr.scalar x) x := ⟨rfl, rfl, rfl⟩

theorem map {a : Arr F} {x : F} (f : F → G) (h : Lift sh i a x) : Lift sh i (a.map f) (f x) :=
  ⟨h.ok, h.fit, by have := h.val; simp only [Arr.at', Arr.map] at *; rw [this]⟩

theorem map2 {a : Arr F} {b : Arr G} {x : F} {y : G} (f : F → G → H)
    (h : Lift sh i a x) (h' : Lift sh i b y) : Lift sh i (Arr.map2 f a b) (f x y) := by
  obtain ⟨h1, h2⟩ := fits_bshape h.fit h'.fit
  refine ⟨by simp [Arr.map2, h.ok, h'.ok, h2], h1, ?_⟩
  have := h.val; have := h'.val
  simp only [Arr.at', Arr.map2] at *
  rw [clip_clip_left, clip_clip_right]; simp_all

theorem map4 {a b c d : Arr F} {x y z t : F} (f : F → F → F → F → F)
    (ha : Lift sh i a x) (hb : Lift sh i b y) (hc : Lift sh i c z) (hd : Lift sh i d t) :
    Lift sh i (Arr.map4 f a b c d) (f x y z t) :=
  map2 _ (map2 _ ha hb) (map2 _ hc hd)

theorem ofList (dflt : F) (l : List F) (k : Nat) (hk : k < l.length) :
    Lift [l.length] [k] (Arr.ofList dflt l) (l[k]) := by
  refine ⟨rfl, by simp [Arr.ofList, fits], ?_⟩
  simp only [Arr.at', Arr.ofList, clip, List.headD_cons]
  split_ifs with h
  · have : k = 0 := by omega
    subst this; simp [List.getD_eq_getElem?_getD, List.getElem?_eq_getElem hk]
  · simp [List.getD_eq_getElem?_getD, List.getElem?_eq_getElem hk]

theorem t2 {a : Arr F} {x : F} {J K j k : Nat} (h : Lift [K] [k] a x) :
    Lift [J, K] [j, k] a.t2 x :=
  ⟨h.ok, by simpa [Arr.t2, fits] using h.fit, by simpa [Arr.t2, Arr.at', clip] using h.val⟩

theorem t3 {a : Arr F} {x : F} {I J K i j k : Nat} (h : Lift [K] [k] a x) :
    Lift [I, J, K] [i, j, k] a.t3 x :=
  ⟨h.ok, by simpa [Arr.t3, fits] using h.fit, by simpa [Arr.t3, Arr.at', clip] using h.val⟩

theorem rank1 {r : List Nat} {J : Nat} (h : fits r [J] = true) : r = [] ∨ ∃ d, r = [d] := by
  match r with
  | [] => exact Or.inl rfl
  | [d] => exact Or.inr ⟨d, rfl⟩
  | d :: e :: r => simp [fits] at h

theorem l2 {a : Arr F} {x : F} {J K j k : Nat} (h : Lift [J] [j] a x) :
    Lift [J, K] [j, k] a.l2 x := by
  obtain ⟨hok, hfit, hval⟩ := h
  rcases a with ⟨rs, ok, get⟩
  rcases rank1 hfit with h | ⟨d, h⟩ <;> simp only at h <;> subst h
  · exact ⟨hok, by simp [Arr.l2, fits], by simpa [Arr.l2, Arr.at', clip] using hval⟩
  · exact ⟨hok, by simpa [Arr.l2, fits] using hfit, by simpa [Arr.l2, Arr.at', clip] using hval⟩

theorem x3 {a : Arr F} {x : F} {I J K i j k : Nat} (h : Lift [I] [i] a x) :
    Lift [I, J, K] [i, j, k] a.x3 x := by
  obtain ⟨hok, hfit, hval⟩ := h
  rcases a with ⟨rs, ok, get⟩
  rcases rank1 hfit with h | ⟨d, h⟩ <;> simp only at h <;> subst h
  · exact ⟨hok, by simp [Arr.x3, fits], by simpa [Arr.x3, Arr.at', clip] using hval⟩
  · exact ⟨hok, by simpa [Arr.x3, fits] using hfit, by simpa [Arr.x3, Arr.at', clip] using hval⟩

theorem y3 {a : Arr F} {x : F} {I J K i j k : Nat} (h : Lift [J] [j] a x) :
    Lift [I, J, K] [i, j, k] a.y3 x := by
  obtain ⟨hok, hfit, hval⟩ := h
  rcases a with ⟨rs, ok, get⟩
  rcases rank1 hfit with h | ⟨d, h⟩ <;> simp only at h <;> subst h
  · exact ⟨hok, by simp [Arr.y3, fits], by simpa [Arr.y3, Arr.at', clip] using hval⟩
  · exact ⟨hok, by simpa [Arr.y3, fits] using hfit, by simpa [Arr.y3, Arr.at', clip] using hval⟩

section
variable [Num F] {a b c d : Arr F} {x y z t : F}
theorem lit {m s e} : Lift sh i (Num.lit m s e : Arr F) (Num.lit m s e : F) := scalar _
theorem sci {m s e} : Lift sh i (OfScientific.ofScientific m s e : Arr F)
    (OfScientific.ofScientific m s e : F) := scalar _
theorem ofNat {n : Nat} : Lift sh i (OfNat.ofNat n : Arr F) (OfNat.ofNat n : F) := scalar _
theorem pi : Lift sh i (Num.pi : Arr F) (Num.pi : F) := scalar _
theorem add (h : Lift sh i a x) (h' : Lift sh i b y) : Lift sh i (a + b) (x + y) := map2 _ h h'
theorem sub (h : Lift sh i a x) (h' : Lift sh i b y) : Lift sh i (a - b) (x - y) := map2 _ h h'
theorem mul (h : Lift sh i a x) (h' : Lift sh i b y) : Lift sh i (a * b) (x * y) := map2 _ h h'
theorem div (h : Lift sh i a x) (h' : Lift sh i b y) : Lift sh i (a / b) (x / y) := map2 _ h h'
theorem neg (h : Lift sh i a x) : Lift sh i (-a) (-x) := map _ h
theorem sin (h : Lift sh i a x) : Lift sh i (Num.sin a) (Num.sin x) := map _ h
theorem cos (h : Lift sh i a x) : Lift sh i (Num.cos a) (Num.cos x) := map _ h
theorem tan (h : Lift sh i a x) : Lift sh i (Num.tan a) (Num.tan x) := map _ h
theorem arcsin (h : Lift sh i a x) : Lift sh i (Num.arcsin a) (Num.arcsin x) := map _ h
theorem arccos (h : Lift sh i a x) : Lift sh i (Num.arccos a) (Num.arccos x) := map _ h
theorem arctan (h : Lift sh i a x) : Lift sh i (Num.arctan a) (Num.arctan x) := map _ h
theorem sqrt (h : Lift sh i a x) : Lift sh i (Num.sqrt a) (Num.sqrt x) := map _ h
theorem absv (h : Lift sh i a x) : Lift sh i (Num.absv a) (Num.absv x) := map _ h
theorem trunc (h : Lift sh i a x) : Lift sh i (Num.trunc a) (Num.trunc x) := map _ h
theorem round6 (h : Lift sh i a x) : Lift sh i (Num.round6 a) (Num.round6 x) := map _ h
theorem f32 (h : Lift sh i a x) : Lift sh i (Num.f32 a) (Num.f32 x) := map _ h
theorem npow {n : Nat} (h : Lift sh i a x) : Lift sh i (Num.npow a n) (Num.npow x n) :=
  map (fun x => Num.npow x n) h
theorem arctan2 (h : Lift sh i a x) (h' : Lift sh i b y) :
    Lift sh i (Num.arctan2 a b) (Num.arctan2 x y) := map2 _ h h'
theorem pmod (h : Lift sh i a x) (h' : Lift sh i b y) :
    Lift sh i (Num.pmod a b) (Num.pmod x y) := map2 _ h h'
theorem cmod (h : Lift sh i a x) (h' : Lift sh i b y) :
    Lift sh i (Num.cmod a b) (Num.cmod x y) := map2 _ h h'
theorem whereLt (ha : Lift sh i a x) (hb : Lift sh i b y) (hc : Lift sh i c z)
    (hd : Lift sh i d t) : Lift sh i (Num.whereLt a b c d) (Num.whereLt x y z t) :=
  map4 _ ha hb hc hd
theorem whereLe (ha : Lift sh i a x) (hb : Lift sh i b y) (hc : Lift sh i c z)
    (hd : Lift sh i d t) : Lift sh i (Num.whereLe a b c d) (Num.whereLe x y z t) :=
  map4 _ ha hb hc hd
theorem radians (h : Lift sh i a x) : Lift sh i (SW.radians a) (SW.radians x) :=
  mul h (div pi ofNat)
theorem degrees (h : Lift sh i a x) : Lift sh i (SW.degrees a) (SW.degrees x) :=
  mul h (div ofNat pi)
theorem deg2rad : Lift sh i (SW.DEG2RAD : Arr F) (SW.DEG2RAD : F) := div pi ofNat
theorem rad2deg : Lift sh i (SW.RAD2DEG : Arr F) (SW.RAD2DEG : F) := div ofNat pi
theorem twopi : Lift sh i (SW.TWOPI : Arr F) (SW.TWOPI : F) := mul sci pi
theorem halfpi : Lift sh i (SW.HALFPI : Arr F) (SW.HALFPI : F) := mul sci pi
end

end Lift

/-- one syntax-directed step of a `Lift` proof; extended in each algorithm's file -/
syntax "lift1" : tactic
macro_rules | `(tactic| lift1) => `(tactic| first
  | with_reducible assumption | with_reducible apply Lift.sci | with_reducible apply Lift.ofNat | with_reducible apply Lift.pi | with_reducible apply Lift.deg2rad
  | with_reducible apply Lift.rad2deg | with_reducible apply Lift.twopi | with_reducible apply Lift.halfpi
  | with_reducible apply Lift.add | with_reducible apply Lift.sub | with_reducible apply Lift.mul | with_reducible apply Lift.div | with_reducible apply Lift.neg
  | with_reducible apply Lift.sin | with_reducible apply Lift.cos | with_reducible apply Lift.tan | with_reducible apply Lift.arcsin | with_reducible apply Lift.arccos
  | with_reducible apply Lift.arctan | with_reducible apply Lift.sqrt | with_reducible apply Lift.absv | with_reducible apply Lift.trunc | with_reducible apply Lift.round6
  | with_reducible apply Lift.f32 | with_reducible apply Lift.npow | with_reducible apply Lift.arctan2 | with_reducible apply Lift.pmod | with_reducible apply Lift.cmod
  | with_reducible apply Lift.whereLt | with_reducible apply Lift.whereLe | with_reducible apply Lift.radians | with_reducible apply Lift.degrees)
/-- closes a goal `Lift sh i (program on arrays) (program on a cell)` -/
macro "lift" : tactic => `(tactic| repeat' lift1)

/-- declares the `Lift` lemma of a polymorphic function of `n` arguments and registers it -/
macro "lift_lemma1" f:ident : command => do
  let nm := Lean.mkIdent (f.getId ++ `lift)
  let h := Lean.mkIdent `h
  `(theorem $nm {F : Type _} [Num F] {sh i : List Nat} {a : Arr F} {x : F}
      ($h : Lift sh i a x) : Lift sh i ($f a) ($f x) := by unfold $f; lift
    macro_rules | `(tactic| lift1) => `(tactic| with_reducible apply $nm))
macro "lift_lemma2" f:ident : command => do
  let nm := Lean.mkIdent (f.getId ++ `lift)
  `(theorem $nm {F : Type _} [Num F] {sh i : List Nat} {a b : Arr F} {x y : F}
      (h1 : Lift sh i a x) (h2 : Lift sh i b y) : Lift sh i ($f a b) ($f x y) := by
        unfold $f; lift
    macro_rules | `(tactic| lift1) => `(tactic| with_reducible apply $nm))
macro "lift_lemma3" f:ident : command => do
  let nm := Lean.mkIdent (f.getId ++ `lift)
  `(theorem $nm {F : Type _} [Num F] {sh i : List Nat} {a b c : Arr F} {x y z : F}
      (h1 : Lift sh i a x) (h2 : Lift sh i b y) (h3 : Lift sh i c z) :
      Lift sh i ($f a b c) ($f x y z) := by unfold $f; lift
    macro_rules | `(tactic| lift1) => `(tactic| with_reducible apply $nm))
macro "lift_lemma4" f:ident : command => do
  let nm := Lean.mkIdent (f.getId ++ `lift)
  `(theorem $nm {F : Type _} [Num F] {sh i : List Nat} {a b c d : Arr F} {x y z t : F}
      (h1 : Lift sh i a x) (h2 : Lift sh i b y) (h3 : Lift sh i c z) (h4 : Lift sh i d t) :
      Lift sh i ($f a b c d) ($f x y z t) := by unfold $f; lift
    macro_rules | `(tactic| lift1) => `(tactic| with_reducible apply $nm))
macro "lift_lemma5" f:ident : command => do
  let nm := Lean.mkIdent (f.getId ++ `lift)
  `(theorem $nm {F : Type _} [Num F] {sh i : List Nat} {a b c d e : Arr F} {x y z t u : F}
      (h1 : Lift sh i a x) (h2 : Lift sh i b y) (h3 : Lift sh i c z) (h4 : Lift sh i d t)
      (h5 : Lift sh i e u) :
      Lift sh i ($f a b c d e) ($f x y z t u) := by unfold $f; lift
    macro_rules | `(tactic| lift1) => `(tactic| with_reducible apply $nm))

/-- The five outputs of an engine module's `sunpos` (the dict of e.g. `py_psa.py:58-59`). -/
structure Out (A : Type u) where
  zenith : A
  azimuth : A
  ecf : A
  declination : A
  eot : A

/-- A `sunpos` array result matches the cell result `o` at one cell: zenith and azimuth at index
`i` of shape `sh`, the time-only variables at index `it` of shape `sht`. -/
structure LiftOut {F : Type u} (sh i sht it : List Nat) (a : Out (Arr F)) (o : Out F) : Prop where
  zenith : Lift sh i a.zenith o.zenith
  azimuth : Lift sh i a.azimuth o.azimuth
  ecf : Lift sht it a.ecf o.ecf
  declination : Lift sht it a.declination o.declination
  eot : Lift sht it a.eot o.eot

end SW
