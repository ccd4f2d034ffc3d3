/-
Memory: which arrays the objects returned by the use cases share with their caller. A history is a sequence of things a program can do with
sunwhere: make arrays, call a use case with them, read properties and call methods of the objects, write into any array it holds.

Modelled: the numbers in the arrays (the data of the DataArrays). Not modelled: coordinates and attributes of the DataArrays, and the
pandas indexes `times` and `times_utc`, which are immutable.
-/
import Verif.Sunpos

namespace SW.Heap
open SW

/-- Public attributes and methods of `Sunpos` that return arrays, `_base.py:166-577`, with their arguments. -/
inductive Query (F : Type) where
  | latitude | longitude | ecf | eot | trueSolarTime | declination | dec | zenith | sza | elevation | azimuth | saa | cosz
  | eth (isc : F) (amCorrection : String)
  | airmass (parameterization : String)
  | sunrise (units : String)
  | sunset (units : String)
  | daylightLength
  | incidence (slope azimuth : F)

/-- Addresses of arrays: of numbers, or of times. -/
inductive Addr where
  | num (a : Nat)
  | tim (a : Nat)
  deriving DecidableEq, Repr

/-- Where a program has an array from: it made it, or got it from attribute or method `q` of the `k`-th object. -/
inductive Origin (F : Type) where
  | own
  | attr (k : Nat) (q : Query F)

/-- An object: its attributes that are not arrays (of `attrs` only those are used), and the first address of its seven arrays. -/
structure Obj (F : Type) where
  attrs : Sunpos F
  base : Nat

/-- The state of a program: the arrays in memory (those below `next` exist), the objects in the order they were made, and the arrays it holds. -/
structure State (F : Type) where
  next : Nat
  num : Nat → DA F
  tim : Nat → DA (Option Int)
  objs : List (Obj F)
  handles : List (Origin F × Addr)

section
variable {F : Type} [Scalar F]

/-- nothing made yet -/
def State.init : State F := ⟨0, fun _ => DA.scalar Num.nan, fun _ => DA.scalar none, [], []⟩

/-- What an object is now: its arrays as they are in memory (`_latitude`, `_longitude`, `_ecf`, `_eot`, `_declination`, `_zenith`, `_azimuth`,
`_base.py:100-160`). -/
def State.view (st : State F) (o : Obj F) : Sunpos F :=
  { o.attrs with
    latitude := st.num o.base, longitude := st.num (o.base + 1), ecf := st.num (o.base + 2), eot := st.num (o.base + 3),
    declination := st.num (o.base + 4), zenith := st.num (o.base + 5), azimuth := st.num (o.base + 6) }

/-- the value of an attribute or method, `_base.py:166-577` -/
def Query.eval (q : Query F) (w : World F) (s : Sunpos F) : Except PyErr (Sunpos.Event F) :=
  match q with
  | .latitude => .ok (.angle s.latitude)
  | .longitude => .ok (.angle s.longitude)
  | .ecf => .ok (.angle s.ecf)
  | .eot => .ok (.angle s.eot)
  | .trueSolarTime => .ok (.time (s.trueSolarTime w))
  | .declination | .dec => .ok (.angle s.decDeg)
  | .zenith | .sza => .ok (.angle s.zenithDeg)
  | .elevation => .ok (.angle s.elevation)
  | .azimuth | .saa => .ok (.angle s.azimuthDeg)
  | .cosz => .ok (.angle s.cosz)
  | .eth isc c => (s.eth isc c).map .angle
  | .airmass p => (s.airmass p).map .angle
  | .sunrise u => s.sunrise w u
  | .sunset u => s.sunset w u
  | .daylightLength => (s.daylightLength w).map .angle
  | .incidence slope az => .ok (.angle (s.incidence w slope az))

/-- The array of the object that an attribute hands out: `latitude`, `longitude`, `ecf` and `eot` return
`self._x.rename(..).assign_attrs(..)` (`_base.py:166-176, 236-249`), a new DataArray on the same data; everything else is computed into new
data. -/
def Query.shared (q : Query F) (o : Obj F) : Option Nat :=
  match q with
  | .latitude => some o.base
  | .longitude => some (o.base + 1)
  | .ecf => some (o.base + 2)
  | .eot => some (o.base + 3)
  | _ => none

/-- the argument latitude or longitude: a list or number written in the program, or an array it holds -/
inductive Arg (F : Type) where
  | lit (c : Coord F)
  | handle (i : Nat)

/-- a DataArray or array as `np.array(latitude, ndmin=1)` sees it -/
def coordOf (a : DA F) : Coord F :=
  match a.dims with
  | [] => .scalar (a.get fun _ => 0)
  | [(_, n)] => .vec ((List.range n).map fun k => a.get fun _ => k)
  | _ :: _ :: l => .nd l.length

/-- the value of an argument; an array of times is not one (its conversion to float is not modelled: TypeError) -/
def State.arg (st : State F) : Arg F → Except PyErr (Coord F)
  | .lit c => .ok c
  | .handle i => match st.handles[i]? with
    | some (_, .num a) => .ok (coordOf (st.num a))
    | _ => .error .typeError

/-- positions equal along the dimensions of an array -/
def sameCell (ds : List (Dim × Nat)) (e e' : Dim → Nat) : Bool := ds.all fun p => e p.1 == e' p.1
/-- `e` is a cell of the array (IndexError otherwise) -/
def inBounds (ds : List (Dim × Nat)) (e : Dim → Nat) : Bool := ds.all fun p => decide (e p.1 < p.2)
/-- `a[e] = x` -/
def setCell {G : Type} (a : DA G) (e : Dim → Nat) (x : G) : DA G :=
  ⟨a.dims, fun e' => if sameCell a.dims e' e then x else a.get e'⟩

/-- What a program can do. -/
inductive Op (F : Type) where
  /-- make an array of numbers -/
  | new (l : List F)
  /-- call a use case -/
  | call (uc : UseCase) (w : World F) (times : Times) (latitude longitude : Arg F) (algorithm : String) (refraction : PyVal) (engine : String)
  /-- read an attribute, or call a method, of the `k`-th object -/
  | get (k : Nat) (q : Query F) (w : World F)
  /-- write a number into a cell of the `i`-th array held -/
  | write (i : Nat) (e : Dim → Nat) (x : F)
  /-- write a time into a cell of the `i`-th array held -/
  | writeTime (i : Nat) (e : Dim → Nat) (x : Option Int)

/-- a new array of numbers -/
def State.alloc (st : State F) (a : DA F) : State F := { st with next := st.next + 1, num := Function.update st.num st.next a }
/-- a new array of times -/
def State.allocTime (st : State F) (a : DA (Option Int)) : State F :=
  { st with next := st.next + 1, tim := Function.update st.tim st.next a }
/-- one more array held -/
def State.hold (st : State F) (g : Origin F) (a : Addr) : State F := { st with handles := st.handles ++ [(g, a)] }

/-- A use case that returned `s`: its arguments were copied (`np.array`, usecases.py:85-86, 182-183, 271-272 and `_base.py:74-75`), and so were
the results (`np.array`, `_base.py:86-90`): seven new arrays. -/
def State.make (st : State F) (s : Sunpos F) : State F :=
  { (((((((st.alloc s.latitude).alloc s.longitude).alloc s.ecf).alloc s.eot).alloc s.declination).alloc s.zenith).alloc s.azimuth)
    with objs := st.objs ++ [⟨s, st.next⟩] }

/-- One step; one that raises an exception changes nothing. -/
def State.step (st : State F) (op : Op F) : State F :=
  match op with
  | .new l => (st.alloc (DA.along .location l.length (fun k => l.getD k Num.nan))).hold .own (.num st.next)
  | .call uc w times latitude longitude algorithm refraction engine =>
    match st.arg latitude, st.arg longitude with
    | .ok lat, .ok lon =>
      match SW.call uc w times lat lon algorithm refraction engine with
      | .ok s => st.make s
      | .error _ => st
    | _, _ => st
  | .get k q w =>
    match st.objs[k]? with
    | none => st
    | some o =>
      match q.shared o with
      | some a => st.hold (.attr k q) (.num a)
      | none =>
        match q.eval w (st.view o) with
        | .ok (.angle a) => (st.alloc a).hold (.attr k q) (.num st.next)
        | .ok (.time a) => (st.allocTime a).hold (.attr k q) (.tim st.next)
        | .error _ => st
  | .write i e x =>
    match st.handles[i]? with
    | some (_, .num a) =>
      if inBounds (st.num a).dims e then { st with num := Function.update st.num a (setCell (st.num a) e x) } else st
    | _ => st
  | .writeTime i e x =>
    match st.handles[i]? with
    | some (_, .tim a) =>
      if inBounds (st.tim a).dims e then { st with tim := Function.update st.tim a (setCell (st.tim a) e x) } else st
    | _ => st

/-- A history. -/
def State.run (st : State F) (ops : List (Op F)) : State F := ops.foldl State.step st

/-- What attribute or method `q` of the `k`-th object gives now. -/
def State.observe (st : State F) (k : Nat) (q : Query F) (w : World F) : Option (Except PyErr (Sunpos.Event F)) :=
  (st.objs[k]?).map fun o => q.eval w (st.view o)

/-- What the `i`-th array held contains now. -/
def State.content (st : State F) (i : Nat) : Option (Sunpos.Event F) :=
  (st.handles[i]?).map fun h => match h.2 with
    | .num a => .angle (st.num a)
    | .tim a => .time (st.tim a)

end
end SW.Heap
