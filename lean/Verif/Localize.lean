/-
`pd.DatetimeIndex.tz_localize(zone, ambiguous='infer')` and `.tz_convert('UTC')`, as the constructor uses them (`_base.py:68-72`): what
`Verif/Sunpos.lean` leaves open as `World.localize`.

pandas is not in /repo. This models its algorithm (pandas/_libs/tslibs/tzconversion.pyx, `tz_localize_to_utc`, `_get_utc_bounds`,
`_get_dst_hours`), the zone being given by its offset at each instant. All its exceptions (AmbiguousTimeError, NonExistentTimeError) are
`localizeError`. Not modelled: overflow at the ends of datetime64[ns].
-/
import Verif.Sunpos

namespace SW.Localize

/-- a day, ns -/
def day : Int := 86400000000000

/-- `_get_utc_bounds`: the instant with the offset in force a day before the reading, if it has that reading -/
def left (off : Int → Int) (x : Int) : Option Int := if off (x - off (x - day)) = off (x - day) then some (x - off (x - day)) else none
/-- the same with the offset in force a day after -/
def right (off : Int → Int) (x : Int) : Option Int := if off (x - off (x + day)) = off (x + day) then some (x - off (x + day)) else none

/-- what is known of a reading: one instant (or NaT), two, or none -/
inductive Reading where
  | one (u : Option Int)
  | two (a b : Int)
  | never

/-- the cases of `tz_localize_to_utc` -/
def classify (off : Int → Int) : Option Int → Reading
  | none => .one none
  | some x =>
    match left off x, right off x with
    | some a, some b => if a = b then .one (some a) else .two a b
    | some a, none => .one (some a)
    | none, some b => .one (some b)
    | none, none => .never

/-- the ambiguous readings at the head, and the rest: `np.array_split` into contiguous chunks -/
def span : List Reading → List (Int × Int) × List Reading
  | .two a b :: l => ((a, b) :: (span l).1, (span l).2)
  | l => ([], l)

theorem span_length (l : List Reading) : (span l).2.length ≤ l.length := by
  induction l with
  | nil => simp [span]
  | cons x l ih => cases x <;> simp [span]; omega

/-- `_get_dst_hours` for one chunk: `switches` are the places where the first candidate does not increase; there has to be exactly one, up to it the
first candidates are taken and then the second ones -/
def switches (ab : List (Int × Int)) : List Nat :=
  (List.range (ab.length - 1)).filter fun k => (ab.getD (k + 1) (0, 0)).1 - (ab.getD k (0, 0)).1 ≤ 0
def infer (ab : List (Int × Int)) : Except PyErr (List (Option Int)) :=
  match switches ab with
  | [k] => .ok (((ab.take (k + 1)).map fun p => some p.1) ++ (ab.drop (k + 1)).map fun p => some p.2)
  | _ => .error .localizeError

/-- all readings -/
def resolve : List Reading → Except PyErr (List (Option Int))
  | [] => .ok []
  | .one u :: l => do return u :: (← resolve l)
  | .never :: _ => .error .localizeError
  | .two a b :: l => do
    let r ← infer ((a, b) :: (span l).1)
    return r ++ (← resolve (span l).2)
termination_by l => l.length
decreasing_by
  · simp
  · have := span_length l; simp; omega

/-- `tz_localize(zone, ambiguous='infer').tz_convert('UTC')`: the instants of the readings -/
def localize (off : Int → Int) (wall : List (Option Int)) : Except PyErr (List (Option Int)) := resolve (wall.map (classify off))

end SW.Localize
