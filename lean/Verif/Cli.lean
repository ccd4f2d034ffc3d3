/-
The command line interface: `_cli/main.py` and `_cli/position.py`.
-/
import Verif.Sunpos

namespace SW.Cli

/-! ### coordinates, `_cli/main.py:22-35` -/

/-- A Python float, without rounding: NaN, an infinity or a real number. -/
inductive PyFloat where
  | nan
  | inf (negative : Bool)
  | fin (x : ℝ)

/-- `-x` -/
noncomputable def PyFloat.neg : PyFloat → PyFloat
  | .nan => .nan
  | .inf b => .inf (!b)
  | .fin x => .fin (-x)

/-- `lo <= x` for a finite `lo` -/
def PyFloat.ge (lo : ℝ) : PyFloat → Prop
  | .nan => False
  | .inf b => b = false
  | .fin x => lo ≤ x
/-- `x <= hi` -/
def PyFloat.le (hi : ℝ) : PyFloat → Prop
  | .nan => False
  | .inf b => b = true
  | .fin x => x ≤ hi
/-- `x < hi` -/
def PyFloat.lt (hi : ℝ) : PyFloat → Prop
  | .nan => False
  | .inf b => b = true
  | .fin x => x < hi

/-- `c.casefold() == 'n'` (Unicode case folding: no other character folds to `n`) -/
def foldsN (c : Char) : Bool := c == 'N' || c == 'n'
/-- `c.casefold() == 's'`; the long s (U+017F) folds to `s`, too -/
def foldsS (c : Char) : Bool := c == 'S' || c == 's' || c == 'ſ'
/-- `c.casefold() == 'e'` -/
def foldsE (c : Char) : Bool := c == 'E' || c == 'e'
/-- `c.casefold() == 'w'` -/
def foldsW (c : Char) : Bool := c == 'W' || c == 'w'

open Classical in
/-- `assert p` and `return x` -/
noncomputable def assertThen {α : Type} (p : Prop) (x : α) : Except PyErr α :=
  if p then .ok x else .error .assertionError

/-- `parse_latitude`, main.py:22-27; `float` is Python's `float` of a string (`none` where it raises
ValueError) -/
noncomputable def parseLatitude (float : List Char → Option PyFloat) (s : List Char) :
    Except PyErr PyFloat :=
  match s.getLast? with
  | none => .error .indexError
  | some c =>
    if (foldsN c || foldsS c) = false then .error .assertionError
    else
      match float s.dropLast with
      | none => .error .valueError
      | some x =>
        let latitude := if foldsN c then x else x.neg
        assertThen (latitude.ge (-90) ∧ latitude.le 90) latitude

/-- `parse_longitude`, main.py:30-35 -/
noncomputable def parseLongitude (float : List Char → Option PyFloat) (s : List Char) :
    Except PyErr PyFloat :=
  match s.getLast? with
  | none => .error .indexError
  | some c =>
    if (foldsE c || foldsW c) = false then .error .assertionError
    else
      match float s.dropLast with
      | none => .error .valueError
      | some x =>
        let longitude := if foldsE c then x else x.neg
        assertThen (longitude.ge (-180) ∧ longitude.lt 180) longitude

/-! ### Python's `float` of a string

The grammar of decimal literals, with underscores between digits. Simplified: only ASCII digits and
ASCII white space (Python also takes the other Unicode digits and spaces), and no rounding to
binary64. -/

/-- value of an ASCII digit -/
def digit? (c : Char) : Option Nat := if c.isDigit then some (c.toNat - 48) else none

/-- digits with single underscores between them: their value and their number; `prev` tells that a digit came
just before -/
def digitsAux : List Char → Bool → Nat → Nat → Option (Nat × Nat)
  | [], prev, v, n => if prev || n == 0 then some (v, n) else none
  | '_' :: cs, prev, v, n => if prev then digitsAux cs false v n else none
  | c :: cs, _, v, n =>
    match digit? c with
    | some d => digitsAux cs true (10 * v + d) (n + 1)
    | none => none
/-- a possibly empty digit string -/
def digits (cs : List Char) : Option (Nat × Nat) := digitsAux cs false 0 0

/-- split at the first character satisfying `p` -/
def splitAt1 (p : Char → Bool) : List Char → List Char × Option (List Char)
  | [] => ([], none)
  | c :: cs => if p c then ([], some cs) else ((c :: (splitAt1 p cs).1), (splitAt1 p cs).2)

/-- sign and the rest -/
def signed : List Char → Bool × List Char
  | '-' :: cs => (true, cs)
  | '+' :: cs => (false, cs)
  | cs => (false, cs)

/-- exponent -/
def exponent (cs : List Char) : Option Int :=
  let (neg, r) := signed cs
  match digits r with
  | some (v, n) => if n == 0 then none else some (if neg then -(v : Int) else v)
  | none => none

/-- mantissa -/
noncomputable def mantissa (cs : List Char) : Option ℝ :=
  match splitAt1 (· == '.') cs with
  | (a, none) =>
    match digits a with
    | some (v, n) => if n == 0 then none else some v
    | none => none
  | (a, some b) =>
    match digits a, digits b with
    | some (v, n), some (w, m) => if n + m == 0 then none else some (v + w / (10 : ℝ) ^ m)
    | _, _ => none

/-- unsigned literal -/
noncomputable def unsigned (cs : List Char) : Option PyFloat :=
  let l := cs.map Char.toLower
  if l = "nan".toList then some .nan
  else if l = "inf".toList ∨ l = "infinity".toList then some (.inf false)
  else
    match splitAt1 (fun c => c == 'e' || c == 'E') cs with
    | (a, none) => (mantissa a).map .fin
    | (a, some b) =>
      match mantissa a, exponent b with
      | some m, some e => some (.fin (m * (10 : ℝ) ^ e))
      | _, _ => none

/-- `str.strip` -/
def strip (cs : List Char) : List Char :=
  ((cs.dropWhile Char.isWhitespace).reverse.dropWhile Char.isWhitespace).reverse

/-- `float(s)` -/
noncomputable def pyFloat (s : List Char) : Option PyFloat :=
  let (neg, r) := signed (strip s)
  (unsigned r).map fun x => if neg then x.neg else x

/-! ### the equation of time, `_cli/position.py:34-36`, `56` -/

/-- what is printed of the equation of time: minutes, and tenths of a second. `int(eot)` (ValueError
for NaN); `60*(abs(eot) % 1)` printed with `.1f` (round half to even of the tenths) -/
noncomputable def eotDisplay : XR → Except PyErr (Int × Int)
  | .nan => .error .valueError
  | .fin x => .ok (rtrunc x, rint (10 * (60 * rpmod |x| 1)))

/-! ### `calculate_position`, `_cli/position.py:16-60` -/

/-- a time stamp as `pd.to_datetime` returns it: the wall-clock reading (ns, `none` for NaT), and whether
it is time-zone aware -/
structure CliStamp where
  wall : Option Int
  aware : Bool

/-- What the CLI takes from its environment: the system clock (`datetime.now()`, naive), the parser of
`pd.to_datetime`, and `tz_localize(timezone)` (UTC instant of a wall-clock reading, with the time zone
object; or an error for unknown zones, non-existent and ambiguous readings). -/
structure Env (F : Type) extends World F where
  now : Int
  toDatetime : String → Except PyErr CliStamp
  tzLocalize : String → Option Int → Except PyErr (Tz × Option Int)

/-- the numbers of the printed table, before they are formatted -/
structure Report (F : Type) where
  declination : F
  distance : F
  zenith : F
  elevation : F
  azimuth : F
  sunriseUtc : Int
  sunsetUtc : Int
  sunriseLocal : Int
  sunsetLocal : Int
  eot : F

variable {F : Type} [Scalar F]

/-- `pd.to_datetime(time)` with the special value `now`, position.py:21-25 -/
def Env.stamp (env : Env F) (time : String) : Except PyErr CliStamp :=
  if time = "now" then .ok ⟨some env.now, false⟩ else env.toDatetime time

/-- positions of the only time and location -/
def origin : Dim → Nat := fun _ => 0

/-- `pd.Timestamp(sw.sunrise(units).isel(time=0, location=0).item())`, position.py:30-33 -/
def firstEvent (r : Except PyErr (Sunpos.Event F)) : Except PyErr (Option Int) :=
  match r with
  | .ok (.time t) => .ok (t.get origin)
  | .ok (.angle _) => .error .typeError
  | .error e => .error e

/-- `f'{x.tz_localize(sw.timezone):%H:%M:%S}'`, position.py:52-55: a NaT has no `strftime`
(ValueError); localisation may fail (`None` leaves the reading naive); what is printed is the
wall-clock reading -/
def printed (env : Env F) (timezone : Option String) (x : Option Int) : Except PyErr Int :=
  match x with
  | none => .error .valueError
  | some n =>
    match timezone with
    | none => .ok n
    | some z =>
      match env.tzLocalize z (some n) with
      | .ok _ => .ok n
      | .error e => .error e

/-- `calculate_position`. Not modelled: the date and time rows (`strftime`) and the formatting of the
numbers. -/
def calculatePosition (env : Env F) (time : String) (lat lon : F) (algorithm : String)
    (refraction : PyVal) (timezone : String) : Except PyErr (Report F) := do
  let st ← env.stamp time
  let (tz, utc) ← env.tzLocalize timezone st.wall
  let sw ← sites env.toWorld ⟨false, some tz, [utc]⟩ (.scalar lat) (.scalar lon) algorithm refraction
    "numexpr"
  let srUtc ← firstEvent (sw.sunrise env.toWorld "utc")
  let ssUtc ← firstEvent (sw.sunset env.toWorld "utc")
  let srLocal ← firstEvent (sw.sunrise env.toWorld "local")
  let ssLocal ← firstEvent (sw.sunset env.toWorld "local")
  let eot := sw.eot.get origin
  -- `int(eot)`
  if Scalar.isNan eot then throw .valueError
  -- `pd.to_datetime(time).tz_localize(timezone)`: TypeError if already aware
  if st.aware then throw .typeError
  let _ ← env.tzLocalize timezone st.wall
  let srUtc ← printed env sw.timezone srUtc
  let ssUtc ← printed env sw.timezone ssUtc
  let srLocal ← printed env sw.timezone srLocal
  let ssLocal ← printed env sw.timezone ssLocal
  return { declination := sw.decDeg.get origin
           distance := 1 / Num.rpow (sw.ecf.get origin) 0.5
           zenith := sw.zenithDeg.get origin
           elevation := sw.elevation.get origin
           azimuth := sw.azimuthDeg.get origin
           sunriseUtc := srUtc, sunsetUtc := ssUtc, sunriseLocal := srLocal, sunsetLocal := ssLocal
           eot := eot }

/-- `at`, main.py:38-52: any exception ends the program with exit code 1 -/
def at' (env : Env F) (time : String) (lat lon : F) (algorithm : String) (refraction : Bool)
    (timezone : String) : Except Nat (Report F) :=
  match calculatePosition env time lat lon algorithm (if refraction then .pyTrue else .pyFalse)
    timezone with
  | .ok r => .ok r
  | .error _ => .error 1

end SW.Cli
