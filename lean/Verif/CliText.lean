/-
The text of the table that `sunwhere at` prints: formatting of numbers and clock times in `_cli/position.py:40-58`.

The rows `Day of week`, `Date` and `Time` are in `Verif/CliHead.lean`. Not modelled: the frame that `tabulate` draws around the
rows.
-/
import Verif.Cli
import Mathlib.Data.Nat.Log

namespace SW.Cli

/-- the last `n` decimal digits of `m`, leading zeros included -/
def padded : Nat → Nat → List Char
  | 0, _ => []
  | n + 1, m => padded n (m / 10) ++ [Char.ofNat (48 + m % 10)]

/-- `str(m)` of a natural number: decimal, without leading zeros -/
def natText (m : Nat) : List Char := padded (Nat.log 10 m + 1) m

/-- `str(n)` of an integer -/
def intText (n : Int) : List Char := (if n < 0 then ['-'] else []) ++ natText n.natAbs

/-- `f'{x:.kf}'` of a finite number: the nearest decimal with `k` digits after the point (half to even); negative numbers keep
their sign, even if all digits are zero. Simplified: a negative zero is not told from zero. -/
noncomputable def fixedText (k : Nat) (x : ℝ) : List Char :=
  let m := (rint (|x| * 10 ^ k)).toNat
  open Classical in
  (if x < 0 then ['-'] else []) ++ natText (m / 10 ^ k) ++ '.' :: padded k (m % 10 ^ k)

/-- `f'{x:.kf}'` -/
noncomputable def numText (k : Nat) : XR → List Char
  | .nan => "nan".toList
  | .fin x => fixedText k x

/-- `%H:%M:%S` of a wall-clock reading of `n` nanoseconds since 1970 -/
def clockText (n : Int) : List Char :=
  let s := ((n / 1000000000) % 86400).toNat
  padded 2 (s / 3600) ++ ':' :: (padded 2 (s / 60 % 60) ++ ':' :: padded 2 (s % 60))

/-- `f'{eot_min}:{eot_sec:.1f} min'`, position.py:34-36, 56: `int(eot)` and `60*(abs(eot) % 1)`; empty for NaN, at which `int`
has already failed -/
noncomputable def eotText : XR → List Char
  | .nan => []
  | .fin x => intText (rtrunc x) ++ ':' :: (fixedText 1 (60 * rpmod |x| 1) ++ " min".toList)

/-- A Python dict display: a key that comes again keeps its place and takes the later value. -/
def dictSet {β : Type} : List (String × β) → String → β → List (String × β)
  | [], k, v => [(k, v)]
  | (k', v') :: d, k, v => if k' = k then (k, v) :: d else (k', v') :: dictSet d k v
/-- `{k1: v1, k2: v2, ...}` -/
def dictOf {β : Type} (items : List (String × β)) : List (String × β) :=
  items.foldl (fun d p => dictSet d p.1 p.2) []

/-- the items from `Latitude` on, position.py:43-57. The degree sign is `°` (U+00B0). -/
noncomputable def items (lat lon : XR) (timezone : String) (r : Report XR) : List (String × List Char) :=
  [("Latitude", numText 4 lat ++ ['°']),
   ("Longitude", numText 4 lon ++ ['°']),
   ("Declination", numText 4 r.declination ++ ['°']),
   ("Sun-Earth distance", numText 4 r.distance ++ " AU".toList),
   ("Zenith", numText 4 r.zenith ++ ['°']),
   ("Elevation", numText 4 r.elevation ++ ['°']),
   ("Azimuth (0° south)", numText 4 r.azimuth ++ ['°']),
   ("Sunrise(UTC)", clockText r.sunriseUtc),
   ("Sunset(UTC)", clockText r.sunsetUtc),
   ("Sunrise(" ++ timezone ++ ")", clockText r.sunriseLocal),
   ("Sunset(" ++ timezone ++ ")", clockText r.sunsetLocal),
   ("Equation of time", eotText r.eot)]

/-- the rows of the printed table, from `Latitude` on: `pd.Series` of the dict -/
noncomputable def rows (lat lon : XR) (timezone : String) (r : Report XR) : List (String × List Char) :=
  dictOf (items lat lon timezone r)

end SW.Cli
