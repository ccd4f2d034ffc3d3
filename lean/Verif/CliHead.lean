/-
The first three rows of the table that `sunwhere at` prints, `_cli/position.py:38-43`: day of the week, date and time, by
`Timestamp.strftime`; and the whole table.

`strftime` takes the names of weekdays and months, and the abbreviation of the time zone, from the system: they are parameters.
-/
import Verif.CliText
import Verif.Calendar

namespace SW.Cli
open SW.Sunpos (dayNs)

/-- what `strftime` takes from the system: `%A` (0 is Monday), `%B` (1 is January), and `%Z` at an instant -/
structure Locale where
  weekday : Nat → List Char
  month : Nat → List Char
  abbreviation : Tz → Int → List Char

/-- `str.capitalize` (of ASCII text) -/
def capitalize : List Char → List Char
  | [] => []
  | c :: cs => c.toUpper :: cs.map Char.toLower

/-- `str.split()`: the words between blanks; `acc` holds the letters of the word being read, in reverse -/
def words : List Char → List Char → List (List Char)
  | acc, [] => if acc.isEmpty then [] else [acc.reverse]
  | acc, c :: cs =>
    if c.isWhitespace then (if acc.isEmpty then words [] cs else acc.reverse :: words [] cs) else words (c :: acc) cs

/-- number of the day (0 is 1970-01-01) of a wall-clock reading of `n` nanoseconds since 1970 -/
def dayOf (n : Int) : Int := n / dayNs

/-- Python's `weekday()` of the day with number `n`: `(toordinal() + 6) % 7`, where `toordinal()` of 1970-01-01 is 719163 -/
def weekdayOf (n : Int) : Nat := ((719163 + n + 6) % 7).toNat

/-- `ts.strftime("%A").capitalize()`, position.py:40 -/
def weekdayText (loc : Locale) (wall : Int) : List Char := capitalize (loc.weekday (weekdayOf (dayOf wall)))

/-- `' '.join(map(str.capitalize, ts.strftime("%d %B %Y").split()))`, position.py:41 -/
def dateText (loc : Locale) (wall : Int) : List Char :=
  let n := dayOf wall
  let y := Cal.yearOf n
  let m := Cal.monthOf n
  let d := n - Cal.daysOf y m + 1
  [' '].intercalate ((words [] (padded 2 d.toNat ++ ' ' :: (loc.month m.toNat ++ ' ' :: intText y))).map capitalize)

/-- `ts.strftime("%H:%M:%S(%Z)")`, position.py:42 -/
def timeText (loc : Locale) (tz : Tz) (utc : Int) : List Char :=
  clockText (utc + tz.off utc) ++ '(' :: (loc.abbreviation tz utc ++ [')'])

/-- the items of the dict before `Latitude`, position.py:40-42; `ts` is the instant `utc` in the zone `tz` -/
def headItems (loc : Locale) (tz : Tz) (utc : Int) : List (String × List Char) :=
  [("Day of week", weekdayText loc (utc + tz.off utc)),
   ("Date", dateText loc (utc + tz.off utc)),
   ("Time", timeText loc tz utc)]

/-- The whole table: `calculate_position` (C51) and the formatting of its results, position.py:16-60, without the frame
around the rows. `ts` (line 38) is `pd.to_datetime(time).tz_localize(timezone)`; `NaT.strftime` is a ValueError. -/
noncomputable def table (loc : Locale) (env : Env XR) (time : String) (lat lon : XR) (algorithm : String) (refraction : Bool)
    (timezone : String) : Except PyErr (List (String × List Char)) := do
  let r ← calculatePosition env time lat lon algorithm (if refraction then .pyTrue else .pyFalse) timezone
  let st ← env.stamp time
  let (tz, utc) ← env.tzLocalize timezone st.wall
  match utc with
  | none => throw .valueError
  | some u => return dictOf (headItems loc tz u ++ items lat lon timezone r)

/-- the C locale (and any English one) -/
def english (abbreviation : Tz → Int → List Char) : Locale where
  weekday k := (["Monday", "Tuesday", "Wednesday", "Thursday", "Friday", "Saturday", "Sunday"].getD k "").toList
  month k := (["", "January", "February", "March", "April", "May", "June", "July", "August", "September", "October", "November",
    "December"].getD k "").toList
  abbreviation := abbreviation

end SW.Cli
