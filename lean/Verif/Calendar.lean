/-
numpy's conversion of a `datetime64` day number to a calendar date and back, as used by
`libspa/py_iqbal.py:108-115` (and its five copies). The algorithms are those of numpy
(`numpy/core/src/multiarray/datetime.c`: `days_to_yearsdays`, `set_datetimestruct_days`,
`get_datetimestruct_days`); numpy itself is not in /repo.
-/
import Mathlib.Tactic.Linarith

namespace SW.Cal

/-- numpy `is_leapyear` -/
def isLeap (y : Int) : Bool := y % 4 == 0 && (y % 100 != 0 || y % 400 == 0)

/-- last refinement of `days_to_yearsdays`: days within a 4-year cycle -/
def ydStep3 (year days : Int) : Int × Int :=
  if 366 ≤ days then (year + (days - 1) / 365, (days - 1) % 365) else (year, days)
/-- days within a century -/
def ydStep2 (year days : Int) : Int × Int :=
  if 365 ≤ days then ydStep3 (year + 4 * ((days + 1) / 1461)) ((days + 1) % 1461)
  else (year, days)
/-- days within a 400-year cycle -/
def ydStep1 (year days : Int) : Int × Int :=
  if 366 ≤ days then ydStep2 (year + 100 * ((days - 1) / 36524)) ((days - 1) % 36524)
  else (year, days)
/-- numpy `days_to_yearsdays`: year and zero-based day within the year, from days since
1970-01-01. The C code splits the 400-year cycles by truncated division with a correction for
negative days; that is floored division, written here `/` and `%`. -/
def yearsDays (d : Int) : Int × Int :=
  let days := d - (365 * 30 + 7)
  let r := ydStep1 (400 * (days / 146097)) (days % 146097)
  (r.1 + 2000, r.2)

/-- numpy `_days_per_month_table` -/
def monthLengths (leap : Bool) : List Int :=
  [31, if leap then 29 else 28, 31, 30, 31, 30, 31, 31, 30, 31, 30, 31]

/-- month loop of `set_datetimestruct_days`: first month `m` whose length exceeds the remaining
days -/
def monthLoop : List Int → Int → Int → Int
  | [], m, _ => m
  | l :: ls, m, d => if d < l then m else monthLoop ls (m + 1) (d - l)

/-- datetime64[Y] value plus 1970 of a day number -/
def yearOf (d : Int) : Int := (yearsDays d).1
/-- calendar month (1..12) of a day number -/
def monthOf (d : Int) : Int := monthLoop (monthLengths (isLeap (yearOf d))) 1 (yearsDays d).2

/-- numpy `get_datetimestruct_days` for the first day of month `m` of year `y` (truncated divisions
written as in the C source) -/
def daysOf (y m : Int) : Int :=
  let year := y - 1970
  let days := year * 365
  let days :=
    if 0 ≤ days then
      days + Int.tdiv (year + 1) 4 - Int.tdiv (year + 69) 100 + Int.tdiv (year + 369) 400
    else
      days + Int.tdiv (year - 2) 4 - Int.tdiv (year - 30) 100 + Int.tdiv (year - 30) 400
  days + ((monthLengths (isLeap y)).take (m - 1).toNat).sum

end SW.Cal

namespace SW.Iqbal
open SW.Cal

/-! ### `py_iqbal.py:108-115` (same lines 166-173, 225-232; `ne_iqbal.py:112-119`, 170-177, 231-238)
for one timestamp `t` (whole seconds) -/

/-- `times.astype('M8[D]')` -/
def dayNo (t : Int) : Int := t / 86400
/-- `(1970+Y).astype(np.int32)` -/
def year (t : Int) : Int := yearOf (dayNo t)
/-- `((M-Y)+1).astype(np.int32)`: `M` counts months since 1970-01, `Y` years since 1970, converted to
months by the subtraction -/
def month (t : Int) : Int :=
  let Y := yearOf (dayNo t) - 1970
  let M := Y * 12 + (monthOf (dayNo t) - 1)
  (M - Y * 12) + 1
/-- `((D-M)+1).astype(np.int32)`: `M` is converted to the day number of the first of its month -/
def day (t : Int) : Int := (dayNo t - daysOf (yearOf (dayNo t)) (monthOf (dayNo t))) + 1
/-- `((times-D).astype('m8[h]'))` -/
def hour (t : Int) : Int := (t - 86400 * (t / 86400)) / 3600
/-- `((times-h).astype('m8[m]'))` -/
def minute (t : Int) : Int := (t - 3600 * (t / 3600)) / 60
/-- `((times-m).astype('m8[s]'))` -/
def second (t : Int) : Int := t - 60 * (t / 60)

/-- `FIRST_DAY_OF_MONTH`, py_iqbal.py:62, ne_iqbal.py:63 -/
def firstDayOfMonth : List Int := [0, 31, 59, 90, 120, 151, 181, 212, 243, 273, 304, 334, 365]
/-- `bisextile`, py_iqbal.py:65, ne_iqbal.py:66 -/
def bisextile (y : Int) : Bool := ((y % 4 == 0) && (y % 100 != 0)) || (y % 400 == 0)
/-- `doy` of `day_angle`, py_iqbal.py:64-66, ne_iqbal.py:65-67 -/
def doy (t : Int) : Int :=
  let d := day t + firstDayOfMonth.getD (month t - 1).toNat 0
  if bisextile (year t) && decide (2 < month t) then d + 1 else d

end SW.Iqbal
