import Mathlib.Algebra.Order.Field.Rat

/-
Calendar arithmetic: `yearday`, `numdays`, `leapyear` (smrf/envphys/sunang.py 400-473),
`is_leap_year`, `water_day`, `date_range` (smrf/utils/utils.py 164-202, 470-481).

Simplification: all times of a run are taken in one fixed UTC offset (`time_zone = utc` or a standard
time); `datetime` is year, month, day and second of the day; seconds are integers.
-/

namespace Verif.Calendar

/-- `leapyear` (sunang.py 455-473) and `is_leap_year` (utils.py 201-202). -/
def leapyear (y : Nat) : Bool := (y % 4 == 0 && y % 100 != 0) || y % 400 == 0

/-- `NDAYS` (sunang.py 441). -/
def ndays : List Nat := [31, 28, 31, 30, 31, 30, 31, 31, 30, 31, 30, 31]

/-- `numdays` (sunang.py 428-452); `none` when an assertion fails. -/
def numdays (year month : Nat) : Option Nat :=
  if 1 ≤ month ∧ month ≤ 12 then
    match ndays[month - 1]? with
    | none => none
    | some n => some (if month == 2 && leapyear year then n + 1 else n)
  else none

/-- The loop `for mon in range(month-1, 0, -1): yday += numdays(year, mon)` (sunang.py 422-423). -/
def addMonths (year : Nat) : Nat → Nat → Option Nat
  | 0, yday => some yday
  | mon + 1, yday => match numdays year (mon + 1) with
    | none => none
    | some n => addMonths year mon (yday + n)

/-- `yearday` (sunang.py 400-425); `none` when an assertion fails. -/
def yearday (year month day : Nat) : Option Nat :=
  match numdays year month with
  | none => none
  | some n => if 1 ≤ day ∧ day ≤ n then addMonths year (month - 1) day else none

/-- A `datetime`. -/
structure DT where
  year : Nat
  month : Nat
  day : Nat
  sec : Nat
  deriving DecidableEq

/-- Days before month `m` of a non-leap year (Python's `datetime._DAYS_BEFORE_MONTH`). -/
def daysBefore : Nat → Nat
  | 1 => 0 | 2 => 31 | 3 => 59 | 4 => 90 | 5 => 120 | 6 => 151
  | 7 => 181 | 8 => 212 | 9 => 243 | 10 => 273 | 11 => 304 | _ => 334

/-- Python's `date.toordinal`: day number with 1 January of year 1 as day 1. -/
def ordinal (y m d : Nat) : Int :=
  let y1 : Int := (y : Int) - 1
  y1 * 365 + y1 / 4 - y1 / 100 + y1 / 400 + daysBefore m + (if 2 < m ∧ leapyear y then 1 else 0) + d

/-- Seconds since the beginning of year 1; differences and comparisons of `datetime`s go through
this number. -/
def DT.instant (t : DT) : Int := ordinal t.year t.month t.day * 86400 + t.sec

/-- `water_day` (utils.py 164-198): decimal day from the start of the water year and the water year.
`d.days + d.seconds/86400.0` for a `timedelta` normalised to `0 <= seconds < 86400`. -/
def waterDay (t : DT) : ℚ × Nat :=
  let testDate : DT := ⟨t.year, 10, 1, 0⟩
  let wy := if t.instant < testDate.instant then t.year else t.year + 1
  let start : DT := ⟨wy - 1, 10, 1, 0⟩
  let d := t.instant - start.instant
  (((d / 86400 : Int) : ℚ) + ((d % 86400 : Int) : ℚ) / 86400, wy)

/-- The loop behind `pd.date_range(start, end, freq)` for a fixed frequency: the points
`start + k*step` not after `end`. Times are integers (for instance minutes). -/
def dateRangeFrom (start stop : Int) (step : Nat) : Nat → List Int
  | 0 => []
  | fuel + 1 => if start ≤ stop then start :: dateRangeFrom (start + step) stop step fuel else []

/-- `date_range` (utils.py 470-481); a zero step is rejected. The number of turns is at most
`stop - start + 1`. -/
def dateRange (start stop : Int) (step : Nat) : Option (List Int) :=
  if step = 0 then none else some (dateRangeFrom start stop step ((stop - start + 1).toNat))

end Verif.Calendar
