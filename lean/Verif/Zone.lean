import Verif.Calendar
import Verif.Output
import Mathlib.Data.List.Dedup

/-!
Model of what the code does with a time zone: `_setup_date_and_time` and the decay dates of `smrf/framework/model_framework.py`, the rows of
`smrf/data/csv.py`, `water_day` of `smrf/utils/utils.py` and the time of a record in `smrf/output/output_netcdf.py`.

An instant is a number of seconds in UTC, a wall time a number of seconds since the same date on the clock of the zone. A zone of pytz is
the offset of the zone object itself (the first one of the zone, usually the local mean time) and the changes in order. What is assumed of
pandas and pytz: `tz_localize` raises for a wall time that occurs twice or never, `date_range` in minutes counts instants, `replace(tzinfo=zone)`
uses the first offset, `pytz.timezone` raises for a name that is not in the database.
-/

namespace Verif.Zone

open Verif.Calendar

/-- One change of the clock: the instant, the new offset in seconds and the new abbreviation. -/
structure Change where
  at' : Int
  offset : Int
  name : String
  deriving DecidableEq

/-- A zone. -/
structure Tz where
  first : Int
  firstName : String
  changes : List Change

/-- The last change not after `t`. -/
def Tz.last (z : Tz) (t : Int) : Option Change := (z.changes.filter fun c => c.at' ≤ t).getLast?

/-- The offset at an instant. -/
def Tz.offset (z : Tz) (t : Int) : Int := match z.last t with
  | some c => c.offset
  | none => z.first

/-- The abbreviation at an instant: `tzname()`. -/
def Tz.name (z : Tz) (t : Int) : String := match z.last t with
  | some c => c.name
  | none => z.firstName

/-- The clock at an instant: `date_time.replace(tzinfo=None)`. output_netcdf.py 167. -/
def Tz.wall (z : Tz) (t : Int) : Int := t + z.offset t

inductive Err where
  | ambiguous
  | nonexistent
  | unknownZone
  | zeroStep
  deriving DecidableEq

/-- All instants at which the clock shows `n`. -/
def Tz.instants (z : Tz) (n : Int) : List Int :=
  ((z.first :: z.changes.map Change.offset).dedup.map fun o => n - o).filter fun t => z.wall t = n

/-- `tz_localize(zone)` of a naive time, with its defaults. model_framework.py 196-197, csv.py 61. -/
def Tz.localize (z : Tz) (n : Int) : Except Err Int := match z.instants n with
  | [] => .error .nonexistent
  | [t] => .ok t
  | _ => .error .ambiguous

/-- `replace(tzinfo=zone)` of a naive time. model_framework.py 148-154. -/
def Tz.replace (z : Tz) (n : Int) : Int := n - z.first

/-- `_setup_date_and_time`: the time steps of a run; `start`, `stop` are naive, the step is in minutes.
model_framework.py 183-206, utils.py 470-481. -/
def steps (z : Tz) (start stop : Int) (step : Nat) : Except Err (List Int) :=
  match z.localize start, z.localize stop with
  | .error e, _ => .error e
  | .ok _, .error e => .error e
  | .ok a, .ok b => match dateRange a b (step * 60) with
    | none => .error .zeroStep
    | some l => .ok l

/-- The index of a table read from a file: every row localised, or the first error. csv.py 56-61. -/
def index (z : Tz) : List Int → Except Err (List Int)
  | [] => .ok []
  | n :: rows => match z.localize n with
    | .error e => .error e
    | .ok t => match index z rows with
      | .error e => .error e
      | .ok l => .ok (t :: l)

/-- The file of a variable after a run over `ts` where step `t` has the image `d t`. The time is stored exactly here. output_netcdf.py
148-188. -/
def file {R : Type} (z : Tz) (d : Int → R) (ts : List Int) : List (Int × R) :=
  Output.writes (fun x => x) [] (ts.map fun t => (z.wall t, d t))

/-- `water_day` of a time with the clock at `w`, offset `o` and abbreviation `nm`; `db` is the database of pytz, with the first offset of
each name. utils.py 164-198. -/
def waterDayAt (db : String → Option Int) (w : DT) (o : Int) (nm : String) : Except Err (ℚ × Nat) :=
  match db nm with
  | none => .error .unknownZone
  | some p =>
    let t := w.instant - o
    let testDate := (DT.mk w.year 10 1 0).instant - p
    let wy := if t < testDate then w.year else w.year + 1
    let start := (DT.mk (wy - 1) 10 1 0).instant - p
    let d := t - start
    .ok (((d / 86400 : Int) : ℚ) + ((d % 86400 : Int) : ℚ) / 86400, wy)

/-- The calls of `water_day` in a run: one per step that distributes precipitation; `date` gives the clock as a date. precipitation.py
405, 455. -/
def waterDays (db : String → Option Int) (z : Tz) (date : Int → DT) : List Int → Except Err (List (ℚ × Nat))
  | [] => .ok []
  | t :: ts => match waterDayAt db (date (z.wall t)) (z.offset t) (z.name t) with
    | .error e => .error e
    | .ok r => match waterDays db z date ts with
      | .error e => .error e
      | .ok l => .ok (r :: l)

end Verif.Zone
