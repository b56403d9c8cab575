import Mathlib.Data.Int.Log
import Mathlib.Data.Rat.Floor
import Verif.Output

/-!
The time coordinate of the output files: written as hours since the start date in single precision
(smrf/output/output_netcdf.py 86, 96-98, 163-182), read again by a restart (smrf/distribute/precipitation.py
140-157). Numbers are rationals; rounding to a binary floating point format is written out. Assumptions
about the packages: `date2num` divides the exact number of microseconds by those of an hour in double
precision; `num2date` gives the datetime of the nearest microsecond.
-/

namespace Verif.Stamp

/-- To the nearest integer, ties to even. -/
def nearest (x : ℚ) : ℤ :=
  if x - ⌊x⌋ < 1 / 2 then ⌊x⌋
  else if 1 / 2 < x - ⌊x⌋ then ⌊x⌋ + 1
  else if ⌊x⌋ % 2 = 0 then ⌊x⌋ else ⌊x⌋ + 1

/-- The spacing of the numbers with `p` binary digits around `q`. -/
def ulp (p : ℕ) (q : ℚ) : ℚ := 2 ^ (Int.log 2 |q| - p + 1)

/-- Rounding to `p` binary digits (IEEE 754, nearest, ties to even): 24 for `float32`, 53 for `float64`.
Subnormal numbers and overflow are not modelled: times of steps of at least a minute are far from both. -/
def rnd (p : ℕ) (q : ℚ) : ℚ :=
  if q = 0 then 0
  else if 0 < q then nearest (q / ulp p q) * ulp p q
  else -(nearest (-q / ulp p q) * ulp p q)

/-- `nc.date2num(date_time, 'hours since ...')` for a date `m` minutes after the start date.
output_netcdf.py 164-166. -/
def hours (m : ℤ) : ℚ := rnd 53 (m / 60)

/-- `f.variables['time'][index] = t`: the variable has type 'f'. output_netcdf.py 86, 182. -/
def stored (m : ℤ) : ℚ := rnd 24 (hours m)

/-- `OutputNetcdf.output` with `times[:] == t` in single precision: up to version 1 of numpy a scalar does not
change the type of an array it is compared with. output_netcdf.py 168-186. -/
def writeSingle {R : Type} (file : List (ℚ × R)) (w : ℤ × R) : List (ℚ × R) :=
  match Output.findTime (rnd 24 (hours w.1)) file with
  | some i => file.set i (stored w.1, w.2)
  | none => file ++ [(stored w.1, w.2)]

/-- The same with `times[:] == t` in double precision (version 2 of numpy). -/
def writeDouble {R : Type} (file : List (ℚ × R)) (w : ℤ × R) : List (ℚ × R) :=
  match Output.findTime (hours w.1) file with
  | some i => file.set i (stored w.1, w.2)
  | none => file ++ [(stored w.1, w.2)]

/-- `nc.num2date`: the microseconds since the start date of the file. precipitation.py 141-145. -/
def decode (q : ℚ) : ℤ := nearest (q * 3600000000)

/-- `np.where(time == self.start_date)`: the index of the record of a start date `m` minutes after that of the
file. precipitation.py 148. -/
def findStart (m : ℤ) (times : List ℚ) : Option Nat :=
  times.findIdx? fun q => decode q = m * 60000000

end Verif.Stamp
