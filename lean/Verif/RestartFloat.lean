import Verif.ClockFloat
import Verif.IdwFloatProps

/-!
The storm clock after a restart from a file with numbers in single or double precision. The array read from the file has the type
of the file (netCDF4 returns the type of the variable), and the code only changes it in place (`+=`, assignment to elements), so
the clock keeps that type until the end of the run.

Rounding is to the nearest number with 24 or 53 binary digits; overflow, underflow, NaN are not modelled. The records themselves,
and which of them is read, are the subject of `Restart`.
-/

namespace Verif.RestartFloat
open Verif.ClockFloat

variable {ι : Type} [Fintype ι]

/-- The option `netcdf_output_precision`; the default is `float`. `smrf/framework/CoreConfig.ini:1167-1170`,
`smrf/output/output_netcdf.py:57,90-91`. -/
inductive Precision where
  | single
  | double

/-- Operations on an array. -/
noncomputable def Precision.rnd : Precision → ℝ → ℝ
  | .single => IdwFloat.binary 24
  | .double => IdwFloat.binary 53

/-- Conversion of a number in double precision: that to double precision does nothing. -/
noncomputable def Precision.cast : Precision → ℝ → ℝ
  | .single => IdwFloat.binary 24
  | .double => id

/-- The number added to an array; `self.time_step/60.0/24.0` is a number in double precision, which numpy converts to the type of the
array. `smrf/distribute/precipitation.py:390,395`, `smrf/envphys/storms.py:98`. -/
noncomputable def step (p : Precision) (timeStep : ℝ) : ℝ := p.cast (stepDays (IdwFloat.binary 53) timeStep)

/-- The clock in `distribute_for_marks2017` when the array has the precision `p`. `smrf/distribute/precipitation.py:335,384-395`. -/
noncomputable def tick (p : Precision) (timeStep mass thresh : ℝ) (days : ι → ℝ) : Step ι → ι → ℝ
  | .dry => fun i => p.rnd (days i + step p timeStep)
  | .wet precip dpt perc storming => pixel p.rnd precip dpt perc storming (step p timeStep) mass thresh days

/-- The clock after several steps. -/
noncomputable def run (p : Precision) (timeStep mass thresh : ℝ) (days : ι → ℝ) (h : List (Step ι)) : ι → ℝ :=
  h.foldl (tick p timeStep mass thresh) days

/-- The clock written to the file and read back, then run on. A run without restart has a clock in double precision (`np.zeros`).
`smrf/distribute/precipitation.py:127,156-157`, `smrf/output/output_netcdf.py:90-91`. -/
noncomputable def resumed (p : Precision) (timeStep mass thresh : ℝ) (days : ι → ℝ) (h : List (Step ι)) : ι → ℝ :=
  run p timeStep mass thresh (fun i => p.cast (days i)) h

end Verif.RestartFloat
