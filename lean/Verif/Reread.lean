import Verif.DiskFloat
import Verif.Split

/-!
A run that starts with the storm clock in the output files of another run: the files of `DiskFloat`, the search for the start date of
`Stamp` and `Restart`, the run of `Split`.
-/

namespace Verif.Reread
open Verif.Run
open Verif.RestartFloat (Precision)

variable {ι D : Type}

/-- `storm_days` read from the records of `storm_days.nc`, for a start date `m` minutes after that of the file: the dates are those of
`num2date`; the record read is the one before that of the start date. `wrap` is what netCDF4 returns for index -1.
smrf/distribute/precipitation.py 139-157. -/
def readClock [Fintype ι] (wrap : ι → ℝ) (m : ℤ) (file : List (ℚ × (ι → ℝ))) : ι → ℝ :=
  Restart.initialDays wrap (m * 60000000) (some (some (file.map fun r => (Stamp.decode r.1, r.2))))

/-- A run over the steps `ys` which starts `m` minutes after a run over the steps `xs` and reads its file.
smrf/distribute/precipitation.py 132-157, smrf/framework/model_framework.py 365-402. -/
noncomputable def second [Fintype ι] (p : Precision) (c : Cfg ι D) (oc : OutCfg ι) (fuel : Nat) (wrap : ι → ℝ) (s : State ι)
    (xs : List (In ι D)) (m : ℤ) (ys : List (In ι D)) : Except Err (List (Out ι)) :=
  Run.run c fuel (Split.resume (readClock wrap m ((DiskFloat.runFiles p c oc fuel s xs).1 .stormDays))) ys

end Verif.Reread
