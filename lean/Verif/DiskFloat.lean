import Verif.RunFiles
import Verif.RestartFloat

/-!
The run with its output files (`RunFiles`), the numbers of the images rounded to the type of the variable in the file when they are
written. The option `netcdf_output_precision` is `float` by default (smrf/framework/CoreConfig.ini 1167-1170). The images themselves
are exact; no overflow or underflow.
-/

namespace Verif.DiskFloat
open Verif.Run
open Verif.RestartFloat (Precision)

variable {ι D : Type}

/-- The record of an image: `data*self.mask`, converted by netCDF to the type given to `createVariable`.
smrf/output/output_netcdf.py 57, 90-93, 184-188. -/
noncomputable def record (p : Precision) (mask : Option (ι → ℝ)) (d : ι → ℝ) : ι → ℝ := fun i => p.cast (masked mask d i)

/-- `for v in var_vals`, as `Run.outputVars`. smrf/framework/model_framework.py 734-749. -/
noncomputable def outputVars (p : Precision) (mask : Option (ι → ℝ)) (m : ℤ) (o : Out ι) :
    List Name → Files ι → Files ι × Option Solar.Err
  | [], fs => (fs, none)
  | v :: vs, fs =>
    match image o v with
    | .error e => (fs, some e)
    | .ok d => outputVars p mask m o vs fun w => if w = v then Stamp.writeSingle (fs v) (m, record p mask d) else fs w

/-- `SMRF.output`. smrf/framework/model_framework.py 704-749. -/
noncomputable def output (p : Precision) (oc : OutCfg ι) (n k : Nat) (o : Out ι) (fs : Files ι) : Files ι × Option Solar.Err :=
  if Output.isOutput oc.freq n k then outputVars p oc.mask (k * oc.minutes) o oc.vars fs else (fs, none)

/-- The loop over the steps. smrf/framework/model_framework.py 386-402. -/
noncomputable def loop [Fintype ι] (p : Precision) (c : Cfg ι D) (oc : OutCfg ι) (fuel n : Nat) :
    Nat → State ι → Files ι → List (In ι D) → Files ι × Option Err
  | _, _, fs, [] => (fs, none)
  | k, s, fs, x :: xs =>
    match step c fuel s x with
    | .error e => (fs, some e)
    | .ok (s', o) =>
      match output p oc n k o fs with
      | (fs', some e) => (fs', some (.solar e))
      | (fs', none) => loop p c oc fuel n (k + 1) s' fs' xs

/-- A run from step 0 into an empty directory. -/
noncomputable def runFiles [Fintype ι] (p : Precision) (c : Cfg ι D) (oc : OutCfg ι) (fuel : Nat) (s : State ι) (xs : List (In ι D)) :
    Files ι × Option Err :=
  loop p c oc fuel xs.length 0 s (fun _ => []) xs

end Verif.DiskFloat
