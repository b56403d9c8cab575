import Verif.Run
import Verif.Stamp

/-!
The serial run with its output files: after each time step `output` writes the requested variables
(smrf/framework/model_framework.py 386-402, 704-749; smrf/output/output_netcdf.py 148-188).
-/

namespace Verif.Run

/-- The output variables that are images of `Out`. Not modelled: the wind variables other than speed, the storm
totals, the soil temperature. -/
inductive Name where
  | airTemp | vapor | dew | precipTemp | windSpeed | precip | percSnow | snowDensity | stormDays
  | albedoVis | albedoIr | cloud | thermal
  | solar (v : Solar.Var)
deriving DecidableEq

/-- The options of an output: `frequency`, the time step in minutes, the requested variables, and the mask if
`mask_output` is set. -/
structure OutCfg (ι : Type) where
  freq : Nat
  minutes : Nat
  vars : List Name
  mask : Option (ι → ℝ)

variable {ι D : Type}

/-- `getattr(self.distribute[...], v['variable'])`, with zeros for `None`; an attribute that does not exist raises
an exception. model_framework.py 737-743. -/
def image (o : Out ι) : Name → Except Solar.Err (ι → ℝ)
  | .airTemp => .ok o.airTemp
  | .vapor => .ok o.vapor
  | .dew => .ok o.dew
  | .precipTemp => .ok o.precipTemp
  | .windSpeed => .ok o.wind
  | .precip => .ok o.ppt.precip
  | .percSnow => .ok o.ppt.perc
  | .snowDensity => .ok o.ppt.den
  | .stormDays => .ok o.ppt.days
  | .albedoVis => .ok o.albedoVis
  | .albedoIr => .ok o.albedoIr
  | .cloud => .ok o.cloud
  | .thermal => .ok o.thermal.thermal
  | .solar v => Solar.written (o.solar v)

/-- `data*self.mask`. output_netcdf.py 184-187. -/
noncomputable def masked (mask : Option (ι → ℝ)) (d : ι → ℝ) : ι → ℝ :=
  match mask with
  | some m => fun i => d i * m i
  | none => d

/-- The files, by variable. -/
abbrev Files (ι : Type) := Name → List (ℚ × (ι → ℝ))

/-- `for v in var_vals`: the variables of an output step, `m` minutes after the start date of the files.
model_framework.py 734-749. The flag is the exception, if any; files written before it stay written. -/
noncomputable def outputVars (mask : Option (ι → ℝ)) (m : ℤ) (o : Out ι) : List Name → Files ι → Files ι × Option Solar.Err
  | [], fs => (fs, none)
  | v :: vs, fs =>
    match image o v with
    | .error e => (fs, some e)
    | .ok d => outputVars mask m o vs fun w => if w = v then Stamp.writeSingle (fs v) (m, masked mask d) else fs w

/-- `SMRF.output`, with the index `k` of the step among `n`. model_framework.py 704-749. -/
noncomputable def output (oc : OutCfg ι) (n k : Nat) (o : Out ι) (fs : Files ι) : Files ι × Option Solar.Err :=
  if Output.isOutput oc.freq n k then outputVars oc.mask (k * oc.minutes) o oc.vars fs else (fs, none)

/-- The loop `distribute_single_timestep(t); output(t)` from step `k` of `n`. model_framework.py 386-402. -/
noncomputable def loop [Fintype ι] (c : Cfg ι D) (oc : OutCfg ι) (fuel n : Nat) :
    Nat → State ι → Files ι → List (In ι D) → Files ι × Option Err
  | _, _, fs, [] => (fs, none)
  | k, s, fs, x :: xs =>
    match step c fuel s x with
    | .error e => (fs, some e)
    | .ok (s', o) =>
      match output oc n k o fs with
      | (fs', some e) => (fs', some (.solar e))
      | (fs', none) => loop c oc fuel n (k + 1) s' fs' xs

/-- A run from step 0 into an empty directory. -/
noncomputable def runFiles [Fintype ι] (c : Cfg ι D) (oc : OutCfg ι) (fuel : Nat) (s : State ι) (xs : List (In ι D)) :
    Files ι × Option Err :=
  loop c oc fuel xs.length 0 s (fun _ => []) xs

end Verif.Run
