import Verif.Precip
import Verif.Output

/-!
Restart of the storm clock from the output of an earlier run (`storm_days_restart`): `smrf/distribute/precipitation.py` 119-164.
-/

namespace Verif.Restart
open Verif.Precip

section
variable {ι D T : Type} [Fintype ι]

/-- The states after each step of a run. `smrf/framework/model_framework.py` 365-402. -/
noncomputable def run (cfg : PCfg) (env : PEnv ι D) (s : PState ι) : List (PIn ι D) → List (PState ι)
  | [] => []
  | inp :: rest => pptStep cfg env inp s :: run cfg env (pptStep cfg env inp s) rest

/-- `storm_days.nc` written by a run with output frequency `f`: a record of the clock for each output step, in order
(`Output.isOutput`). Times that netCDF stores inexactly are not modelled here (see C13). `count` is the index of the first
step and `n` the number of steps. -/
def records (f n : Nat) : Nat → List (T × PState ι) → List (T × (ι → ℝ))
  | _, [] => []
  | count, (t, s) :: rest =>
    if Output.isOutput f n count then (t, s.days) :: records f n (count + 1) rest
    else records f n (count + 1) rest

/-- The record before the one of the start date. `prev` is the record before the head of the list; index -1, for a start date
that is the first of the file, is the parameter `wrap` (what netCDF4 returns for it is not modelled). A start date that is not
in the file gives zeros. precipitation.py 148-157. -/
def previous [DecidableEq T] (start : T) (prev : ι → ℝ) : List (T × (ι → ℝ)) → ι → ℝ
  | [] => fun _ => 0
  | (t, d) :: rest => if t = start then prev else previous start d rest

/-- `storm_days` at the start of a run. `file = none`: no restart file is configured; inner `none`: the file has no variable
`storm_days`, which is only logged. precipitation.py 127, 132-162. -/
def initialDays [DecidableEq T] (wrap : ι → ℝ) (start : T) : Option (Option (List (T × (ι → ℝ)))) → ι → ℝ
  | none => fun _ => 0
  | some none => fun _ => 0
  | some (some recs) => previous start wrap recs

/-- The state at the start of a run; `precip` is `None` in the code and is set by the first step. precipitation.py 125-129. -/
def initial (days : ι → ℝ) : PState ι := ⟨fun _ => 0, fun _ => 0, fun _ => 0, days, fun _ => 0⟩

/-- The file of a run over the steps `ls` from the state `s`. -/
noncomputable def fileOf (cfg : PCfg) (env : PEnv ι D) (f : Nat) (s : PState ι) (ls : List (T × PIn ι D)) :
    List (T × (ι → ℝ)) :=
  records f ls.length 0 (List.zip (ls.map Prod.fst) (run cfg env s (ls.map Prod.snd)))
end

end Verif.Restart
