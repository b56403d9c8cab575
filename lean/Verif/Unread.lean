import Verif.Precip
import Verif.Solar

/-!
Two items of the configuration that are described in `CoreConfig.ini` and never read:
`susong1999_timesteps_to_end_storms` of `[precip]` and `correct_albedo` of `[solar]`. The model follows the items from
the section of the file to the step that should use them.
-/

namespace Verif.Unread

/-- The items of `[precip]` that decide how storms are told apart.
`smrf/framework/CoreConfig.ini:611-660`, `smrf/distribute/precipitation.py:164-171`. -/
structure Rain where
  /-- `distribution = grid` -/
  grid : Bool
  /-- `new_snow_density_model = marks2017`; otherwise susong1999 or piecewise_susong1999 -/
  marks : Bool
  /-- `marks2017_timesteps_to_end_storms` -/
  marksSteps : Nat
  /-- `susong1999_timesteps_to_end_storms` -/
  susongSteps : Nat
  /-- `storm_mass_threshold` -/
  mass : ℝ
  /-- `station_adjust_for_undercatch` -/
  undercatch : Bool
  /-- `precip_rescaling_model = winstral` -/
  winstral : Bool
  /-- `time_step` of `[time]` in minutes -/
  timeStep : ℝ

/-- What `initialize` keeps of the section: `time_to_end_storm` is the item of marks2017 for every model.
`smrf/distribute/precipitation.py:164-171`. -/
noncomputable def settings (c : Rain) : Precip.PCfg :=
  ⟨c.grid, c.marks, c.undercatch, c.winstral, c.timeStep, c.mass, (c.marksSteps : ℝ)⟩

section
variable {ι D : Type} [Fintype ι]

/-- The state after the steps of a run, from the state `s`. Simplified: the functions of `env` are those of every step,
and `clipped` and `storming` of a step are given (their dependence on the item is in `Storms` and `StormRun`; with a
model other than marks2017 they are not used). `smrf/distribute/precipitation.py:236-325`. -/
noncomputable def run (c : Rain) (env : Precip.PEnv ι D) (s : Precip.PState ι) (inputs : List (Precip.PIn ι D)) :
    Precip.PState ι :=
  inputs.foldl (fun s x => Precip.pptStep (settings c) env x s) s

end

/-- The section `[solar]` with the item that is never read. `smrf/framework/CoreConfig.ini:1022-1025`. -/
structure Light where
  read : Solar.Cfg
  /-- `correct_albedo` -/
  correctAlbedo : Bool

/-- The net radiation of a step with the sun up: `calc_net` is called whatever `correct_albedo` says.
`smrf/distribute/solar.py:294-335, 469-493`. -/
noncomputable def netSolar {ι : Type} (c : Light) (veg : Solar.Veg ι) (clear : ι → Solar.Rad) (illum cf albV albIr : ι → ℝ) :
    Solar.Attr ι :=
  Solar.day c.read veg (fun _ => .unset) clear illum cf albV albIr .net

end Verif.Unread
