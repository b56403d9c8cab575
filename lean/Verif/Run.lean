import Verif.Dewpoint
import Verif.WetBulb
import Verif.Precip
import Verif.Solar
import Verif.Thermal

/-!
One whole time step of the serial driver, `SMRF.distribute_single_timestep`
(smrf/framework/model_framework.py 404-484), put together from the models of the modules, and the loop over
the time steps. The images that `image_data._distribute` interpolates from the data of the step are inputs
(any numbers); so are the sun angle, the wind field and the storm table's entries of the step. NaN cells
are not modelled here.
-/

namespace Verif.Run
open Verif.Vapor Verif.Twostream

/-- `min` and `max` of a section; `none` for a limit that is infinite (image_data.py 90-108). -/
structure Limits where
  lo : Option ℝ
  hi : Option ℝ

/-- `utils.set_min_max` on an image. -/
noncomputable def Limits.cut {ι : Type} (l : Limits) (f : ι → ℝ) : ι → ℝ := fun i => Solar.clamp l.lo l.hi (f i)

/-- `DBL_EPSILON`, the machine precision used by `zerobr`. -/
noncomputable def eps : ℝ := 22204460492503131 / 10 ^ 32

/-- The dew point of a cell in Celsius before it is compared with the air temperature: the body of the
loop of `dewpt` (smrf/envphys/core/dewpt.c 33-45). When `zerobr` fails it returns 0 (kelvin). `none` while
one of the bracketing loops is still running after `fuel` rounds. The conversion to `float` is not
modelled. -/
noncomputable def dewCelsius (fuel : Nat) (tol e : ℝ) : Option ℝ :=
  (Dewpoint.dewPoint fuel e eps tol).map fun r => match r with
    | .root x => x - freeze
    | .notSpanned => 0 - freeze
    | .noConvergence => 0 - freeze

/-- An image whose cells all have a value. -/
noncomputable def collect {ι : Type} (f : ι → Option ℝ) : Option (ι → ℝ) :=
  open Classical in
  if h : ∀ i, (f i).isSome then some fun i => (f i).get (h i) else none

/-- The dew point image of `vp.distribute` (smrf/distribute/vapor_pressure.py 128-145). -/
noncomputable def dewImage {ι : Type} (fuel : Nat) (tol : ℝ) (vp ta : ι → ℝ) : Option (ι → ℝ) :=
  (collect fun i => dewCelsius fuel tol (vp i)).map fun d i => if ta i ≤ d i then ta i - 2 / 10 else d i

/-- The body of the loop of `iwbt` (smrf/envphys/core/iwbt.c 103-131); `none` for `exit(-1)`. The pressure at
`z = 0` is `SEA_LEVEL`, which is also the value of the formula there. -/
noncomputable def wetCelsius (tol ta td z : ℝ) : Option ℝ :=
  let pa := if z = 0 then Vapor.seaLevel
    else hysat Vapor.seaLevel stdAirtmp stdLapse (z / 1000) gravity molAir
  if ta + freeze < 0 ∨ td + freeze < 0 then none
  else match WetBulb.wetbulb (ta + freeze) (td + freeze) pa tol with
    | .value ti _ _ => some (ti - freeze)
    | .noConvergence => none
    | .badTemperature => none

/-- What ends a run. -/
inductive Err where
  /-- a loop of the dew-point solver has not ended yet -/
  | running
  /-- `exit(-1)` in the wet-bulb routine -/
  | wetBulb
  /-- unknown `new_snow_density_model` -/
  | snow
  /-- a wind direction that the topographic break file does not have -/
  | index
  | solar (e : Solar.Err)
  | thermal (e : Thermal.Err)

/-- The configuration and the fixed images of a run. `interp` is `_distribute` for precipitation, `sum` the
sum of its data, `adjust` the undercatch correction; `tbreak k` is layer `k` of the topographic breaks. -/
structure Cfg (ι D : Type) where
  airTemp : Limits
  vapor : Limits
  wind : Limits
  precip : Limits
  cloud : Limits
  /-- `dew_point_tolerance` -/
  tol : ℝ
  /-- `precip_temp_method == 'wet_bulb'` -/
  wet : Bool
  ppt : Precip.PCfg
  nasde : String
  interp : D → ι → ℝ
  sum : D → ℝ
  adjust : D → D
  drift : Precip.WindCfg
  vegFact : List (Nat × ℝ)
  vegClass : ι → Nat
  dirs : List ℝ
  tbreak : Nat → ι → Option ℝ
  sun : Solar.Setup ι
  thermal : Thermal.Cfg
  maps : Thermal.Maps ι

/-- What a time step is given. -/
structure In (ι D : Type) where
  time : Int
  cosz : ℝ
  s0 : Band → ℝ
  hidden : ι → Prop
  airTemp : ι → ℝ
  vapor : ι → ℝ
  windSpeed : ι → ℝ
  /-- `dir_round_cell` and `cellmaxus` of the wind model -/
  dirRound : ι → ℝ
  maxus : ι → ℝ
  cloud : ι → ℝ
  precip : D
  clipped : D
  storming : Bool
  stormTotal : Option (ι → ℝ)

/-- What the modules keep from step to step: the precipitation class and the attributes of the solar
class. -/
structure State (ι : Type) where
  ppt : Precip.PState ι
  solar : Solar.Var → Solar.Attr ι

/-- The images of a time step. -/
structure Out (ι : Type) where
  airTemp : ι → ℝ
  vapor : ι → ℝ
  dew : ι → ℝ
  precipTemp : ι → ℝ
  wind : ι → ℝ
  ppt : Precip.PState ι
  albedoVis : ι → ℝ
  albedoIr : ι → ℝ
  cloud : ι → ℝ
  solar : Solar.Var → Solar.Attr ι
  thermal : Thermal.Out ι

variable {ι D : Type} [Fintype ι]

/-- `vp.distribute`: the vapor pressure, the dew point and the precipitation temperature
(smrf/distribute/vapor_pressure.py 104-164). -/
noncomputable def vaporStep (c : Cfg ι D) (fuel : Nat) (img ta : ι → ℝ) :
    Except Err ((ι → ℝ) × (ι → ℝ) × (ι → ℝ)) :=
  let vp := c.vapor.cut img
  match dewImage fuel c.tol vp ta with
  | none => .error .running
  | some dew =>
    if c.wet = true then
      match collect fun i => wetCelsius c.tol (ta i) (dew i) (c.maps.dem i) with
      | none => .error .wetBulb
      | some w => .ok (vp, dew, w)
    else .ok (vp, dew, dew)

/-- `dist_precip_wind` on an image (smrf/envphys/precip.py 99-211), all directions being known. -/
noncomputable def redist (c : Cfg ι D) (x : In ι D) (dew wind p : ι → ℝ) : ι → ℝ := fun i =>
  Precip.driftCell c.drift c.vegFact ((Precip.dirIndex c.dirs (x.dirRound i)).bind fun k => c.tbreak k i)
    ⟨p i, some (dew i), x.dirRound i, wind i, x.maxus i, c.vegClass i⟩

/-- `ppt.distribute` (smrf/distribute/precipitation.py 236-325). An unknown snow density model is reported
whether or not it is used in the step (a simplification: the code meets it when there is precipitation). -/
noncomputable def precipStep (c : Cfg ι D) (x : In ι D) (dew temp wind : ι → ℝ) (s : Precip.PState ι) :
    Except Err (Precip.PState ι) :=
  open Classical in
  if c.nasde ≠ "susong1999" ∧ c.nasde ≠ "piecewise_susong1999" ∧ c.nasde ≠ "marks2017" then .error .snow
  else if c.ppt.winstral = true ∧ (∃ i, dew i < 1 / 2) ∧ ¬ ∀ i, (Precip.dirIndex c.dirs (x.dirRound i)).isSome then
    .error .index
  else
    let phase := fun (t p : ι → ℝ) => match Nasde.phaseAndDensity t p c.nasde with
      | .ok r => r
      | .error _ => (fun _ => 0, fun _ => 0)
    .ok (Precip.pptStep c.ppt ⟨c.sum, fun d => c.precip.cut (c.interp d), phase, c.adjust⟩
      ⟨x.precip, x.clipped, x.storming, x.stormTotal, temp, dew, redist c x dew wind⟩ s)

/-- `distribute_single_timestep` (smrf/framework/model_framework.py 404-484): air temperature, vapor
pressure, wind, precipitation, albedo, cloud factor, solar radiation, thermal radiation, in this order. The
cloud factor is distributed between albedo and solar radiation; neither changes the other's input, so the
two are one call here. The soil temperature is a constant. -/
noncomputable def step (c : Cfg ι D) (fuel : Nat) (s : State ι) (x : In ι D) : Except Err (State ι × Out ι) :=
  let ta := c.airTemp.cut x.airTemp
  match vaporStep c fuel x.vapor ta with
  | .error e => .error e
  | .ok (vp, dew, temp) =>
    let wind := c.wind.cut x.windSpeed
    match precipStep c x dew temp wind s.ppt with
    | .error e => .error e
    | .ok ppt =>
      let cf := c.cloud.cut x.cloud
      match Solar.timestep c.sun s.solar ⟨x.time, x.cosz, cf, ppt.days, x.s0, x.hidden⟩ with
      | .error e => .error (.solar e)
      | .ok (sol, av, ai) =>
        match Thermal.distribute c.thermal c.maps ⟨ta, vp, dew, cf⟩ with
        | .error e => .error (.thermal e)
        | .ok th => .ok (⟨ppt, sol⟩, ⟨ta, vp, dew, temp, wind, ppt, av, ai, cf, sol, th⟩)

/-- The loop of `distributeData_single` (smrf/framework/model_framework.py 365-402): the images of all
steps. -/
noncomputable def run (c : Cfg ι D) (fuel : Nat) : State ι → List (In ι D) → Except Err (List (Out ι))
  | _, [] => .ok []
  | s, x :: xs =>
    match step c fuel s x with
    | .error e => .error e
    | .ok (s', o) =>
      match run c fuel s' xs with
      | .error e => .error e
      | .ok os => .ok (o :: os)

end Verif.Run
