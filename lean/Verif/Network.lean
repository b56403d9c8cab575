import Verif.PipelineSerial
import Verif.PipelineLive

/-
The concrete thread network of a SMRF run: `create_data_queue` and `create_distributed_threads`
(smrf/framework/model_framework.py 533-632), the `distribute_thread` methods, `sunang_thread`,
`shade_thread` and `QueueOutput.run` (smrf/utils/queue.py 261-297); and the serial driver
`distribute_single_timestep` (model_framework.py 404-484).

Simplifications: what a module computes is an arbitrary function `f` of its state, the date and the
arguments handed to its `distribute`; a thread that raises is modelled as waiting for ever on the
queue `dead`, which nobody writes; the rows loaded into the data queues before the threads start
(model_framework.py 541-547) are put there by a thread `load` (the real schedules, in which `load`
runs first, are among the schedules of the model).
-/

namespace Verif.Network
open Verif.Pipeline

/-- Keys of `data_queue`: `InputData.VARIABLES[:-1]` (input_data.py 23-32, model_framework.py 538). -/
inductive DVar
  | airTemp | vaporPressure | precip | windSpeed | windDirection | cloudFactor | thermal
  deriving DecidableEq

/-- Possible keys of `smrf_queue`: the `BASE_THREAD_VARIABLES` of the framework
(model_framework.py 83-85) and of the modules, and the conditional thread variables. -/
inductive SVar
  | cosz | azimuth | illumAng | output
  | airTemp
  | vaporPressure | dewPoint | precipTemp
  | windSpeed | windDirection | flatwind | cellmaxus | dirRoundCell
  | precip | percentSnow | snowDensity | stormDays | stormTotal | stormId
  | albedoVis | albedoIr
  | cloudFactor
  | clearIrBeam | clearIrDiffuse | clearVisBeam | clearVisDiffuse
  | vegIrBeam | vegIrDiffuse | vegVisBeam | vegVisDiffuse
  | cloudIrBeam | cloudIrDiffuse | cloudVisBeam | cloudVisDiffuse
  | netSolar
  | thermal | thermalClear | thermalCloud | thermalVeg
  deriving DecidableEq

/-- Queues of the model. -/
inductive Var
  | data (d : DVar)
  | smrf (s : SVar)
  | dead
  deriving DecidableEq

/-- Threads (model_framework.py 600-632, 509-517). -/
inductive Mod
  | load | sun | shade | airTemp | vaporPressure | wind | precip | albedo | cloudFactor | solar
  | thermal | output
  deriving DecidableEq

/-- The configuration options that change the network. -/
structure Cfg where
  /-- `[wind] wind_model == 'winstral'` (wind.py 138, 213) -/
  winstralWind : Bool
  /-- `[precip] precip_rescaling_model == 'winstral'` (precipitation.py 487) -/
  winstralPrecip : Bool
  /-- `[precip] new_snow_density_model == 'marks2017'` (precipitation.py 177, 518) -/
  marks2017 : Bool
  /-- `[solar] correct_cloud`, `correct_veg` (solar.py 398, 403) -/
  solarCloud : Bool
  solarVeg : Bool
  /-- `[thermal] correct_cloud`, `correct_veg` (thermal.py 248-252, 366-371) -/
  thermalCloud : Bool
  thermalVeg : Bool
  /-- `[output] frequency` -/
  freq : Nat
  /-- thread variables among the keys of `out_func.variable_dict` (queue.py 276-277) -/
  outVars : List SVar
  /-- `[system] queue_max_values` -/
  cap : Int

/-- `VEG_THREAD_VARIABLES`, `CLOUD_THREAD_VARIABLES`, `CLEAR_SKY_THREAD_VARIABLES`
(solar.py 183-202). -/
def clearVars : List SVar := [.clearIrBeam, .clearIrDiffuse, .clearVisBeam, .clearVisDiffuse]
def vegVars : List SVar := [.vegIrBeam, .vegIrDiffuse, .vegVisBeam, .vegVisDiffuse]
def cloudVars : List SVar := [.cloudIrBeam, .cloudIrDiffuse, .cloudVisBeam, .cloudVisDiffuse]
/-- `WinstralWindModel.BASE_THREAD_VARIABLES` (winstral.py 58-62). -/
def winstralVars : List SVar := [.flatwind, .cellmaxus, .dirRoundCell]

/-- Keys of `smrf_queue`: `set_queue_variables` (model_framework.py 560-566) over the
`thread_variables` of all modules (image_data.py 59-80, wind.py 67-70 and 138-139,
precipitation.py 101-107 and 177-178, thermal.py 191-194 and 248-252, solar.py 204-209). The order
of the dictionary is irrelevant below. -/
def keys (c : Cfg) : List SVar :=
  [.cosz, .azimuth, .illumAng, .output] ++ [.airTemp] ++
  [.vaporPressure, .dewPoint, .precipTemp] ++
  ([.windSpeed, .windDirection] ++ if c.winstralWind then winstralVars else []) ++
  ([.precip, .percentSnow, .snowDensity, .stormDays, .stormTotal] ++
    if c.marks2017 then [.stormId] else []) ++
  [.albedoVis, .albedoIr] ++ [.cloudFactor] ++
  (clearVars ++ cloudVars ++ vegVars ++ [.netSolar]) ++
  ([.thermal, .thermalClear] ++ (if c.thermalCloud then [.thermalCloud] else []) ++
    if c.thermalVeg then [.thermalVeg] else [])

/-- Read the queues `qs` in order, collecting the values. -/
def getAll {Q V σ : Type} [DecidableEq Q] :
    List Q → (Q → Option V) → ((Q → Option V) → Prog Q V σ) → Prog Q V σ
  | [], env, k => k env
  | q :: qs, env, k => .get q fun v => getAll qs (fun q' => if q' = q then some v else env q') k

/-- Put to the queues `qs` in order. -/
def putAll {Q V σ : Type} : List Q → (Q → V) → Prog Q V σ → Prog Q V σ
  | [], _, p => p
  | q :: qs, out, p => .put q (out q) (putAll qs out p)

/-- Where an argument of a `distribute` method comes from. -/
inductive Src
  | data (d : DVar)
  | var (s : SVar)
  | none

/-- Smrf and data queues read by the module threads other than `shade` and `output`, in order:
air_temp.py 98, vapor_pressure.py 181-182, wind.py 207-208, precipitation.py 480-491,
albedo.py 176-177, cloud_factor.py 98, solar.py 377-382, thermal.py 358-361. -/
def reads (c : Cfg) : Mod → List Var
  | .airTemp => [.data .airTemp]
  | .vaporPressure => [.data .vaporPressure, .smrf .airTemp]
  | .wind => [.data .windSpeed, .data .windDirection]
  | .precip => [.data .precip, .data .airTemp, .data .windSpeed,
      .smrf .dewPoint, .smrf .precipTemp, .smrf .airTemp] ++
      if c.winstralPrecip then
        if c.winstralWind then
          [.smrf .windDirection, .smrf .flatwind, .smrf .dirRoundCell, .smrf .cellmaxus]
        else [.smrf .windDirection]  -- then KeyError: 'flatwind'
      else []
  | .albedo => [.smrf .illumAng, .smrf .stormDays]
  | .cloudFactor => [.data .cloudFactor]
  | .solar => [.smrf .cosz, .smrf .azimuth, .smrf .illumAng, .smrf .albedoIr, .smrf .albedoVis,
      .smrf .cloudFactor]
  | .thermal => [.smrf .airTemp, .smrf .dewPoint, .smrf .vaporPressure, .smrf .cloudFactor]
  | _ => []

/-- Arguments the threads pass to `distribute` (same places). -/
def threadArgs (c : Cfg) : Mod → List Src
  | .airTemp => [.data .airTemp]
  | .vaporPressure => [.data .vaporPressure, .var .airTemp]
  | .wind => [.data .windSpeed, .data .windDirection]
  | .precip => [.data .precip, .var .dewPoint, .var .precipTemp, .var .airTemp,
      .data .windSpeed, .data .airTemp] ++
      if c.winstralPrecip then [.var .windDirection, .var .dirRoundCell, .var .flatwind,
        .var .cellmaxus]
      else [.none, .none, .none, .none]
  | .albedo => [.var .illumAng, .var .stormDays]
  | .cloudFactor => [.data .cloudFactor]
  | .solar => [.var .cloudFactor, .var .illumAng, .var .cosz, .var .azimuth, .var .albedoVis,
      .var .albedoIr]
  | .thermal => [.var .airTemp, .var .vaporPressure, .var .dewPoint, .var .cloudFactor]
  | _ => []

/-- Queues written by the threads, in order: sunang.py 78-79, solar/model.py 41, air_temp.py 105,
vapor_pressure.py 189-191, wind.py 212-223, precipitation.py 511-519, albedo.py 181-182,
cloud_factor.py 105, solar.py 394-407 (the cloud flag guards the vegetation variables and vice
versa), thermal.py 366-376. -/
def writes (c : Cfg) : Mod → List SVar
  | .load => []
  | .sun => [.cosz, .azimuth]
  | .shade => [.illumAng]
  | .airTemp => [.airTemp]
  | .vaporPressure => [.vaporPressure, .precipTemp, .dewPoint]
  | .wind => [.windSpeed, .windDirection] ++
      if c.winstralWind then [.flatwind, .cellmaxus, .dirRoundCell] else []
  | .precip => [.precip, .percentSnow, .snowDensity, .stormDays, .stormTotal] ++
      if c.marks2017 then [.stormId] else []
  | .albedo => [.albedoVis, .albedoIr]
  | .cloudFactor => [.cloudFactor]
  | .solar => clearVars ++ (if c.solarCloud then vegVars else []) ++
      (if c.solarVeg then cloudVars else []) ++ [.netSolar]
  | .thermal => (if c.thermalVeg then [.thermalVeg] else []) ++
      (if c.thermalCloud then [.thermalCloud] else []) ++ [.thermalClear, .thermal]
  | .output => [.output]

def allData : List DVar :=
  [.airTemp, .vaporPressure, .precip, .windSpeed, .windDirection, .cloudFactor, .thermal]

/-- The computations of the modules: `f m s t args` is one call of the module's `distribute` (or
`sunang`, `shade`) in state `s` at date `t`, returning the new state and the values of its
attributes; `up` is `cosz > 0`; `nil` is Python's `None`; `row` are the input data. -/
structure Comp (V σ : Type) where
  f : Mod → σ → Nat → List V → σ × (SVar → V)
  up : V → Bool
  nil : V
  row : DVar → Nat → V

variable {V σ : Type}

/-- Evaluate an argument from the values read. Every argument is among the values read
(`threadArgs_read`), so the default is never used. -/
def Src.eval (F : Comp V σ) (env : Var → Option V) : Src → V
  | .data d => (env (.data d)).getD F.nil
  | .var s => (env (.smrf s)).getD F.nil
  | .none => F.nil

/-- Value put into queue `q` given the attributes `out` of the module. -/
def outOf (F : Comp V σ) (out : SVar → V) : Var → V
  | .smrf s => out s
  | _ => F.nil

/-- Row put into data queue `q` for date `t`. -/
def dataOut (F : Comp V σ) (t : Nat) : Var → V
  | .data d => F.row d t
  | _ => F.nil

/-- Body of the loop over dates of each thread. -/
def body (c : Cfg) (F : Comp V σ) : Mod → σ → Nat → Prog Var V σ
  | .load, s, t => putAll (allData.map .data) (dataOut F t) (.ret s)
  | .sun, s, t =>
      let r := F.f .sun s t []
      putAll ((writes c .sun).map .smrf) (outOf F r.2) (.ret r.1)
  | .shade, s, t => .get (.smrf .cosz) fun cosz =>
      if F.up cosz then .get (.smrf .azimuth) fun az =>
        .put (.smrf .illumAng) ((F.f .shade s t [az, cosz]).2 .illumAng) (.ret s)
      else .put (.smrf .illumAng) F.nil (.ret s)
  | .output, s, t =>
      if t % c.freq = 0 then
        getAll (c.outVars.map .smrf) (fun _ => none) fun env =>
          let r := F.f .output s t (c.outVars.map fun v => (env (.smrf v)).getD F.nil)
          .put (.smrf .output) (r.2 .output) (.ret r.1)
      else .ret s
  | m, s, t => getAll (reads c m) (fun _ => none) fun env =>
      if m = .precip ∧ c.winstralPrecip = true ∧ c.winstralWind = false then
        .get .dead fun _ => .ret s  -- KeyError at precipitation.py 489, the thread stops
      else
        let r := F.f m s t ((threadArgs c m).map (Src.eval F env))
        putAll ((writes c m).map .smrf) (outOf F r.2) (.ret r.1)

/-- The whole network for `n` dates; `watched` is the key order of `smrf_queue`. -/
def net (c : Cfg) (F : Comp V σ) (init : Mod → σ) (watched : List SVar) (n : Nat) :
    Net Mod Var V σ where
  body := body c F
  init := init
  watched := watched.map .smrf
  cap q := match q with
    | .smrf _ => c.cap
    | _ => 0
  steps := n

/-! ### Serial driver -/

/-- Arguments passed by `distribute_single_timestep` (model_framework.py 428-481). The three wind
attributes that only exist for winstral are `None` otherwise (wind.py 84-85, wind_ninja). -/
def serialArgs (c : Cfg) : Mod → List Src
  | .airTemp => [.data .airTemp]
  | .vaporPressure => [.data .vaporPressure, .var .airTemp]
  | .wind => [.data .windSpeed, .data .windDirection]
  | .precip => [.data .precip, .var .dewPoint, .var .precipTemp, .var .airTemp,
      .data .windSpeed, .data .airTemp, .var .windDirection,
      if c.winstralWind then .var .dirRoundCell else .none, .var .windSpeed,
      if c.winstralWind then .var .cellmaxus else .none]
  | .albedo => [.var .illumAng, .var .stormDays]
  | .cloudFactor => [.data .cloudFactor]
  | .solar => [.var .cloudFactor, .var .illumAng, .var .cosz, .var .azimuth, .var .albedoVis,
      .var .albedoIr]
  | .thermal => [.var .airTemp, .var .vaporPressure, .var .dewPoint, .var .cloudFactor]
  | _ => []

/-- Order of the calls (model_framework.py 413-484). -/
def serialOrder : List Mod :=
  [.sun, .shade, .airTemp, .vaporPressure, .wind, .precip, .albedo, .cloudFactor, .solar, .thermal]

/-- State of the serial driver: module states and attributes. -/
structure Ser (V σ : Type) where
  st : Mod → σ
  attr : SVar → V

/-- One module call of the serial driver. Attributes of the module called are overwritten, others
keep their value (also across dates). -/
def serialCall (c : Cfg) (F : Comp V σ) (t : Nat) (x : Ser V σ) (m : Mod) : Ser V σ :=
  let ev : Src → V := fun
    | .data d => F.row d t
    | .var s => x.attr s
    | .none => F.nil
  match m with
  | .shade => -- model_framework.py 419-426
      { x with attr := fun q => if q = .illumAng then
          (if F.up (x.attr .cosz) then
            (F.f .shade (x.st .shade) t [x.attr .azimuth, x.attr .cosz]).2 .illumAng
           else F.nil)
        else x.attr q }
  | m =>
      let r := F.f m (x.st m) t ((serialArgs c m).map ev)
      { st := fun j => if j = m then r.1 else x.st j
        attr := fun q => if q ∈ writes c m then r.2 q else x.attr q }

/-- `distribute_single_timestep`. -/
def serialStep (c : Cfg) (F : Comp V σ) (t : Nat) (x : Ser V σ) : Ser V σ :=
  serialOrder.foldl (serialCall c F t) x

/-- State before date `n` of the serial loop (model_framework.py 388-400). -/
def serialLoop (c : Cfg) (F : Comp V σ) (x : Ser V σ) : Nat → Ser V σ
  | 0 => x
  | n + 1 => serialStep c F n (serialLoop c F x n)

end Verif.Network
