import Verif.Network
import Verif.RunFiles

/-!
The threaded run with the computations of the modules: the thread network of `Verif.Network`
(smrf/framework/model_framework.py 486-632) in which every `distribute_thread` calls the `distribute` of `Verif.Run`, and
the output thread (smrf/utils/queue.py 261-297) writes the files of `Verif.RunFiles`.

Simplifications: those of the two models. The arrays in the queues are values; that threads may overwrite an array which
another thread has got from a queue is not modelled here (see C11). What a module raises in a thread is not followed: the
theorems are about runs in which no module raises.
-/

namespace Verif.Threaded
open Verif.Network (Mod SVar DVar)

/-- What is in a queue: `None`, `True`, a number, an image, the row of the precipitation data, or something that is not
modelled. -/
inductive Val (ι D : Type) where
  | none
  | flag
  | num (x : ℝ)
  | img (a : ι → ℝ)
  | row (d : D)
  | missing

/-- What a thread keeps from date to date. -/
inductive Local (ι : Type) where
  | unit
  | ppt (s : Precip.PState ι)
  | solar (s : Solar.Var → Solar.Attr ι)
  | files (fs : Run.Files ι)

/-- The parts of a job: the configuration, the output, the number of rounds that the dew-point solver may take, the
inputs of each date and the azimuth of the sun (which only goes to `shade`, see `Solar.Setup`). -/
structure Job (ι D : Type) where
  cfg : Run.Cfg ι D
  out : Run.OutCfg ι
  fuel : Nat
  input : Nat → Run.In ι D
  azimuth : Nat → ℝ

variable {ι D : Type}

/-- An attribute of the solar module. -/
def ofAttr : Solar.Attr ι → Val ι D
  | .unset => .missing
  | .none => .none
  | .array a => .img a

/-- An attribute of the thermal module that may not be there. -/
def ofOption : Option (ι → ℝ) → Val ι D
  | none => .missing
  | some a => .img a

/-- The argument `illum_ang` of a `distribute`. -/
def Val.angles : Val ι D → Option (ι → ℝ)
  | .img a => some a
  | _ => Option.none

/-- The queue of an output variable. -/
def svar : Run.Name → SVar
  | .airTemp => .airTemp
  | .vapor => .vaporPressure
  | .dew => .dewPoint
  | .precipTemp => .precipTemp
  | .windSpeed => .windSpeed
  | .precip => .precip
  | .percSnow => .percentSnow
  | .snowDensity => .snowDensity
  | .stormDays => .stormDays
  | .albedoVis => .albedoVis
  | .albedoIr => .albedoIr
  | .cloud => .cloudFactor
  | .thermal => .thermal
  | .solar (.clear .vis .beam) => .clearVisBeam
  | .solar (.clear .vis .diffuse) => .clearVisDiffuse
  | .solar (.clear .ir .beam) => .clearIrBeam
  | .solar (.clear .ir .diffuse) => .clearIrDiffuse
  | .solar (.cloud .vis .beam) => .cloudVisBeam
  | .solar (.cloud .vis .diffuse) => .cloudVisDiffuse
  | .solar (.cloud .ir .beam) => .cloudIrBeam
  | .solar (.cloud .ir .diffuse) => .cloudIrDiffuse
  | .solar (.veg .vis .beam) => .vegVisBeam
  | .solar (.veg .vis .diffuse) => .vegVisDiffuse
  | .solar (.veg .ir .beam) => .vegIrBeam
  | .solar (.veg .ir .diffuse) => .vegIrDiffuse
  | .solar .net => .netSolar

/-- The attribute of the solar module that goes into a queue. solar.py 394-407. -/
def solarVar (s : Solar.Var → Solar.Attr ι) : SVar → Val ι D
  | .clearVisBeam => ofAttr (s (.clear .vis .beam))
  | .clearVisDiffuse => ofAttr (s (.clear .vis .diffuse))
  | .clearIrBeam => ofAttr (s (.clear .ir .beam))
  | .clearIrDiffuse => ofAttr (s (.clear .ir .diffuse))
  | .cloudVisBeam => ofAttr (s (.cloud .vis .beam))
  | .cloudVisDiffuse => ofAttr (s (.cloud .vis .diffuse))
  | .cloudIrBeam => ofAttr (s (.cloud .ir .beam))
  | .cloudIrDiffuse => ofAttr (s (.cloud .ir .diffuse))
  | .vegVisBeam => ofAttr (s (.veg .vis .beam))
  | .vegVisDiffuse => ofAttr (s (.veg .vis .diffuse))
  | .vegIrBeam => ofAttr (s (.veg .ir .beam))
  | .vegIrDiffuse => ofAttr (s (.veg .ir .diffuse))
  | .netSolar => ofAttr (s .net)
  | _ => .missing

/-- The attribute of the precipitation module that goes into a queue (the storm number is not modelled).
precipitation.py 511-519. -/
def pptVar (s : Precip.PState ι) : SVar → Val ι D
  | .precip => .img s.precip
  | .percentSnow => .img s.perc
  | .snowDensity => .img s.den
  | .stormDays => .img s.days
  | .stormTotal => .img s.total
  | _ => .missing

/-- The loop over the output variables in the output thread: `None` is written as zeros. queue.py 275-287. -/
noncomputable def writeAll (mask : Option (ι → ℝ)) (m : ℤ) : List (Run.Name × Val ι D) → Run.Files ι → Run.Files ι
  | [], fs => fs
  | (v, .none) :: r, fs =>
    writeAll mask m r fun w => if w = v then Stamp.writeSingle (fs v) (m, Run.masked mask fun _ => 0) else fs w
  | (v, .img d) :: r, fs =>
    writeAll mask m r fun w => if w = v then Stamp.writeSingle (fs v) (m, Run.masked mask d) else fs w
  | _ :: r, fs => writeAll mask m r fs

/-- One call of a `distribute`, with the arguments in the order of the code (`Network.threadArgs`): air_temp.py 73-88,
vapor_pressure.py 104-164, wind.py 142-183, precipitation.py 236-325, albedo.py 104-159, cloud_factor.py 68-88,
solar.py 254-360, thermal.py 254-342; sunang.py 65-79, solar/model.py 24-41 and the output thread. Arguments that do not
fit, and calls that raise, leave the state and give `missing`. -/
noncomputable def call [Fintype ι] (J : Job ι D) : Mod → Local ι → Nat → List (Val ι D) → Local ι × (SVar → Val ι D)
  | .sun, s, t, _ => (s, fun
    | .cosz => .num (J.input t).cosz
    | .azimuth => .num (J.azimuth t)
    | _ => .missing)
  | .shade, s, _, [_, .num cosz] => (s, fun _ => .img (J.cfg.sun.shade cosz))
  | .airTemp, s, _, [.img a] => (s, fun _ => .img (J.cfg.airTemp.cut a))
  | .vaporPressure, s, _, [.img v, .img ta] =>
    match Run.vaporStep J.cfg J.fuel v ta with
    | .error _ => (s, fun _ => .missing)
    | .ok (vp, dew, temp) => (s, fun
      | .vaporPressure => .img vp
      | .dewPoint => .img dew
      | .precipTemp => .img temp
      | _ => .missing)
  | .wind, s, t, .img w :: _ => (s, fun
    | .windSpeed => .img (J.cfg.wind.cut w)
    | .cellmaxus => .img (J.input t).maxus
    | .dirRoundCell => .img (J.input t).dirRound
    | _ => .missing)
  | .precip, .ppt s, t, .row d :: .img dew :: .img temp :: _ =>
    match Run.precipStep J.cfg { J.input t with precip := d } dew temp (fun _ => 0) s with
    | .error _ => (.ppt s, fun _ => .missing)
    | .ok s' => (.ppt s', pptVar s')
  | .albedo, s, t, [ill, .img days] =>
    match Albedo.distribute J.cfg.sun.albedo J.cfg.sun.vegType (J.input t).time ill.angles days with
    | .error _ => (s, fun _ => .missing)
    | .ok (v, ir) => (s, fun
      | .albedoVis => .img (Solar.cells v)
      | .albedoIr => .img (Solar.cells ir)
      | _ => .missing)
  | .cloudFactor, s, _, [.img a] => (s, fun _ => .img (J.cfg.cloud.cut a))
  | .solar, .solar s, t, [.img cf, ill, .num cosz, _, .img av, .img ai] =>
    match Solar.distribute J.cfg.sun.solar J.cfg.sun.topo J.cfg.sun.veg (J.input t).s0 (J.input t).hidden s cf ill.angles
        cosz av ai with
    | .error _ => (.solar s, fun _ => .missing)
    | .ok s' => (.solar s', solarVar s')
  | .thermal, s, _, [.img ta, .img vp, .img dew, .img cf] =>
    match Thermal.distribute J.cfg.thermal J.cfg.maps ⟨ta, vp, dew, cf⟩ with
    | .error _ => (s, fun _ => .missing)
    | .ok o => (s, fun
      | .thermal => .img o.thermal
      | .thermalClear => .img o.clear
      | .thermalCloud => ofOption o.cloud
      | .thermalVeg => ofOption o.veg
      | _ => .missing)
  | .output, .files fs, t, args =>
    (.files (writeAll J.out.mask (t * J.out.minutes) (J.out.vars.zip args) fs), fun _ => .flag)
  | _, s, _, _ => (s, fun _ => .missing)

/-- The computations of the threads; the rows of the data queues are the images that the modules interpolate from them
(as in `Run.In`). -/
noncomputable def comp [Fintype ι] (J : Job ι D) : Network.Comp (Val ι D) (Local ι) where
  f := call J
  up := fun
    | .num z => open Classical in decide (0 < z)
    | _ => false
  nil := .none
  row := fun
    | .airTemp, t => .img (J.input t).airTemp
    | .vaporPressure, t => .img (J.input t).vapor
    | .precip, t => .row (J.input t).precip
    | .windSpeed, t => .img (J.input t).windSpeed
    | .cloudFactor, t => .img (J.input t).cloud
    | _, _ => .missing

/-- The state of the threads before the first date. -/
def start (s : Run.State ι) : Mod → Local ι
  | .precip => .ppt s.ppt
  | .solar => .solar s.solar
  | .output => .files fun _ => []
  | _ => .unit

/-- The options that change the network. `winstral` is the wind model, `cap` is `queue_max_values`. -/
def options (c : Run.Cfg ι D) (oc : Run.OutCfg ι) (winstral : Bool) (cap : Int) : Network.Cfg where
  winstralWind := winstral
  winstralPrecip := c.ppt.winstral
  marks2017 := c.ppt.marks
  solarCloud := c.sun.solar.correctCloud
  solarVeg := c.sun.solar.correctVeg
  thermalCloud := c.thermal.cloud.isSome
  thermalVeg := c.thermal.veg
  freq := oc.freq
  outVars := oc.vars.map svar
  cap := cap

/-- The threaded run of `n` dates, into an empty directory. -/
noncomputable def threaded [Fintype ι] (J : Job ι D) (winstral : Bool) (cap : Int) (s : Run.State ι) (n : Nat) :
    Pipeline.Net Mod Network.Var (Val ι D) (Local ι) :=
  Network.net (options J.cfg J.out winstral cap) (comp J) (start s) (Network.keys (options J.cfg J.out winstral cap)) n

end Verif.Threaded
