import Verif.Run

/-!
A run over a part of the domain: the configuration, the input and the images of the cells `f k` only. `f` picks the
cells of the part; for a cropped domain it is an inclusion, for a run over a single point a constant. The maps that
the code computes from the surroundings of a cell (sky view, horizon, upwind slope) are inputs of `Run.step` and
are taken over. smrf/framework/model_framework.py 404-484.
-/

namespace Verif.Crop
open Verif.Run

variable {ι κ D : Type}

/-- The precipitation images of the part. -/
def ppt (f : κ → ι) (s : Precip.PState ι) : Precip.PState κ :=
  ⟨s.precip ∘ f, s.perc ∘ f, s.den ∘ f, s.days ∘ f, s.total ∘ f⟩

/-- An attribute of the solar class in the part. -/
def attr (f : κ → ι) : Solar.Attr ι → Solar.Attr κ
  | .unset => .unset
  | .none => .none
  | .array a => .array (a ∘ f)

/-- The thermal images of the part. -/
def thermal (f : κ → ι) (o : Thermal.Out ι) : Thermal.Out κ :=
  ⟨o.clear ∘ f, o.cloud.map (· ∘ f), o.veg.map (· ∘ f), o.thermal ∘ f⟩

/-- The maps of the topo file in the part. -/
def maps (f : κ → ι) (g : Thermal.Maps ι) : Thermal.Maps κ := ⟨g.dem ∘ f, g.svf ∘ f, g.height ∘ f, g.tau ∘ f⟩

/-- The fixed images of the sun modules in the part. -/
def setup (f : κ → ι) (S : Solar.Setup ι) : Solar.Setup κ :=
  ⟨S.solar, S.albedo, ⟨S.topo.dem ∘ f, S.topo.svf ∘ f, S.topo.tcf ∘ f⟩, ⟨S.veg.height ∘ f, S.veg.tau ∘ f, S.veg.k ∘ f⟩,
    S.vegType ∘ f, fun z => S.shade z ∘ f⟩

/-- The same configuration for the part. -/
def cfg (f : κ → ι) (c : Cfg ι D) : Cfg κ D :=
  { airTemp := c.airTemp, vapor := c.vapor, wind := c.wind, precip := c.precip, cloud := c.cloud, tol := c.tol, wet := c.wet,
    ppt := c.ppt, nasde := c.nasde, interp := fun d => c.interp d ∘ f, sum := c.sum, adjust := c.adjust, drift := c.drift,
    vegFact := c.vegFact, vegClass := c.vegClass ∘ f, dirs := c.dirs, tbreak := fun n => c.tbreak n ∘ f, sun := setup f c.sun,
    thermal := c.thermal, maps := maps f c.maps }

/-- The input of a step in the part; the station data are the same. -/
def input (f : κ → ι) (x : In ι D) : In κ D :=
  { time := x.time, cosz := x.cosz, s0 := x.s0, hidden := x.hidden ∘ f, airTemp := x.airTemp ∘ f, vapor := x.vapor ∘ f,
    windSpeed := x.windSpeed ∘ f, dirRound := x.dirRound ∘ f, maxus := x.maxus ∘ f, cloud := x.cloud ∘ f, precip := x.precip,
    clipped := x.clipped, storming := x.storming, stormTotal := x.stormTotal.map (· ∘ f) }

/-- The state in the part. -/
def state (f : κ → ι) (s : State ι) : State κ := ⟨ppt f s.ppt, fun v => attr f (s.solar v)⟩

/-- The images of a step in the part. -/
def out (f : κ → ι) (o : Out ι) : Out κ :=
  ⟨o.airTemp ∘ f, o.vapor ∘ f, o.dew ∘ f, o.precipTemp ∘ f, o.wind ∘ f, ppt f o.ppt, o.albedoVis ∘ f, o.albedoIr ∘ f, o.cloud ∘ f,
    fun v => attr f (o.solar v), thermal f o.thermal⟩

/-- The row of data that `ppt.distribute` distributes in a step. precipitation.py 246-306. -/
def used (c : Cfg ι D) (x : In ι D) : D :=
  if c.ppt.grid = true then x.precip
  else if c.ppt.marks = true then if c.ppt.undercatch = true then c.adjust x.clipped else x.clipped
  else c.adjust x.precip

/-- The precipitation of the step before snow is redistributed by wind. -/
noncomputable def amount (c : Cfg ι D) (x : In ι D) : ι → ℝ := c.precip.cut (c.interp (used c x))

end Verif.Crop
