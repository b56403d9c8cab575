import Verif.Run
import Verif.AlbedoProps
import Verif.NasdeProps
import Verif.SolarProps

/-!
What C125 says: ranges of the images of a run, and the configurations and inputs for which no step aborts.
-/

namespace Verif.Run
open Verif.Vapor Verif.Twostream

/-- A number respects the limits of a section. -/
def Within (l : Limits) (x : ℝ) : Prop := (∀ a, l.lo = some a → a ≤ x) ∧ (∀ b, l.hi = some b → x ≤ b)

/-- The lower limit is not above the upper one. -/
def Sane (l : Limits) : Prop := ∀ a b, l.lo = some a → l.hi = some b → a ≤ b

def albedoLimits {ι D : Type} (c : Cfg ι D) : Limits := ⟨c.sun.albedo.lo, c.sun.albedo.hi⟩
def solarLimits {ι D : Type} (c : Cfg ι D) : Limits := ⟨c.sun.solar.lo, c.sun.solar.hi⟩
def thermalLimits {ι D : Type} (c : Cfg ι D) : Limits := ⟨c.thermal.lo, c.thermal.hi⟩

/-- The limits of all sections make sense, precipitation has a lower limit that is not negative, drifting
snow factors are not negative, and the time step is positive. -/
structure Sensible {ι D : Type} (c : Cfg ι D) : Prop where
  airTemp : Sane c.airTemp
  vapor : Sane c.vapor
  wind : Sane c.wind
  cloud : Sane c.cloud
  albedo : Sane (albedoLimits c)
  solar : Sane (solarLimits c)
  thermal : Sane (thermalLimits c)
  precip : Sane c.precip
  rain : ∃ a, c.precip.lo = some a ∧ 0 ≤ a
  scour : 0 ≤ c.drift.minScour ∧ c.drift.minScour ≤ c.drift.maxScour
  drift : 0 ≤ c.drift.minDrift ∧ c.drift.minDrift ≤ c.drift.maxDrift
  step : 0 ≤ c.ppt.timeStep

/-- The precipitation images make sense: no negative precipitation, the snow fraction is a fraction, no
negative age of the snow. -/
def Physical {ι : Type} (s : Precip.PState ι) : Prop :=
  ∀ i, 0 ≤ s.precip i ∧ 0 ≤ s.perc i ∧ s.perc i ≤ 1 ∧ 0 ≤ s.days i

/-- What holds of the images `o` of a time step with input `x`. -/
structure InRange {ι D : Type} (c : Cfg ι D) (x : In ι D) (o : Out ι) : Prop where
  airTemp : ∀ i, Within c.airTemp (o.airTemp i)
  vapor : ∀ i, Within c.vapor (o.vapor i)
  dew : ∀ i, o.dew i < o.airTemp i
  wind : ∀ i, Within c.wind (o.wind i)
  cloud : ∀ i, Within c.cloud (o.cloud i)
  precip : Physical o.ppt
  albedo : 0 < x.cosz → ∀ i, Within (albedoLimits c) (o.albedoVis i) ∧ Within (albedoLimits c) (o.albedoIr i)
  net : 0 < x.cosz → ∃ img, Solar.written (o.solar .net) = .ok img ∧ ∀ i, Within (solarLimits c) (img i)
  thermal : ∀ i, Within (thermalLimits c) (o.thermal.thermal i)
  night : x.cosz ≤ 0 → (∀ i, o.albedoVis i = 0 ∧ o.albedoIr i = 0) ∧
    ∀ v, Solar.written (o.solar v) = .ok fun _ => 0

/-- The albedo decay has what it needs: nothing; for the date method a positive power, a season of at least a
second and positive maxima with a default; for the Hardy method its two entries. -/
def DecayReady (a : Albedo.Cfg) : Prop :=
  match a.decay with
  | .none => True
  | .date start stop pwr => 0 < pwr ∧ 0 < Albedo.hours (stop - start) ∧ (a.veg.map Prod.fst).Nodup ∧
      (∀ kv ∈ a.veg, 0 < kv.2) ∧ ∃ d, (Albedo.Key.word "default", d) ∈ a.veg
  | .hardy => (a.litter.map Prod.fst).Nodup ∧ (∃ r, (Albedo.Key.word "default", r) ∈ a.litter) ∧
      ∃ al, (Albedo.Key.word "albedo", al) ∈ a.litter

/-- With the wet-bulb method: a tolerance of at least 7 mK, at least 20 Pa of vapor, air between -73.96 and 47
degrees, and no ground above 5500 m. -/
structure WetReady {ι D : Type} (c : Cfg ι D) : Prop where
  tol : 7 / 1000 ≤ c.tol
  vapor : ∃ a, c.vapor.lo = some a ∧ 20 ≤ a
  cold : ∃ a, c.airTemp.lo = some a ∧ -7396 / 100 ≤ a
  hot : ∃ b, c.airTemp.hi = some b ∧ b ≤ 47
  dem : ∀ i, c.maps.dem i ≤ 5500

/-- A configuration with which no step can abort. -/
structure Sound {ι D : Type} (c : Cfg ι D) : Prop where
  wetBulb : c.wet = true → WetReady c
  model : Nasde.KnownModel c.nasde
  tol : 1 / 10000 ≤ c.tol
  vapor : ∃ a b, c.vapor.lo = some a ∧ c.vapor.hi = some b ∧ 0 < a ∧ a ≤ b ∧ b ≤ 3 / 2 * Vapor.seaLevel
  airTemp : ∃ a, c.airTemp.lo = some a ∧ (∀ b, c.airTemp.hi = some b → a ≤ b) ∧ 2 / 10 < a + freeze ∧
    ∀ i, 0 < a + freeze + 65 / 10000 * c.maps.dem i
  grain : Albedo.Accepted c.sun.albedo.grain c.sun.albedo.maxGrain c.sun.albedo.dirt
  decay : DecayReady c.sun.albedo
  albedo : ∃ a b, c.sun.albedo.lo = some a ∧ c.sun.albedo.hi = some b ∧ 0 ≤ a ∧ a ≤ b ∧ b ≤ 1
  dem : ∀ i, c.sun.topo.dem i < 44000
  sky : c.thermal.sky = .marks1979 → c.thermal.terrain = true

/-- The input of a step: with the sun up the two-stream model applies and both bands have energy; the wind
directions are those of the topographic breaks if they are used. -/
structure Meets {ι D : Type} (c : Cfg ι D) (x : In ι D) : Prop where
  sun : 0 < x.cosz → Solar.Valid c.sun.solar.clear x.cosz ∧ ∀ b, 0 < x.s0 b
  wind : c.ppt.winstral = true → ∀ i, x.dirRound i ∈ c.dirs

/-- The maps used for solar radiation are physical: angles of illumination that are not negative, sky view
factors between 0 and 1, and canopies that transmit a part; the cloud factor's limits are within 0 and 1, the
lower limit of solar radiation is not negative. -/
structure SunMaps {ι D : Type} (c : Cfg ι D) : Prop where
  illum : ∀ z i, 0 ≤ c.sun.shade z i
  svf : ∀ i, 0 ≤ c.sun.topo.svf i ∧ c.sun.topo.svf i ≤ 1
  tcf : ∀ i, 0 ≤ c.sun.topo.tcf i
  canopy : ∀ i, 0 ≤ c.sun.veg.height i ∧ 0 ≤ c.sun.veg.k i ∧ 0 ≤ c.sun.veg.tau i ∧ c.sun.veg.tau i ≤ 1
  cloud : ∃ a b, c.cloud.lo = some a ∧ c.cloud.hi = some b ∧ 0 ≤ a ∧ a ≤ b ∧ b ≤ 1
  net : ∃ a, c.sun.solar.lo = some a ∧ 0 ≤ a ∧ ∀ b, c.sun.solar.hi = some b → a ≤ b

/-- The limits of `CoreConfig.ini`. -/
structure DefaultLimits {ι D : Type} (c : Cfg ι D) : Prop where
  airTemp : c.airTemp = ⟨some (-73), some 47⟩
  vapor : c.vapor = ⟨some 20, some 5000⟩
  wind : c.wind = ⟨some (447 / 1000), some 35⟩
  precip : c.precip = ⟨some 0, none⟩
  albedo : albedoLimits c = ⟨some 0, some 1⟩
  cloud : c.cloud = ⟨some 0, some 1⟩
  solar : solarLimits c = ⟨some 0, some 800⟩
  thermal : thermalLimits c = ⟨some 0, some 600⟩

end Verif.Run
