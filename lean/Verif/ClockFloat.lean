import Verif.Storms
import Mathlib.Analysis.SpecialFunctions.Sqrt

/-!
The storm clock of the Marks 2017 precipitation in arithmetic with rounding: every operation of the code on the clock is
followed by a rounding `rnd`. The comparisons that reset the clock are between numbers of the input and have no rounding.

Not modelled: overflow, infinities, NaN.
-/

namespace Verif.ClockFloat
open Verif.Storms

variable {ι : Type} [Fintype ι]

/-- `self.time_step/60.0/24.0`. `smrf/distribute/precipitation.py:390,395`. -/
noncomputable def stepDays (rnd : ℝ → ℝ) (timeStep : ℝ) : ℝ := rnd (rnd (timeStep / 60) / 24)

open Classical in
/-- `time_since_storm_pixel` with rounding. `smrf/envphys/storms.py:98-111`. -/
noncomputable def pixel (rnd : ℝ → ℝ) (precip dpt perc : ι → ℝ) (storming : Bool) (dt mass thresh : ℝ) (days : ι → ℝ) : ι → ℝ :=
  let days1 := fun i => rnd (days i + dt)
  if storming = true ∧ coldSomewhere dpt then fun i => if mass ≤ precip i ∧ thresh ≤ perc i then 0 else days1 i
  else days1

/-- What a time step brings: no precipitation at any station, or the images of a step with precipitation. -/
inductive Step (ι : Type) where
  | dry
  | wet (precip dpt perc : ι → ℝ) (storming : Bool)

/-- The clock in `distribute_for_marks2017`. `smrf/distribute/precipitation.py:335,384-395`. -/
noncomputable def tick (rnd : ℝ → ℝ) (timeStep mass thresh : ℝ) (days : ι → ℝ) : Step ι → ι → ℝ
  | .dry => fun i => rnd (days i + stepDays rnd timeStep)
  | .wet precip dpt perc storming => pixel rnd precip dpt perc storming (stepDays rnd timeStep) mass thresh days

/-- The clock after several steps. -/
noncomputable def run (rnd : ℝ → ℝ) (timeStep mass thresh : ℝ) (days : ι → ℝ) (h : List (Step ι)) : ι → ℝ :=
  h.foldl (tick rnd timeStep mass thresh) days

/-- `last_storm_day`; `day` is the water day. The constant 0.001 is rounded as well.
`smrf/distribute/precipitation.py:405-406`. -/
noncomputable def lastStormDay (rnd : ℝ → ℝ) (day days : ℝ) : ℝ := rnd (rnd (day - days) - rnd (1 / 1000))

end Verif.ClockFloat
