import Verif.Run
import Verif.Restart

/-!
A run in two parts: the second part starts with new objects and, with `storm_days_restart`, the storm clock that the first part
left (smrf/distribute/precipitation.py 121-162). Which record of the file is read is the subject of `Restart`.
-/

namespace Verif.Split

/-- The state of the modules at the start of a run: images of precipitation and total mass zero, the clock from the file, no attribute
of the solar class. smrf/distribute/precipitation.py 121-131, 156-157; smrf/distribute/solar.py 215-225. -/
def resume {ι : Type} (days : ι → ℝ) : Run.State ι := ⟨Restart.initial days, Solar.initial ι⟩

end Verif.Split
