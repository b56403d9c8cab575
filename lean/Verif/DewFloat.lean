import Verif.Run
import Verif.IdwFloatProps

/-!
The single precision numbers on the way of the dew point from the solver to the image: the tolerance is declared `float` in the wrapper
and the temperature of a cell is kept in a `float` while it is converted to Celsius. `IdwFloat.binary n` rounds to `n` binary digits; the
limits of the exponent and the rounding inside the solver are not modelled.
-/

namespace Verif.DewFloat
open Verif.Vapor

/-- A number stored in a `float`. -/
noncomputable def single (x : ℝ) : ℝ := IdwFloat.binary 24 x

/-- `dpt_p = (float) ...; dpt_p -= FREEZE; dpt[samp] = dpt_p;` `FREEZE` is a `double`, so the subtraction is done in double precision and
its result is rounded to a `float`. smrf/envphys/core/dewpt.c 24, 37-44, envphys.h 31. -/
noncomputable def toCelsius (x : ℝ) : ℝ := single (IdwFloat.binary 53 (single x - IdwFloat.binary 53 freeze))

/-- `cdewpt` at one cell: the tolerance arrives as a `float` (smrf/envphys/core/envphys_c.pyx 73-97), the loop of `dewpt`
(dewpt.c 33-45). A failed solver returns 0 kelvin; `none` as in `Run.dewCelsius`. -/
noncomputable def dewCelsius (fuel : Nat) (tol e : ℝ) : Option ℝ :=
  (Dewpoint.dewPoint fuel e Run.eps (single tol)).map fun r => match r with
    | .root x => toCelsius x
    | .notSpanned => toCelsius 0
    | .noConvergence => toCelsius 0

/-- `ind = dpt >= ta; dpt[ind] = ta[ind] - 0.2` at one cell, in double precision. smrf/distribute/vapor_pressure.py 140-146. -/
noncomputable def below (ta d : ℝ) : ℝ :=
  if ta ≤ d then IdwFloat.binary 53 (ta - IdwFloat.binary 53 (2 / 10)) else d

end Verif.DewFloat
