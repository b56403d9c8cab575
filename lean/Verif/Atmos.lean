import Verif.Twostream
import Verif.Sun

/-!
Model of `direct_solar_irradiance` (`smrf/envphys/solar/irradiance.py`) and of the mask of the cells without sun in
`stoporad` (`smrf/envphys/solar/toporad.py`). Exact real arithmetic.
-/

namespace Verif.Atmos

open Verif.Calendar (DT)
open Verif.Sun (Out ephemeris)

/-- `d.replace(hour=12, minute=0, second=0)`. irradiance.py 38. -/
def noon (t : DT) : DT := { t with sec := 43200 }

/-- `direct_solar_irradiance`. `solint` is the integral of the solar spectrum between two wavelengths (Akima interpolation and
quadrature of scipy, irradiance.py 49-77). irradiance.py 12-46. -/
noncomputable def irradiance (solint : ℝ → ℝ → ℝ) (fuel : Nat) (t : DT) (w : List ℝ) : Out ℝ :=
  match w with
  | [a, b] =>
    match ephemeris fuel (noon t) with
    | .ok (_, _, r) => .ok (solint a b / r ^ 2)
    | .divZero => .divZero
    | .assertion => .assertion
    | .invalid => .invalid
    | .noFuel => .noFuel
  | _ => .invalid

/-- `no_sun_mask` for one cell; `h` is the value of `topocalc.horizon` there. The tangent of a right angle (`cosz = 1`) is
0 in Lean and a large number in the code. toporad.py 59-61. -/
def NoSun (h cosz : ℝ) : Prop := Real.tan |h| > Real.tan (Real.pi / 2 - Real.arccos cosz)

end Verif.Atmos
