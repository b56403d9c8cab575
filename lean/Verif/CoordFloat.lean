import Verif.RestartFloat

/-!
The coordinates in the output files. Rounding as in `RestartFloat`: to the nearest number with 24 binary digits, no overflow,
underflow or NaN.
-/

namespace Verif.CoordFloat
open Verif.RestartFloat (Precision)

/-- The coordinates of the grid in metres. `smrf/data/load_topo.py:62-63`. -/
structure Axes where
  x : List ℝ
  y : List ℝ

/-- A variable with type code `f`. `smrf/output/output_netcdf.py:88-89`, `smrf/utils/wind/model.py:475-476`. -/
noncomputable def stored (a : ℝ) : ℝ := IdwFloat.binary 24 a

/-- The coordinates of a new output file, given the option `netcdf_output_precision`: the option is only used for the variable itself.
`smrf/output/output_netcdf.py:57,86-93,139-140`, `smrf/utils/wind/model.py:474-477,496-497`. -/
noncomputable def written (_p : Precision) (a : Axes) : Axes := ⟨a.x.map stored, a.y.map stored⟩

end Verif.CoordFloat
