import Verif.KrigeFloat
import Verif.IdwFloat

/-!
One cell of `DK.calculate` (smrf/spatial/dk/dk.py) in arithmetic with rounding: the residuals of the stations, their sum weighted with the
kriging weights of `KrigeFloat`, and the trend added again. The order in which numpy adds is left open. The trend of `np.polyfit` is any two
numbers; overflow, underflow and NaN are not modelled here.
-/

namespace Verif.KrigeCell
open Verif.IdwFloat (Order Arith)

/-- The residual of a station: `el_trend = mz * pv[0] + pv[1]; residuals = data - el_trend`. smrf/spatial/dk/dk.py 152-159. -/
def residual (rnd : ℝ → ℝ) (a b : ℝ) (z v : Nat → ℝ) (n : Nat) : ℝ := rnd (v n - rnd (rnd (z n * a) + b))

/-- `np.nansum(self.weights * self.residuals, 2)` at a cell, then `r + self.pv[0]*self.GridZ + self.pv[1]`.
smrf/spatial/dk/dk.py 92-95, 161-168. -/
noncomputable def cell (rnd : ℝ → ℝ) (a b : ℝ) (z w v : Nat → ℝ) (zg : ℝ) (o : Order Nat) : ℝ :=
  rnd (rnd (o.sum ⟨rnd, fun x _ => x⟩ (fun n => rnd (w n * residual rnd a b z v n)) + rnd (a * zg)) + b)

/-- With the weights that `call_grid` leaves; `none` when it ends the process. smrf/spatial/dk/dk.py 62-97, 129-132. -/
noncomputable def kriged (rnd : ℝ → ℝ) (mem : Krige.Mem ℝ) (nsta : Nat) (ad : Nat → Nat → ℝ) (dgrid z v : Nat → ℝ) (a b zg : ℝ) (o : Order Nat) :
    Option ℝ :=
  match KrigeFloat.krige rnd mem nsta ad dgrid z with
  | .weights w => some (cell rnd a b z w v zg o)
  | .exit => none
  | .stuck => none

end Verif.KrigeCell
