import Verif.Horizon
import Verif.Window

/-!
Model of the topographic breaks: `tbreak` and `maxus_angle` of `smrf/utils/wind/model.py`, on the models of the
search directions (Window) and of the slopes (Horizon).
-/

namespace Verif.Tbreak

open Verif.Horizon Verif.Window

/-- `a % b` of two floats; `none` is NaN. -/
noncomputable def pmod (a b : ℝ) : Option ℝ := if b = 0 then none else some (a - b * ⌊a / b⌋)

/-- A grid: the number of columns and rows, the coordinates, and the elevations in one row after the other. -/
structure Dem where
  nx : Int
  ny : Int
  x : Int → ℝ
  y : Int → ℝ
  z : Int → ℝ

/-- `self.dx`. model.py 58. -/
noncomputable def Dem.dx (g : Dem) : ℝ := |g.x 1 - g.x 0|

/-- `self.dy`. model.py 59. -/
noncomputable def Dem.dy (g : Dem) : ℝ := |g.y 1 - g.y 0|

/-- What the memory of the C code holds before a call. -/
structure Junk where
  line : Bres.LineData
  arrays : Bres.Arrays ℝ
  horizon : Nat → Nat

/-- One cell of `maxus_angle`: `angle` in degrees, search distance `dist`. model.py 159-215. -/
noncomputable def maxusAngle (g : Dem) (height dist angle : ℝ) (s : Int × Int) (m : Junk) : Option (Option ℝ) :=
  cellMaxus g.nx g.ny g.x g.y g.z s (farEnd g.dx g.dy dist angle s.1 s.2) height m.line m.arrays m.horizon

/-- The difference of two results; `none` inside is NaN, outside a search that does not end. -/
noncomputable def minus : Option (Option ℝ) → Option (Option ℝ) → Option (Option ℝ)
  | some (some a), some (some b) => some (some (a - b))
  | some _, some _ => some none
  | _, _ => none

/-- One cell of `tbreak` for one direction. model.py 147-154. -/
noncomputable def tbreakCell (g : Dem) (height sepdist dmax angle : ℝ) (s : Int × Int) (m1 m2 : Junk) : Option (Option ℝ) :=
  let outlying := maxusAngle g height dmax angle s m1
  let near := maxusAngle g height sepdist angle s m2
  minus near outlying

open Classical in
/-- `tbreak`: the images by direction, or a `ValueError`. The output to the file is left out.
model.py 123-157. -/
noncomputable def tbreak (g : Dem) (height sepdist dmax : ℝ) (inc : Nat) (m : Rat → Int × Int → Junk × Junk) :
    Except Unit (List (Rat × (Int × Int → Option (Option ℝ)))) :=
  if pmod sepdist g.dx ≠ some 0 ∨ pmod dmax g.dx ≠ some 0 then .error ()
  else .ok ((directions inc).map fun a => (a, fun s => tbreakCell g height sepdist dmax (a : ℝ) s (m a s).1 (m a s).2))

end Verif.Tbreak
