import Mathlib.Algebra.Order.Archimedean.Basic
import Mathlib.Data.Rat.Floor
import Mathlib.Analysis.SpecialFunctions.Trigonometric.Basic

/-!
Model of the directions of `smrf/utils/wind/model.py`: the list of search directions (`maxus`), the far end of the
search (`maxus_angle`) and the average over a window of directions (`windower`, `ismember`).

Directions and windows are whole or half degrees, which floats represent exactly; they are rationals here. The
far end is modelled over ℝ with exact sine and cosine.
-/

namespace Verif.Window

/-- `np.arange(start, stop, step)` for a positive step. -/
def arange (start stop step : Rat) : List Rat :=
  (List.range ⌈(stop - start) / step⌉.toNat).map fun k : Nat => start + k * step

/-- The directions for which the slopes are calculated. model.py 88-89. -/
def directions (inc : Nat) : List Rat := arange 0 360 inc

/-- `np.diff`. -/
def diffs : List Rat → List Rat
  | a :: b :: l => (b - a) :: diffs (b :: l)
  | _ => []

/-- Conversion of a float to `int`: towards zero. -/
def trunc (a : Rat) : Int := if 0 ≤ a then ⌊a⌋ else ⌈a⌉

/-- `np.mean(np.diff(directions), dtype=int)`: every difference and the quotient are converted to `int`; `none`
for fewer than two directions, where numpy divides zero by zero. model.py 243. -/
def increment (ds : List Rat) : Option Int :=
  match diffs ds with
  | [] => none
  | l => some (trunc (((l.map trunc).sum : Int) / (l.length : Rat)))

/-- The correction of a direction at the edges. model.py 257-258. -/
def wrap (a : Rat) : Rat :=
  let a := if a < 0 then a + 360 else a
  if a > 360 then a - 360 else a

/-- The directions of the window about `d`; `w` is the full width. model.py 242, 250-258. -/
def window (inc : Int) (w d : Rat) : List Rat :=
  (arange (d - w / 2) (d + w / 2 + 1) inc).map wrap

/-- `ismember`, for the test of one element. model.py 271-276. -/
def ismember (a b : List Rat) : List Bool := a.map fun x => decide (x ∈ b)

/-- The values at the directions selected. model.py 261-264. -/
def pick {α : Type} : List Bool → List α → List α
  | true :: bs, v :: vs => v :: pick bs vs
  | false :: bs, _ :: vs => pick bs vs
  | _, _ => []

/-- `np.mean`; `none` is NaN. -/
def mean (l : List Rat) : Option Rat := if l.length = 0 then none else some (l.sum / l.length)

/-- The averaged values of one cell, one for each direction; `none` if the increment cannot be found.
model.py 241-267. -/
def windower (ds : List Rat) (w : Rat) (values : List Rat) : Option (List (Option Rat)) :=
  (increment ds).map fun inc => ds.map fun d => mean (pick (ismember ds (window inc w d)) values)

/-- The far end of the search from column `X`, row `Y`, for the azimuth `angle` in degrees.
model.py 184-193. -/
noncomputable def farEnd (dx dy dmax angle : ℝ) (X Y : Int) : Int × Int :=
  let a := angle * (Real.pi / 180)
  (⌊(X * dx + dmax * Real.cos (a - Real.pi / 2)) / dx + 0.5⌋,
   ⌊(Y * dy + dmax * Real.sin (a - Real.pi / 2)) / dy + 0.5⌋)

end Verif.Window
