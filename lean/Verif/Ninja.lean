import Mathlib.Analysis.SpecialFunctions.Log.Basic

/-!
Model of `smrf/distribute/wind/wind_ninja.py`: the scaling of the speeds with the log law (`initialize`), the
interpolation to the model grid (`grid_interpolate` of `smrf/utils/utils.py`), the filling of the edges
(`fill_data`) and the conversion of the speeds (`convert_wind_ninja`), with the limits of
`smrf/distribute/wind/wind.py`.

Exact real numbers; `none` is NaN. Images are functions of the row and the column. The triangulation is not
modelled: the corners and the first two weights of every cell are given.
-/

namespace Verif.Ninja

open Classical in
/-- The limits of the roughness, in the order of the code; a comparison with NaN is false.
wind_ninja.py 133-135. -/
noncomputable def limitRoughness (r : Option ℝ) : ℝ :=
  let r := r.map fun v => if v < 0.01 then 0.01 else v
  let v := r.getD 0.01
  if v > 1.6 then 1.6 else v

/-- Roughness from the height of the vegetation. wind_ninja.py 129. -/
noncomputable def roughness (vegHeight : Option ℝ) : ℝ := limitRoughness (vegHeight.map fun h => h / 7.39)

/-- `ln_wind_scale`. wind_ninja.py 138-142. -/
noncomputable def scale (veg wn height : ℝ) : ℝ :=
  Real.log ((veg + height) / veg) / Real.log ((wn + height) / wn)

open Classical in
/-- Interpolation in one triangle with the weights `a`, `b`, `1 - a - b`. utils.py 404, 422-423. -/
noncomputable def interpolate (a b v0 v1 v2 : ℝ) : Option ℝ :=
  let c := 1 - (a + b)
  if a < 0 ∨ b < 0 ∨ c < 0 then none else some (v0 * a + v1 * b + v2 * c)

/-- `interp1d(…, fill_value='extrapolate')` beyond the end: the line through the two points at that end. A NaN
gives a NaN. wind_ninja.py 11-23. -/
noncomputable def extrapolate (x0 x1 : ℝ) (y0 y1 : Option ℝ) (x : ℝ) : Option ℝ :=
  match y0, y1 with
  | some a, some b => some (a + (b - a) / (x1 - x0) * (x - x0))
  | _, _ => none

/-- Number of NaN among the first `n` values. -/
def countNaN (f : Nat → Option ℝ) (n : Nat) : Nat := ((List.range n).filter fun k => (f k).isNone).length

/-- The errors of `fill_data`. -/
inductive Err where
  /-- `g_vel[:, ix+1]` is outside the image -/
  | index
  /-- fewer than two values to extrapolate from -/
  | tooFew
  /-- NaN values are left -/
  | stillNaN

/-- The columns left of `ix`. Column coordinates are strictly monotone, so the two points at the end of the
interpolation are the columns `ix` and `ix + 1`. wind_ninja.py 268-274. -/
noncomputable def fillLeft (X : Nat → ℝ) (ix : Nat) (g : Nat → Nat → Option ℝ) : Nat → Nat → Option ℝ :=
  fun r c => if c < ix then extrapolate (X ix) (X (ix + 1)) (g r ix) (g r (ix + 1)) (X c) else g r c

/-- The last `iy` rows, from the two rows above them. wind_ninja.py 277-283. -/
noncomputable def fillBottom (Y : Nat → ℝ) (nr iy : Nat) (g : Nat → Nat → Option ℝ) : Nat → Nat → Option ℝ :=
  fun r c =>
    if nr - iy ≤ r then
      extrapolate (Y (nr - iy - 1)) (Y (nr - iy - 2)) (g (nr - iy - 1) c) (g (nr - iy - 2) c) (Y r)
    else g r c

open Classical in
/-- `fill_data` for an image of `nr` rows and `nc` columns. wind_ninja.py 264-288. -/
noncomputable def fillData (X Y : Nat → ℝ) (nr nc : Nat) (g : Nat → Nat → Option ℝ) :
    Except Err (Nat → Nat → Option ℝ) :=
  let ix := countNaN (g 0) nc
  if nc ≤ ix + 1 then .error .index
  else
    let iy := countNaN (fun r => g r (ix + 1)) nr
    let g1 := if ix > 0 then fillLeft X ix g else g
    if iy > 0 ∧ nr < iy + 2 then .error .tooFew
    else
      let g2 := if iy > 0 then fillBottom Y nr iy g1 else g1
      if ∃ r < nr, ∃ c < nc, g2 r c = none then .error .stillNaN else .ok g2

/-- The speeds of `convert_wind_ninja` from the interpolated ones. `same` says that both grids have the same cell
size. wind_ninja.py 217-223. -/
noncomputable def speeds (X Y : Nat → ℝ) (nr nc : Nat) (same : Bool) (sc : Nat → Nat → ℝ) (g : Nat → Nat → Option ℝ) :
    Except Err (Nat → Nat → Option ℝ) :=
  let filled := if same then .ok g else fillData X Y nr nc g
  filled.map fun g => fun r c => (g r c).map fun v => v * sc r c

/-- The wind models. wind.py 80-91. -/
inductive Kind where
  | interp
  | ninja
  | winstral
  deriving DecidableEq

open Classical in
/-- One cell of `utils.set_min_max` with finite limits: first the minimum, then the maximum; NaN is kept.
utils.py 154-159. -/
noncomputable def limit (lo hi : ℝ) (v : Option ℝ) : Option ℝ :=
  v.map fun v =>
    let v := if v ≤ lo then lo else v
    if v ≥ hi then hi else v

/-- The memory: what the array at an address holds in the cell looked at. -/
abbrev Heap := Nat → Option ℝ

/-- `set_min_max` changes the array it is given and returns it. utils.py 154-161. -/
noncomputable def setMinMax (lo hi : ℝ) (h : Heap) (p : Nat) : Heap × Nat :=
  (fun q => if q = p then limit lo hi (h p) else h q, p)

/-- The end of `distribute`: the attribute of the wind model is taken over and limited. The results are the memory,
the address of `self.wind_speed` and the address of `self.wind_model.wind_speed`, which is the same object
as `self` for the straight interpolation. wind.py 80-85, 184-190. -/
noncomputable def finish (k : Kind) (lo hi : ℝ) (h : Heap) (model : Nat) : Heap × Nat × Nat :=
  let self := model
  let (h, self) := setMinMax lo hi h self
  (h, self, if k = .interp then self else model)

/-- The value put into the queue by the thread. wind.py 212-213. -/
noncomputable def handedOn (k : Kind) (lo hi : ℝ) (h : Heap) (model : Nat) : Option ℝ :=
  let r := finish k lo hi h model
  r.1 r.2.2

end Verif.Ninja
