import Verif.Idw
import Verif.Topo
import Mathlib.Data.List.FinRange

/-!
Model of `smrf/spatial/grid.py` (interpolation of gridded data with an elevation trend), of
`smrf/utils/utils.py:430-449`, and of the choice of the method in `smrf/distribute/image_data.py:210-261`.
Real arithmetic. The interpolators of scipy and `np.polyfit` are parameters.
-/

namespace Verif.GridInterp

open Verif.Idw (constrain)

/-- A scipy interpolator for one target point: from the values at the `n` data cells to the value at the
target; `none` is NaN (a target outside the hull of the data cells). -/
abbrev Interp (n : Nat) := (Fin n → ℝ) → Option ℝ

/-- The options of `grid_method`. `smrf/framework/CoreConfig.ini:183-186`. -/
inductive Method where
  | nearest
  | linear
  | cubic
  deriving DecidableEq

inductive Err where
  | typeError
  | valueError
  | noData
  deriving DecidableEq

/-- `grid_interpolate_deconstructed`: the interpolator it applies; `none` when it returns Python's `None`.
`smrf/utils/utils.py:446-449`. -/
def deconstructed {n : Nat} (I : Method → Interp n) : Method → Option (Interp n)
  | .cubic => some (I .cubic)
  | .linear => some (I .linear)
  | .nearest => none

/-! ### One trend for the whole domain -/

/-- `self.mask[i]`: the mask at the pixel nearest to the data cell; `none` for the error of an empty grid.
`smrf/spatial/grid.py:77-94`. -/
noncomputable def maskAt (X Y : List ℝ) (mask : Nat → Nat → Bool) (x y : ℝ) : Option Bool :=
  (Topo.argmin (X.map fun v => |v - x|)).bind fun xi =>
    (Topo.argmin (Y.map fun v => |v - y|)).map fun yi => mask yi xi

/-- What `np.polyfit` gets. `smrf/spatial/grid.py:189`. -/
def maskPoints {n : Nat} (z d : Fin n → ℝ) (mask : Fin n → Bool) : List (ℝ × ℝ) :=
  ((List.finRange n).filter mask).map fun i => (z i, d i)

/-- `detrendedInterpolationMask` for one target of elevation `Z`. `polyfit` of no points is a `TypeError`.
`fit` is `np.polyfit(z, v, 1)`. Data with NaN is not modelled. `smrf/spatial/grid.py:179-212`. -/
noncomputable def interpMask {n : Nat} (fit : List (ℝ × ℝ) → ℝ × ℝ) (flag : Int) (I : Method → Interp n)
    (m : Method) (z d : Fin n → ℝ) (mask : Fin n → Bool) (Z : ℝ) : Except Err (Option ℝ) :=
  if maskPoints z d mask = [] then .error .typeError
  else
    let pv := constrain flag (fit (maskPoints z d mask))
    .ok ((I m fun i => d i - (z i * pv.1 + pv.2)).map fun r => r + pv.1 * Z + pv.2)

/-! ### Local trends -/

/-- Distance of two data cells in degrees. `smrf/spatial/grid.py:60-61`. -/
noncomputable def degDist {n : Nat} (lat lon : Fin n → ℝ) (i j : Fin n) : ℝ :=
  Real.sqrt ((lat j - lat i) ^ 2 + (lon j - lon i) ^ 2)

/-- The `k` nearest data cells of cell `i`. `sort_values` is a quicksort, so the order of equal distances is
not specified: `order` is the sorting. `smrf/spatial/grid.py:62`. -/
noncomputable def neighbours {n : Nat} (order : (Fin n → ℝ) → List (Fin n)) (lat lon : Fin n → ℝ) (k : Nat)
    (i : Fin n) : List (Fin n) :=
  (order (degDist lat lon i)).take k

/-- The row kept by `drop_duplicates(keep='first')`: the first neighbour, whose elevation and value are used for
the residual. The list is not empty, `interpLocal` has excluded that. `smrf/spatial/grid.py:132-134`. -/
def first {n : Nat} (nb : List (Fin n)) (i : Fin n) : Fin n :=
  match nb with
  | j :: _ => j
  | [] => i

/-- The trend at data cell `i`: fitted to its neighbours, then constrained.
`smrf/spatial/grid.py:124-142`. -/
noncomputable def localTrend {n : Nat} (fit : List (ℝ × ℝ) → ℝ × ℝ) (flag : Int) (z d : Fin n → ℝ)
    (nb : List (Fin n)) : ℝ × ℝ :=
  constrain flag (fit (nb.map fun j => (z j, d j)))

/-- `detrendedInterpolationLocal` for one target of elevation `Z`. More neighbours than cells: the assignment to the
row of `dist_df` is a `ValueError` in the constructor (`k = 0` leaves an empty table, here the same error). With
`nearest` the three interpolations are `None`, and `None * GridZ` is a `TypeError`.
`smrf/spatial/grid.py:52-75,115-177`. -/
noncomputable def interpLocal {n : Nat} (fit : List (ℝ × ℝ) → ℝ × ℝ) (flag : Int) (I : Method → Interp n)
    (m : Method) (order : (Fin n → ℝ) → List (Fin n)) (lat lon : Fin n → ℝ) (k : Nat) (z d : Fin n → ℝ)
    (Z : ℝ) : Except Err (Option ℝ) :=
  if n < k ∨ k = 0 then .error .valueError
  else
    match deconstructed I m with
    | none => .error .typeError
    | some J =>
      let nb := neighbours order lat lon k
      let pv := fun i => localTrend fit flag z d (nb i)
      let residual := fun i => d (first (nb i) i) - (z (first (nb i) i) * (pv i).1 + (pv i).2)
      .ok ((J residual).bind fun r => (J fun i => (pv i).1).bind fun s => (J fun i => (pv i).2).map fun c =>
        r + s * Z + c)

/-! ### The choice of the method -/

/-- `config['distribution']`. -/
inductive Dist where
  | idw
  | dk
  | grid
  | kriging
  deriving DecidableEq

/-- The entries of the configuration of a variable that matter for the trend. -/
structure Cfg where
  method : Dist
  detrend : Bool
  slope : Int

/-- The trend that is taken out of the values before the interpolation and put back afterwards; `none` when the values
are interpolated as they are. `idw` and `grid` (whole domain) pass `detrend_slope` on, `dk` reads it itself and does not
look at `detrend`, `kriging` calls `detrendData(data)` with the default flag 0.
`smrf/distribute/image_data.py:232-258`, `smrf/spatial/dk/dk.py:85-91,147-153`, `smrf/spatial/kriging.py:76-79,109-131`. -/
noncomputable def trend (cfg : Cfg) (fit : List (ℝ × ℝ) → ℝ × ℝ) (pts : List (ℝ × ℝ)) : Option (ℝ × ℝ) :=
  match cfg.method with
  | .idw => if cfg.detrend = true then some (constrain cfg.slope (fit pts)) else none
  | .dk => some (constrain cfg.slope (fit pts))
  | .grid => if cfg.detrend = true then some (constrain cfg.slope (fit pts)) else none
  | .kriging => if cfg.detrend = true then some (constrain 0 (fit pts)) else none

/-- `_distribute` for one cell. The exception when no station has a value; otherwise the method interpolates the values or
the residuals (`interp`, a function of the positions only, so not of the elevation of the cell) and puts the trend back.
`sta` are the stations of the module in their order. `smrf/distribute/image_data.py:225-261`. -/
noncomputable def distribute (cfg : Cfg) (fit : List (ℝ × ℝ) → ℝ × ℝ)
    (interp : List Idw.Station → ℝ × ℝ → ℝ) (sta : List Idw.Station) (g : Idw.Cell) : Except Err ℝ :=
  if sta.all (fun s => s.val.isNone) = true then .error .noData
  else
    match trend cfg fit (Idw.points sta) with
    | none => .ok (interp sta (g.x, g.y))
    | some pv =>
      .ok (interp (sta.map fun s => { s with val := s.val.map (· - (s.z * pv.1 + pv.2)) }) (g.x, g.y)
        + pv.1 * g.z + pv.2)

end Verif.GridInterp
