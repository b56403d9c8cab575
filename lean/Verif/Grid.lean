import Mathlib.Algebra.Order.Field.Basic
import Mathlib.Analysis.SpecialFunctions.Complex.Arg
import Mathlib.Analysis.SpecialFunctions.Sqrt

/-!
Model of the conversion of gridded weather data: `smrf/data/wrf.py` (precipitation, wind),
`smrf/data/hrrr_grib.py` (wind, cloud factor of single time steps) and `get_hrrr_cloud` of
`smrf/envphys/solar/cloud.py`. Exact arithmetic, NaN is `none`; one column of a data frame at a time where the
columns do not interact.
-/

namespace Verif.Grid

/-! ### WRF precipitation -/

section Precip

variable {K : Type} [Field K]

/-- Difference of two values that may be missing. -/
def sub? (a b : Option K) : Option K := match a, b with
  | some a, some b => some (a - b)
  | _, _ => none

/-- `DataFrame.diff(axis=0)` after the first row. -/
def diffRest : List (Option K) → List (Option K)
  | a :: b :: l => sub? b a :: diffRest (b :: l)
  | _ => []

/-- The hourly values from the running totals of one cell. The first row of the differences is NaN and is set to 0; no
rows at all is an error (`none`). wrf.py 179-180. -/
def wrfPrecip (totals : List (Option K)) : Option (List (Option K)) :=
  match totals with
  | [] => none
  | a :: l =>
    let d := none :: diffRest (a :: l)
    some (some 0 :: d.tail)

end Precip

/-! ### Wind -/

/-- `np.sqrt(u10**2 + v10**2)`. wrf.py 166; hrrr_grib.py 186. -/
noncomputable def windSpeed (u v : ℝ) : ℝ := Real.sqrt (u ^ 2 + v ^ 2)

open Classical in
/-- `np.degrees(np.arctan2(v10, u10))`, 360 added to negative values. `arctan2 y x` is the argument of `x + i y`.
wrf.py 169-171; hrrr_grib.py 188-192. -/
noncomputable def windDirection (u v : ℝ) : ℝ :=
  let d := Complex.arg ⟨u, v⟩ * 180 / Real.pi
  if d < 0 then d + 360 else d

/-! ### Cloud factor -/

section Cloud

variable {K : Type} [Field K] [LinearOrder K]

/-- Modelled radiation over clear sky radiation for one time. Both are set to 0 where the clear sky radiation is
below 50, and 0/0 is NaN. cloud.py 75-79. -/
def ratio (solar : Option K) (basin : K) : Option K :=
  if basin < 50 then none else solar.map fun s => s / basin

/-- The last valid value at or before position `k`. -/
def prev (l : List (Option K)) : Nat → Option (Nat × K)
  | 0 => match l[0]? with
    | some (some a) => some (0, a)
    | _ => none
  | k + 1 => match l[k + 1]? with
    | some (some a) => some (k + 1, a)
    | _ => prev l k

/-- The first valid value of a list, with its position counted from `k`. -/
def next : List (Option K) → Nat → Option (Nat × K)
  | [], _ => none
  | some a :: _, k => some (k, a)
  | none :: l, k => next l (k + 1)

/-- `interpolate(method='linear').ffill()` at position `k`: linear between the valid neighbours, the last valid value
behind the last one, NaN before the first one. cloud.py 82; hrrr_grib.py 216. -/
def interpolateAt (l : List (Option K)) (k : Nat) : Option K :=
  match prev l k with
  | none => none
  | some (i, a) => match next (l.drop k) k with
    | none => some a
    | some (j, b) => if i = j then some a else some (a + (b - a) * (((k : K) - i) / ((j : K) - i)))

/-- The limits 0 and 1; NaN stays. cloud.py 85-86. -/
def clip (v : Option K) : Option K :=
  v.map fun v =>
    let v := if v > 1 then 1 else v
    if v < 0 then 0 else v

/-- `get_hrrr_cloud` for one column: the radiation of the times and the clear sky radiation. cloud.py 62-88. -/
def hrrrCloud (data : List (Option K × K)) : List (Option K) :=
  let cf := data.map fun p => ratio p.1 p.2
  (List.range cf.length).map fun k => clip (interpolateAt cf k)

/-- `check_cloud_factor`, the first time: `row` is the cloud factor of the only time of the data for all cells.
hrrr_grib.py 205-210. -/
def firstRow (row : List (Option K)) : List (Option K) :=
  if row.any (fun v => v.isNone) then row.map fun _ => some 1 else row

/-- `check_cloud_factor` later: the last row of the memory and the new row are interpolated, the new row is kept.
hrrr_grib.py 212-221. -/
def laterRow (memory row : List (Option K)) : List (Option K) :=
  List.zipWith (fun m v => interpolateAt [m, v] 1) memory row

/-- The memory after a time step. -/
def checkCloud (memory : Option (List (Option K))) (row : List (Option K)) : Option (List (Option K)) :=
  match memory with
  | none => some (firstRow row)
  | some m => some (laterRow m row)

/-- The memory after a sequence of time steps; it is also the cloud factor handed on in the last one. -/
def runCloud (rows : List (List (Option K))) : Option (List (Option K)) := rows.foldl checkCloud none

end Cloud

end Verif.Grid
