import Verif.Grid
import Mathlib.Algebra.Order.Floor.Ring
import Mathlib.Data.Rat.Floor

/-!
Model of the gridded input: the cells of a generic netCDF file (`smrf/data/netcdf.py`), the times of netCDF and WRF files
(`smrf/data/wrf.py`), and the cloud factor of the steps of a run that loads HRRR data step by step
(`smrf/data/hrrr_grib.py`, `smrf/framework/model_framework.py`).
-/

namespace Verif.NcInput

inductive Err where
  | indexError
  | typeError
  deriving DecidableEq

/-! ### Cells of a netCDF file -/

section
variable {K : Type} [LinearOrder K]

/-- A coordinate variable of the file with its dimensions. -/
inductive Coord (K : Type) where
  | one (n : Nat) (f : Nat → K)
  | two (ny nx : Nat) (f : Nat → Nat → K)

/-- `ndim` -/
def Coord.ndim : Coord K → Nat
  | .one _ _ => 1
  | .two _ _ _ => 2

/-- `mlat.ndim != 2 & mlon.ndim != 2`. Python binds `&` tighter than `!=` and chains the comparisons:
`mlat.ndim != (2 & mlon.ndim) and (2 & mlon.ndim) != 2`. netcdf.py 48. -/
def useMesh (latDim lonDim : Nat) : Bool := latDim != (2 &&& lonDim) && (2 &&& lonDim) != 2

/-- The values one after the other, as `np.meshgrid` takes them: their number and the value at a position. -/
def Coord.ravel : Coord K → Nat × (Nat → K)
  | .one n f => (n, f)
  | .two ny nx f => (ny * nx, fun k => f (k / nx) (k % nx))

/-- A two-dimensional grid of latitudes and longitudes. -/
structure LatLon (K : Type) where
  ny : Nat
  nx : Nat
  lat : Nat → Nat → K
  lon : Nat → Nat → K

/-- The latitudes and longitudes that are compared with the box. Without `meshgrid`, arrays of different dimensions end in an
`IndexError` when they are indexed with the mask (arrays that broadcast are not distinguished from these).
netcdf.py 48-49. -/
def grids (lat lon : Coord K) : Except Err (LatLon K) :=
  if useMesh lat.ndim lon.ndim = true then
    .ok ⟨lat.ravel.1, lon.ravel.1, fun y _ => lat.ravel.2 y, fun _ x => lon.ravel.2 x⟩
  else
    match lat, lon with
    | .two ny nx f, .two ny' nx' g => if ny = ny' ∧ nx = nx' then .ok ⟨ny, nx, f, g⟩ else .error .indexError
    | _, _ => .error .indexError

/-- The bounding box: lonmin, latmin, lonmax, latmax. -/
structure Box (K : Type) where
  lonmin : K
  latmin : K
  lonmax : K
  latmax : K

/-- `ind`. netcdf.py 52-55. -/
def inside (b : Box K) (g : LatLon K) (y x : Nat) : Bool :=
  decide (g.lat y x ≥ b.latmin) && decide (g.lat y x ≤ b.latmax) && decide (g.lon y x ≥ b.lonmin) &&
    decide (g.lon y x ≤ b.lonmax)

/-- `v[ind]`: the values of the cells in the mask, row by row. -/
def pick {V : Type} (ny nx : Nat) (ind : Nat → Nat → Bool) (v : Nat → Nat → V) : List V :=
  ((List.range ny).flatMap fun y => (List.range nx).filterMap fun x => if ind y x then some (v y x) else none)

/-- `np.argwhere(ind)`: the positions, row by row. -/
def argwhere (ny nx : Nat) (ind : Nat → Nat → Bool) : List (Nat × Nat) :=
  ((List.range ny).flatMap fun y => (List.range nx).map fun x => (y, x)).filter fun i => ind i.1 i.2

/-- `metadata_name_from_index`: `'grid_y{:d}_x{:d}'`. netcdf.py 9-10. -/
def cellName (i : Nat × Nat) : List Char :=
  "grid_y".toList ++ Nat.toDigits 10 i.1 ++ "_x".toList ++ Nat.toDigits 10 i.2

/-- A row of the metadata with the column of the table of a variable that has its name. -/
structure Cell (K V : Type) where
  name : List Char
  lat : K
  lon : K
  elev : K
  series : List V

/-- `load` for one variable `v` (time, y, x) with `nt` times: the metadata gets the columns by position, the table of the
variable gets a column for each index. Elevations of another shape than the grid are an `IndexError`.
netcdf.py 44-78, 95-98. -/
def load {V : Type} (lat lon : Coord K) (hny hnx : Nat) (elev : Nat → Nat → K) (b : Box K) (nt : Nat)
    (v : Nat → Nat → Nat → V) : Except Err (List (Cell K V)) :=
  match grids lat lon with
  | .error e => .error e
  | .ok g =>
    if g.ny = hny ∧ g.nx = hnx then
      let ind := inside b g
      let a := argwhere g.ny g.nx ind
      let table := List.zip (a.map cellName) (List.zip (pick g.ny g.nx ind g.lat)
        (List.zip (pick g.ny g.nx ind g.lon) (pick g.ny g.nx ind elev)))
      .ok (List.zipWith (fun m i => ⟨m.1, m.2.1, m.2.2.1, m.2.2.2, (List.range nt).map fun t => v t i.1 i.2⟩) table a)
    else .error .indexError
end

/-! ### Times -/

/-- `astype(int)`: the number without its fraction. -/
def trunc {K : Type} [Field K] [LinearOrder K] [FloorRing K] (v : K) : Int := if 0 ≤ v then ⌊v⌋ else ⌈v⌉

/-- `nc.num2date(t[:].astype(int), units, calendar)` in seconds: `unit` is the number of seconds of the unit of the file,
`base` its reference time. netcdf.py 80-86. -/
def ncTime {K : Type} [Field K] [LinearOrder K] [FloorRing K] (unit base : Int) (v : K) : Int := base + unit * trunc v

/-- `load` of WRF data: the positions of the times between start and end. Times are aware of the time zone only if it is
UTC (by its name); other times are naive and cannot be compared with the start date, which always has a time zone
(model_framework.py 183-206). `tz` is `str(self.time_zone)`. wrf.py 42-57, 122-125. -/
def wrfTimes (tz : List Char) (times : List Int) (start stop : Int) : Except Err (List Int) :=
  if tz.map Char.toLower = "utc".toList then .ok (times.filter fun t => decide (t ≥ start) && decide (t ≤ stop))
  else .error .typeError

/-! ### HRRR data loaded step by step -/

section
variable {K : Type} [Field K] [LinearOrder K]

/-- The memory of `check_cloud_factor` after each of the rows, which is the cloud factor handed on. -/
def cloudSteps (memory : Option (List (Option K))) : List (List (Option K)) → List (Option (List (Option K)))
  | [] => []
  | row :: rows => Grid.checkCloud memory row :: cloudSteps (Grid.checkCloud memory row) rows

/-- The cloud factor of the steps of a serial run: `load_timestep` is called for every step. `rows` are the cloud factors of
`parse_data` for the steps. model_framework.py 408-410; hrrr_grib.py 94-104. -/
def serialClouds (rows : List (List (Option K))) : List (List (Option K)) := (cloudSteps none rows).filterMap id

/-- The cloud factor of the steps of a threaded run: the first is the row loaded when the input was created, without
`check_cloud_factor`; the data thread loads the others. input_data.py 61; model_framework.py 533-556;
hrrr_grib.py 106-120. -/
def threadClouds (rows : List (List (Option K))) : List (List (Option K)) :=
  match rows with
  | [] => []
  | row :: rest => row :: (cloudSteps none rest).filterMap id

end

end Verif.NcInput
