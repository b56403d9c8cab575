import Verif.Idw

/-!
Model of `smrf/spatial/kriging.py` (the distribution `kriging`, a wrapper of pykrige) and of `np.meshgrid` in
`smrf/data/load_topo.py:62-65`. Real arithmetic. `OrdinaryKriging` and `np.polyfit` are parameters.
-/

namespace Verif.Pykrige

/-- The options of `krig_coordinates_type`. `smrf/framework/CoreConfig.ini:238-242`. -/
inductive Coordinates where
  | euclidean
  | geographic
  deriving DecidableEq

/-- The options of `krig_variogram_model`. `smrf/framework/CoreConfig.ini:209-212`. -/
inductive Variogram where
  | linear
  | power
  | gaussian
  | spherical
  | exponential
  | holeEffect
  deriving DecidableEq

/-- What pykrige is told. `smrf/spatial/kriging.py:82-94`; `coordinates` is the argument `coordinates_type` of
`OrdinaryKriging`, which has the default `'euclidean'`. -/
structure Options where
  variogram : Variogram
  nlags : Nat
  weight : Bool
  scaling : ℝ
  angle : ℝ
  coordinates : Coordinates

/-- The configuration of a variable: `detrend` and the items `krig_*`. `smrf/framework/CoreConfig.ini:209-242`. -/
structure Config where
  detrend : Bool
  variogram : Variogram
  nlags : Nat
  weight : Bool
  scaling : ℝ
  angle : ℝ
  coordinates : Coordinates

/-- A pykrige estimator: options, points with their values, place of the estimate; the estimate and its variance. -/
abbrev Ordinary := Options → List (ℝ × ℝ × ℝ) → ℝ × ℝ → ℝ × ℝ

/-- The grid: `topo.X`, `topo.Y` and `topo.dem` with their shape. -/
structure Grid where
  ny : Nat
  nx : Nat
  X : Nat → Nat → ℝ
  Y : Nat → Nat → ℝ
  Z : Nat → Nat → ℝ

/-- `np.meshgrid(x, y)` with the elevations. Vectors as functions of the index. `smrf/data/load_topo.py:59-65`. -/
def meshgrid (ny nx : Nat) (x y : Nat → ℝ) (dem : Nat → Nat → ℝ) : Grid := ⟨ny, nx, fun _ j => x j, fun i _ => y i, dem⟩

/-- The instance: the configuration of the constructor and the trend of the last `detrendData`.
`smrf/spatial/kriging.py:11-56,131`. -/
structure Instance where
  config : Config
  pv : Option (ℝ × ℝ)

/-- The arguments of `OrdinaryKriging`: `self.coordinates_type` is set (line 52) but not passed.
`smrf/spatial/kriging.py:40-52,82-94`. -/
def Instance.options (k : Instance) : Options :=
  ⟨k.config.variogram, k.config.nlags, k.config.weight, k.config.scaling, k.config.angle, .euclidean⟩

inductive Err where
  | typeError
  | attributeError
  deriving DecidableEq

/-- `detrendData(data)` with the default flag 0: the stations with residuals, the trend stays in the instance. `np.polyfit` of no
points is a `TypeError`. `smrf/spatial/kriging.py:121-139`. -/
noncomputable def detrendData (fit : List (ℝ × ℝ) → ℝ × ℝ) (k : Instance) (sta : List Idw.Station) :
    Except Err (List Idw.Station × Instance) :=
  if Idw.points sta = [] then .error .typeError
  else
    let pv := Idw.constrain 0 (fit (Idw.points sta))
    .ok (sta.map fun s => { s with val := s.val.map (· - (s.z * pv.1 + pv.2)) }, { k with pv := some pv })

/-- The points handed to pykrige: `mx[~nan_val]`, `my[~nan_val]`, `d[~nan_val]`. `d` is NaN where the data are. `smrf/spatial/kriging.py:75,82-84`. -/
def known (sta : List Idw.Station) : List (ℝ × ℝ × ℝ) := sta.filterMap fun s => s.val.map fun v => (s.x, s.y, v)

/-- `OK.execute('grid', GridX[0, :], GridY[:, 0])`: an array with a row for every y and a column for every x.
`smrf/spatial/kriging.py:96-100`. -/
def execute (ok : List (ℝ × ℝ × ℝ) → ℝ × ℝ → ℝ × ℝ) (pts : List (ℝ × ℝ × ℝ)) (g : Grid) : List (List (ℝ × ℝ)) :=
  (List.range g.ny).map fun i => (List.range g.nx).map fun j => ok pts (g.X 0 j, g.Y i 0)

/-- `retrendData`: the arrays have one shape. `smrf/spatial/kriging.py:141-147`. -/
noncomputable def retrendData (k : Instance) (g : Grid) (v : List (List ℝ)) : Except Err (List (List ℝ)) :=
  match k.pv with
  | none => .error .attributeError
  | some pv => .ok (v.mapIdx fun i row => row.mapIdx fun j r => r + pv.1 * g.Z i j + pv.2)

/-- `calculate`: the image, the variance and the instance afterwards. `smrf/spatial/kriging.py:58-106`. -/
noncomputable def calculate (ok : Ordinary) (fit : List (ℝ × ℝ) → ℝ × ℝ) (g : Grid) (k : Instance) (sta : List Idw.Station) :
    Except Err (List (List ℝ) × List (List ℝ) × Instance) := do
  let (d, k) ← if k.config.detrend = true then detrendData fit k sta else .ok (sta, k)
  let out := execute (ok k.options) (known d) g
  let v := out.map fun row => row.map Prod.fst
  let ss := out.map fun row => row.map Prod.snd
  let v ← if k.config.detrend = true then retrendData k g v else .ok v
  .ok (v, ss, k)

/-- A run: `calculate` at every step with the values of the step; the instance is kept.
`smrf/distribute/image_data.py:197-203,225-227,256-263`; the exception of a step without any value ends the run. -/
noncomputable def run (ok : Ordinary) (fit : List (ℝ × ℝ) → ℝ × ℝ) (g : Grid) (sta : List Idw.Station) :
    Instance → List (List (Option ℝ)) → Except Err (List (List (List ℝ)))
  | _, [] => .ok []
  | k, d :: steps => do
    let (v, _, k) ← calculate ok fit g k (List.zipWith (fun s x => { s with val := x }) sta d)
    let rest ← run ok fit g sta k steps
    .ok (v :: rest)

end Verif.Pykrige
