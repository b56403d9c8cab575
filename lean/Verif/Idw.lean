import Mathlib.Analysis.SpecialFunctions.Pow.Real

/-!
Model of inverse distance weighting with and without elevation trend, `smrf/spatial/idw.py`, and of the
detrending shared with `smrf/spatial/dk/dk.py`. Real arithmetic, extended by the infinities and NaN of
numpy because the code divides by distances that can be zero.
-/

namespace Verif.Idw

/-- A float: a number, an infinity or NaN. -/
inductive Ext where
  | fin (x : ℝ)
  | pinf
  | ninf
  | nan

/-- Infinity with the sign of `x`; NaN for zero. -/
noncomputable def signInf (x : ℝ) : Ext := if 0 < x then .pinf else if x < 0 then .ninf else .nan

namespace Ext

/-- Product of floats (IEEE 754). -/
noncomputable def mul : Ext → Ext → Ext
  | .fin a, .fin b => .fin (a * b)
  | .fin a, .pinf => signInf a
  | .fin a, .ninf => signInf (-a)
  | .pinf, .fin b => signInf b
  | .ninf, .fin b => signInf (-b)
  | .pinf, .pinf => .pinf
  | .ninf, .ninf => .pinf
  | .pinf, .ninf => .ninf
  | .ninf, .pinf => .ninf
  | _, _ => .nan

/-- Sum of floats. -/
noncomputable def add : Ext → Ext → Ext
  | .fin a, .fin b => .fin (a + b)
  | .fin _, .pinf => .pinf
  | .fin _, .ninf => .ninf
  | .pinf, .fin _ => .pinf
  | .ninf, .fin _ => .ninf
  | .pinf, .pinf => .pinf
  | .ninf, .ninf => .ninf
  | _, _ => .nan

/-- Quotient of floats. A zero divisor here is always a sum of no terms, `+0`. -/
noncomputable def div : Ext → Ext → Ext
  | .fin a, .fin b => if b = 0 then signInf a else .fin (a / b)
  | .fin _, .pinf => .fin 0
  | .fin _, .ninf => .fin 0
  | .pinf, .fin b => if b < 0 then .ninf else .pinf
  | .ninf, .fin b => if b < 0 then .pinf else .ninf
  | _, _ => .nan

/-- `np.sum`. -/
noncomputable def sum (l : List Ext) : Ext := l.foldr add (.fin 0)

/-- `np.nansum`: NaN entries count as zero. -/
noncomputable def nansum (l : List Ext) : Ext :=
  sum (l.map fun x => match x with | .nan => .fin 0 | y => y)

end Ext

/-- A station with its value at the step; NaN is `none`. `_distribute` selects the values in the order
of the stations, so position and value stay together (`smrf/distribute/image_data.py:228`). -/
structure Station where
  x : ℝ
  y : ℝ
  z : ℝ
  val : Option ℝ

/-- A grid cell. -/
structure Cell where
  x : ℝ
  y : ℝ
  z : ℝ

inductive Err where
  | valueError
  deriving DecidableEq

/-- Distance of a cell to a station. `smrf/spatial/idw.py:65-66`. -/
noncomputable def dist (g : Cell) (s : Station) : ℝ := Real.sqrt ((g.x - s.x) ^ 2 + (g.y - s.y) ^ 2)

/-- `np.min(self.distance)`; an empty array is a `ValueError` (`none`). `smrf/spatial/idw.py:69`. -/
noncomputable def minimum : List ℝ → Option ℝ
  | [] => none
  | x :: xs => some (xs.foldl min x)

/-- All distances. -/
noncomputable def allDist (grid : List Cell) (sta : List Station) : List ℝ :=
  grid.flatMap fun g => sta.map (dist g)

/-- `self.distance[self.distance == 0] = m`. `smrf/spatial/idw.py:69`. -/
noncomputable def distance (m : ℝ) (g : Cell) (s : Station) : ℝ := if dist g s = 0 then m else dist g s

/-- `1.0/(np.power(distance, power))`: a power of zero is zero, one or infinity by the sign of the
exponent. `smrf/spatial/idw.py:77`. -/
noncomputable def weight (p d : ℝ) : Ext :=
  if d = 0 then (if 0 < p then .pinf else if p < 0 then .fin 0 else .fin 1) else .fin (1 / d ^ p)

/-- The stations with data, as pairs of weight and value. `smrf/spatial/idw.py:88-90`. -/
noncomputable def selected (p m : ℝ) (sta : List Station) (g : Cell) : List (Ext × ℝ) :=
  sta.filterMap fun s => s.val.map fun v => (weight p (distance m g s), v)

/-- One cell of `calculateIDW`. `smrf/spatial/idw.py:92`. -/
noncomputable def cellValue (l : List (Ext × ℝ)) : Ext :=
  Ext.div (Ext.nansum (l.map fun wv => wv.1.mul (.fin wv.2))) (Ext.sum (l.map Prod.fst))

/-- The constructor and `calculateIDW`: the image, one value per cell. `smrf/spatial/idw.py:14-94`. -/
noncomputable def calculateIDW (p : ℝ) (grid : List Cell) (sta : List Station) : Except Err (List Ext) :=
  match minimum (allDist grid sta) with
  | none => .error .valueError
  | some m => .ok (grid.map fun g => cellValue (selected p m sta g))

/-! ### Detrending -/

/-- Elevation and value of the stations with data: what `np.polyfit` gets.
`smrf/spatial/idw.py:120-121`, `smrf/spatial/dk/dk.py:147`. -/
def points (sta : List Station) : List (ℝ × ℝ) := sta.filterMap fun s => s.val.map fun v => (s.z, v)

/-- The constraint on the slope. `smrf/spatial/idw.py:124-127`, `smrf/spatial/dk/dk.py:150-153`. -/
noncomputable def constrain (flag : Int) (pv : ℝ × ℝ) : ℝ × ℝ :=
  if flag = 1 ∧ pv.1 < 0 then (0, 0)
  else if flag = -1 ∧ 0 < pv.1 then (0, 0)
  else pv

/-- `detrendData` with `zeros=None` (every caller passes None, `smrf/distribute/precipitation.py:354`
and the default): the trend and the stations with residuals. `fit` is `np.polyfit(z, v, 1)`.
`smrf/spatial/idw.py:112-136`. -/
noncomputable def detrend (fit : List (ℝ × ℝ) → ℝ × ℝ) (flag : Int) (sta : List Station) :
    (ℝ × ℝ) × List Station :=
  let pv := constrain flag (fit (points sta))
  (pv, sta.map fun s => { s with val := s.val.map (· - (s.z * pv.1 + pv.2)) })

/-- `retrendData`. `smrf/spatial/idw.py:138-144`. -/
noncomputable def retrend (pv : ℝ × ℝ) (g : Cell) (v : Ext) : Ext :=
  (v.add (.fin (pv.1 * g.z))).add (.fin pv.2)

/-- `detrendedIDW` with `zeros=None`. `smrf/spatial/idw.py:96-110`. -/
noncomputable def detrendedIDW (fit : List (ℝ × ℝ) → ℝ × ℝ) (flag : Int) (p : ℝ) (grid : List Cell)
    (sta : List Station) : Except Err (List Ext) :=
  let d := detrend fit flag sta
  match calculateIDW p grid d.2 with
  | .error e => .error e
  | .ok img => .ok (List.zipWith (retrend d.1) grid img)

/-- `DK.detrendData`, the sum of the weighted residuals and `retrendData` at one cell, given the
weights of the stations with data there. `smrf/spatial/dk/dk.py:86-94,139-168`. -/
noncomputable def krigedCell (fit : List (ℝ × ℝ) → ℝ × ℝ) (flag : Int) (sta : List Station)
    (weights : List ℝ) (g : Cell) : ℝ :=
  let pv := constrain flag (fit (points sta))
  let residuals := (points sta).map fun q => q.2 - (q.1 * pv.1 + pv.2)
  (List.zipWith (· * ·) weights residuals).sum + pv.1 * g.z + pv.2

end Verif.Idw
