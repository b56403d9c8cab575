import Verif.Idw

/-!
Inverse distance weighting (`smrf/spatial/idw.py`) in arithmetic with rounding. Every operation of the code is followed by a
rounding; the order in which numpy adds is left open. Overflow, underflow, infinities and NaN are not modelled here (`Idw` has
infinities and NaN without rounding).
-/

namespace Verif.IdwFloat

open Verif.Idw (Station Cell)

/-- An arithmetic: the rounding after an operation and the function `power` of the C library. -/
structure Arith where
  rnd : ℝ → ℝ
  pow : ℝ → ℝ → ℝ

/-- The order of a sum: numpy adds in pairs, in blocks or from left to right, depending on the shape and the memory layout. -/
inductive Order (α : Type) where
  | one (a : α)
  | both (l r : Order α)

namespace Order

/-- What is added, from left to right. -/
def items {α : Type} : Order α → List α
  | one a => [a]
  | both l r => l.items ++ r.items

/-- The longest chain of additions. -/
def depth {α : Type} : Order α → Nat
  | one _ => 0
  | both l r => max l.depth r.depth + 1

/-- The sum with rounding. -/
noncomputable def sum {α : Type} (A : Arith) (f : α → ℝ) : Order α → ℝ
  | one a => f a
  | both l r => A.rnd (l.sum A f + r.sum A f)

end Order

/-- Distance of a cell to a station. `smrf/spatial/idw.py:65-66`. -/
noncomputable def dist (A : Arith) (g : Cell) (s : Station) : ℝ :=
  let dx := A.rnd (g.x - s.x)
  let dy := A.rnd (g.y - s.y)
  A.rnd (Real.sqrt (A.rnd (A.rnd (dx * dx) + A.rnd (dy * dy))))

/-- `self.distance[self.distance == 0] = np.min(self.distance)`; `m` is the smallest distance. `smrf/spatial/idw.py:69`. -/
noncomputable def distance (A : Arith) (m : ℝ) (g : Cell) (s : Station) : ℝ := if dist A g s = 0 then m else dist A g s

/-- The weight. `smrf/spatial/idw.py:77`. -/
noncomputable def weight (A : Arith) (p m : ℝ) (g : Cell) (s : Station) : ℝ := A.rnd (1 / A.pow (distance A m g s) p)

/-- One cell of `calculateIDW`; `o` and `o'` are the orders of the two sums over the stations with data (with their values).
`smrf/spatial/idw.py:88-92`. -/
noncomputable def cellValue (A : Arith) (p m : ℝ) (g : Cell) (o o' : Order (Station × ℝ)) : ℝ :=
  A.rnd (o.sum A (fun q => A.rnd (weight A p m g q.1 * q.2)) / o'.sum A (fun q => weight A p m g q.1))

/-- The residual of a station. `smrf/spatial/idw.py:132,136`. -/
noncomputable def residual (A : Arith) (pv : ℝ × ℝ) (q : Station × ℝ) : ℝ := A.rnd (q.2 - A.rnd (A.rnd (q.1.z * pv.1) + pv.2))

/-- One cell of `detrendedIDW` with the trend `pv` of `np.polyfit` after the constraint (any two numbers).
`smrf/spatial/idw.py:96-110,132-144`. -/
noncomputable def detrendedValue (A : Arith) (pv : ℝ × ℝ) (p m : ℝ) (g : Cell) (o o' : Order (Station × ℝ)) : ℝ :=
  let v := A.rnd (o.sum A (fun q => A.rnd (weight A p m g q.1 * residual A pv q)) / o'.sum A (fun q => weight A p m g q.1))
  A.rnd (A.rnd (v + A.rnd (pv.1 * g.z)) + pv.2)

end Verif.IdwFloat
