import Mathlib.Algebra.Order.Field.Basic
import Mathlib.Algebra.Order.Ring.Abs
import Mathlib.Algebra.BigOperators.Group.List.Basic

/-!
Model of `smrf/data/load_topo.py`: reading the images, cell size and centre of the basin; and of the pixel of a
station (`smrf/data/input_data.py`). Exact arithmetic; NaN is `none`.
-/

namespace Verif.Topo

/-- `Topo.IMAGES`. load_topo.py 25. -/
def images : List String := ["dem", "mask", "veg_type", "veg_height", "veg_k", "veg_tau"]

/-- `.astype(int)` for the vegetation type, `.astype(np.float64)` for the others. load_topo.py 108-111. -/
def convert {A B : Type} (toInt toFloat : A → B) (v : String) (a : A) : B :=
  if v = "veg_type" then toInt a else toFloat a

/-- The loop of `readImages`. `vars` are the variables of the file, `result` the local variable, unbound at first,
`attrs` the attributes set so far. The `setattr` is outside of the `if`. `none` is the error of an unbound variable.
load_topo.py 105-113. -/
def readLoop {A B : Type} (toInt toFloat : A → B) (vars : String → Option A) :
    List String → Option B → List (String × B) → Option (List (String × B))
  | [], _, attrs => some attrs
  | v :: vs, result, attrs =>
    let result := match vars v with
      | some a => some (convert toInt toFloat v a)
      | none => result
    match result with
    | none => none
    | some r => readLoop toInt toFloat vars vs (some r) (attrs ++ [(v, r)])

/-- `readImages`. load_topo.py 96-113. -/
def readImages {A B : Type} (toInt toFloat : A → B) (vars : String → Option A) : Option (List (String × B)) :=
  readLoop toInt toFloat vars images none []

variable {K : Type} [Field K] [LinearOrder K]

/-- `np.diff`. -/
def diffs : List K → List K
  | a :: b :: l => (b - a) :: diffs (b :: l)
  | _ => []

/-- `mean`; `none` is NaN. -/
def mean (l : List K) : Option K := if l.length = 0 then none else some (l.sum / l.length)

/-- `self.dx`. load_topo.py 70. -/
def dx (x : List K) : Option K := mean (diffs x)

/-- `self.dy`. load_topo.py 71. -/
def dy (y : List K) : Option K := (mean (diffs y)).map fun d => |d|

/-- `np.argwhere(mask == 1)`: the positions in rows, then columns; `mask` has `ny` rows and `nx` columns.
load_topo.py 137. -/
def inside (mask : Nat → Nat → K) (ny nx : Nat) : List (Nat × Nat) :=
  (List.range ny).flatMap fun i => ((List.range nx).filter fun j => decide (mask i j = 1)).map fun j => (i, j)

/-- `get_center` with a mask; the axes have `nx` and `ny` values. load_topo.py 132-146. -/
def center (x y : Nat → K) (mask : Nat → Nat → K) (ny nx : Nat) : Option K × Option K :=
  let ids := inside mask ny nx
  (mean (ids.map fun p => x p.2), mean (ids.map fun p => y p.1))

/-- `np.argmin` without NaN: the first smallest value. `none` for the error of an empty array. -/
def argmin : List K → Option Nat
  | [] => none
  | a :: l => match argmin l with
    | none => some 0
    | some k => match l[k]? with
      | none => some 0
      | some b => if b < a then some (k + 1) else some 0

/-- `find_pixel_location`; `a` is the coordinate of the station. With a NaN all distances are NaN and `argmin` gives
the first of them. input_data.py 205. -/
def pixel (vec : List K) (a : Option K) : Option Nat :=
  match a with
  | some a => argmin (vec.map fun v => |v - a|)
  | none => if vec.length = 0 then none else some 0

end Verif.Topo
