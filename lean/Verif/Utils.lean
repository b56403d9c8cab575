import Mathlib.Algebra.Order.Field.Basic
import Mathlib.Algebra.BigOperators.Group.Finset.Basic
import Mathlib.Data.Fintype.BigOperators

/-
Small utilities: `set_min_max`, `check_station_colocation`, `interp_weights`, `grid_interpolate`
(smrf/utils/utils.py 137-161, 267-303, 377-427) and `getStations`, `_initialize`
(smrf/distribute/image_data.py 110-160).
-/

namespace Verif.Utils

/-! ### set_min_max -/

section
variable {K : Type} [LinearOrder K]

/-- `data[data <= min_val] = min_val`; `none` is `-inf` (utils.py 150-155). Comparisons with NaN are
false. -/
def clampLow (lo : Option K) : Option K → Option K
  | none => none
  | some x => match lo with
    | none => some x
    | some l => if x ≤ l then some l else some x

/-- `data[data >= max_val] = max_val`; `none` is `inf` (utils.py 148-149, 156). -/
def clampHigh (hi : Option K) : Option K → Option K
  | none => none
  | some x => match hi with
    | none => some x
    | some h => if h ≤ x then some h else some x

/-- One cell of `set_min_max` (utils.py 137-161); NaN cells are restored at the end. -/
def clampCell (lo hi : Option K) (c : Option K) : Option K :=
  match c with
  | none => none
  | some _ => clampHigh hi (clampLow lo c)

/-- `set_min_max` on a grid. -/
def setMinMax (lo hi : Option K) (data : List (List (Option K))) : List (List (Option K)) :=
  data.map (List.map (clampCell lo hi))
end

/-! ### check_station_colocation -/

/-- A row of the metadata table: identifier and grid position. -/
structure Station (C : Type) where
  id : String
  xi : C
  yi : C
  deriving DecidableEq

section
variable {C : Type} [DecidableEq C]

/-- `Series.unique()`: the values in order of first appearance. -/
def unique : List C → List C → List C
  | seen, [] => seen
  | seen, x :: xs => if x ∈ seen then unique seen xs else unique (seen ++ [x]) xs

/-- `metadata.index[x_search & y_search].tolist()` (utils.py 292-294). -/
def stationsAt (md : List (Station C)) (x y : C) : List (Station C) :=
  md.filter fun s => s.xi = x && s.yi = y

/-- The double loop over unique coordinates (utils.py 289-297). -/
def groups (md : List (Station C)) (xs ys : List C) : List (List (Station C)) :=
  (xs.map fun x => (ys.map fun y => stationsAt md x y).filter fun g => decide (1 < g.length)).flatten

/-- `check_station_colocation` (utils.py 267-303): groups of stations at one position, `None` when
there are none. (The identifiers of the stations are returned; here the whole rows.) -/
def colocation (md : List (Station C)) : Option (List (List (Station C))) :=
  let r := groups md (unique [] (md.map (·.xi))) (unique [] (md.map (·.yi)))
  if r.length = 0 then none else some r
end

/-! ### Linear interpolation on a triangulation -/

section
variable {K : Type} [Field K] [LinearOrder K]
open scoped BigOperators

/-- `delta = uv - temp[:, d]`, `bary = T·delta`, weights `bary, 1 - sum(bary)` for one target `u`
(utils.py 400-404). `T` and the reference vertex `r` are `tri.transform` of the simplex found; `d` is
the dimension. Weight `Fin.last d` is the one of the reference vertex. -/
def bary {d : Nat} (T : Fin d → Fin d → K) (r u : Fin d → K) (j : Fin d) : K :=
  ∑ k, T j k * (u k - r k)

/-- Weight of the reference vertex. -/
def lastWeight {d : Nat} (T : Fin d → Fin d → K) (r u : Fin d → K) : K :=
  1 - ∑ j, bary T r u j

/-- `grid_interpolate` for one target (utils.py 422-423): the weighted sum of the vertex values, or the
fill value when a weight is negative. `v j` is the value at vertex `j`, `vr` at the reference
vertex. -/
def interpolate {d : Nat} (T : Fin d → Fin d → K) (r u : Fin d → K) (v : Fin d → K) (vr : K)
    (fill : Option K) : Option K :=
  if (∃ j, bary T r u j < 0) ∨ lastWeight T r u < 0 then fill
  else some ((∑ j, v j * bary T r u j) + vr * lastWeight T r u)
end

/-! ### Selection of stations -/

/-- Python's `list.sort()` sorts in place and returns `None`. -/
def listSort (_l : List String) : Option (List String) := none

/-- `getStations` (image_data.py 110-125): `self.stations` from the configuration entry. -/
def getStations (config : Option (List String)) : Option (List String) :=
  match config with
  | none => none
  | some l => listSort l

/-- The station part of `_initialize` (image_data.py 154-159): the stations the variable is
distributed from; `none` is the KeyError of `metadata.loc` for an unknown station. -/
def selectStations (stations : Option (List String)) (index : List String) :
    Option (List String) :=
  match stations with
  | some l => if l.all (· ∈ index) then some l else none
  | none => some index

/-- The whole selection for one variable. -/
def usedStations (config : Option (List String)) (index : List String) : Option (List String) :=
  selectStations (getStations config) index

end Verif.Utils
