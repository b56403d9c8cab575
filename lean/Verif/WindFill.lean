import Verif.Utils
import Verif.Csv
import Mathlib.Algebra.Order.Field.Basic

/-!
Model of the last part of `simulateWind` (`smrf/distribute/wind/winstral.py` 276-285): the measured wind is put into the cells of
the stations, missing cells are filled (`nan_helper` of `smrf/utils/utils.py` and `np.interp`), and the limits are applied.
Exact arithmetic; a missing value (NaN) is `none`; an image is the list of its rows.
-/

namespace Verif.WindFill

abbrev Image (K : Type) := List (List (Option K))

inductive Err where
  | value
  deriving DecidableEq

/-- `img[y, x] = v`. The pixels of the stations are positions of the smallest distance on the axes of the image, so they are
inside of it (C71). -/
def setCell {K : Type} (img : Image K) (p : Nat × Nat) (v : Option K) : Image K :=
  img.modify p.1 fun row => row.set p.2 v

/-- `cellwind[self.metadata.yi, self.metadata.xi] = data_speed`: by position, the names play no part. A single value is used for
all pixels; otherwise another number of values than pixels is a `ValueError`. Of two stations in one pixel the last one
counts. winstral.py 277. -/
def putStations {K : Type} (sta : List (Csv.Name × (Nat × Nat))) (speed : List (Csv.Name × Option K)) (img : Image K) :
    Except Err (Image K) :=
  if speed.length = sta.length then
    .ok ((List.zip (sta.map (·.2)) (speed.map (·.2))).foldl (fun m p => setCell m p.1 p.2) img)
  else
    match speed with
    | [s] => .ok ((sta.map (·.2)).foldl (fun m p => setCell m p s.2) img)
    | _ => .error .value

/-- The cells with a value, row by row, with the number of their row: `x(~nans)` and `cellwind[~nans]`. `nan_helper` returns
the first of the two index arrays, so a cell is known by its row only. utils.py 134; winstral.py 280-283. -/
def known {K : Type} : Nat → Image K → List (Nat × K)
  | _, [] => []
  | k, row :: rows => (row.filterMap fun c => c.map fun v => (k, v)) ++ known (k + 1) rows

section
variable {K : Type} [Field K]

/-- `np.interp(x, xp, fp)` for one `x` and points that do not decrease: the last point that is not beyond `x`, and the line from
there to the next; outside the value at the end. No points are a `ValueError`. winstral.py 283. -/
def interp (pts : List (Nat × K)) (x : Nat) : Option K :=
  match (pts.filter fun p => decide (p.1 ≤ x)).getLast?, (pts.filter fun p => decide (x < p.1)).head? with
  | some b, some a =>
    if b.1 = x then some b.2 else some ((a.2 - b.2) / ((a.1 : K) - b.1) * ((x : K) - b.1) + b.2)
  | some b, none => some b.2
  | none, some a => some a.2
  | none, none => none

/-- `cellwind[nans] = ...`: a missing cell of row `k` gets the interpolated value, the others keep theirs. -/
def fillCell (pts : List (Nat × K)) (k : Nat) : Option K → Option K
  | some v => some v
  | none => interp pts k

/-- One row. -/
def fillRow (pts : List (Nat × K)) (k : Nat) (row : List (Option K)) : List (Option K) := row.map (fillCell pts k)

/-- All rows. -/
def fillRows (pts : List (Nat × K)) : Nat → Image K → Image K
  | _, [] => []
  | k, row :: rows => fillRow pts k row :: fillRows pts (k + 1) rows

/-- winstral.py 280-283. -/
def fill (img : Image K) : Except Err (Image K) :=
  if img.all (fun row => row.all Option.isSome) then .ok img
  else if known 0 img = [] then .error .value
  else .ok (fillRows (known 0 img) 0 img)

/-- winstral.py 276-285, from the wind of the cells to `wind_speed`. -/
def finish [LinearOrder K] (lo hi : Option K) (sta : List (Csv.Name × (Nat × Nat))) (speed : List (Csv.Name × Option K))
    (img : Image K) : Except Err (Image K) :=
  match putStations sta speed img with
  | .error e => .error e
  | .ok m =>
    match fill m with
    | .error e => .error e
    | .ok m' => .ok (Utils.setMinMax lo hi m')
end

end Verif.WindFill
