import Verif.Storms
import Verif.IdwFloat

/-!
`clip_and_correct` (`smrf/envphys/storms.py`) in arithmetic with rounding. Every operation is followed by a rounding; the
order in which pandas adds a column is left open. Overflow, underflow and infinities are not modelled. The storms are found by
comparisons of measured values (lines 161-193), which do not round, so they are those of `Storms`.
-/

namespace Verif.ClipFloat

open Verif.Storms (Storm clip)
open Verif.IdwFloat (Arith Order)

/-- What a row adds to the sum of column `k`: pandas puts 0 in the place of NaN. -/
noncomputable def addend (k : Nat) (row : List (Option ℝ)) : ℝ :=
  match row[k]? with
  | some (some x) => x
  | _ => 0

/-- `precip[station].sum()`, over the rows in some order. `smrf/envphys/storms.py:311-312`. -/
noncomputable def columnSum (A : Arith) (k : Nat) (o : Order (List (Option ℝ))) : ℝ := o.sum A (addend k)

/-- The correction of one station from the two sums. `smrf/envphys/storms.py:314-319`. -/
noncomputable def correction (A : Arith) (original clipped : ℝ) : ℝ :=
  if original = 0 then 1 else if clipped = 0 then 0 else A.rnd (original / clipped)

/-- `precip_clipped.mul(pd.Series(correction), axis=1)`. `smrf/envphys/storms.py:323`. -/
noncomputable def correctRow (A : Arith) (stations : List Nat) (c : Nat → ℝ) (row : List (Option ℝ)) : List (Option ℝ) :=
  row.mapIdx fun k x => if k ∈ stations then x.map fun v => A.rnd (v * c k) else none

/-- `clip_and_correct`; `o k` and `o' k` are the orders of the sums of column `k` over the rows of the table and of the
clipped table. `smrf/envphys/storms.py:269-323`. -/
noncomputable def clipAndCorrect (A : Arith) (o o' : Nat → Order (List (Option ℝ))) (storms : List (Storm Nat ℝ))
    (width : Nat) (stations : List Nat) (precip : List (List (Option ℝ))) : List (List (Option ℝ)) :=
  let stations := if stations.length = 0 then List.range width else stations
  (clip storms precip).map (correctRow A stations fun k => correction A (columnSum A k (o k)) (columnSum A k (o' k)))

end Verif.ClipFloat
