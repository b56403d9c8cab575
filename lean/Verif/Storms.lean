import Mathlib.Algebra.Order.Field.Basic
import Mathlib.Algebra.BigOperators.Group.Finset.Basic
import Mathlib.Data.Fintype.Basic
import Mathlib.Data.Fintype.BigOperators

/-!
Model of `smrf/envphys/storms.py`.

Numbers are elements of a linearly ordered field (rounding is not modelled). A missing
measurement (NaN) in a table is `none`.
-/

namespace Verif.Storms

/-! ### tracking_by_station -/

/-- `row.max()` of pandas: NaN cells are skipped, NaN (`none`) if nothing is left.
`smrf/envphys/storms.py:165`. -/
def rowMax {K : Type} [LinearOrder K] : List (Option K) → Option K
  | [] => none
  | none :: r => rowMax r
  | some x :: r =>
    match rowMax r with
    | none => some x
    | some m => some (max x m)

/-- `row.max() > mass_thresh` (a comparison with NaN is false). `smrf/envphys/storms.py:165`. -/
def wetRow {K : Type} [LinearOrder K] (thr : K) (row : List (Option K)) : Bool :=
  match rowMax row with
  | none => false
  | some m => decide (thr < m)

/-- A storm entry: `start`, `end` and one mass per station, in column order.
`smrf/envphys/storms.py:168-181`. Station names are represented by their column number (a station
called `start` or `end` is not modelled). -/
structure Storm (T K : Type) where
  start : T
  stop : T
  mass : List (Option K)
deriving DecidableEq

/-- Addition of floats where NaN propagates. -/
def addN {K : Type} [Add K] : Option K → Option K → Option K
  | some a, some b => some (a + b)
  | _, _ => none

/-- The loop variables: finished storms, the open storm (`is_storming` is `cur.isSome`; `new_storm`
is dead when not storming) and `time_steps_since_precip`. `smrf/envphys/storms.py:154-159`. -/
structure Track (T K : Type) where
  closed : List (Storm T K)
  cur : Option (Storm T K)
  cnt : Nat

section
variable {T K : Type} [LinearOrder K] [AddZeroClass K]

/-- The branch on the row, lines 165-188: a row above the threshold opens a storm if there is none,
resets the counter, moves the end and adds the masses; otherwise an open storm whose counter is
below the limit is extended and the counter increased.
`smrf/envphys/storms.py:165-188`. -/
def trackRow (thr : K) (n : Nat) (st : Track T K) (t : T) (row : List (Option K)) : Track T K :=
  if wetRow thr row = true then
    let s := match st.cur with
      | some s => s
      | none => ⟨t, t, row.map fun _ => some 0⟩
    { st with cur := some { s with stop := t, mass := List.zipWith addN s.mass row }, cnt := 0 }
  else
    match st.cur with
    | some s =>
      if st.cnt < n then
        { st with cur := some { s with stop := t }, cnt := st.cnt + 1 }
      else st
    | none => st

/-- Lines 190-192: close the storm when the counter has reached the limit.
`smrf/envphys/storms.py:190-192`. -/
def trackClose (n : Nat) (st : Track T K) : Track T K :=
  match st.cur with
  | some s => if n ≤ st.cnt then { st with closed := st.closed ++ [s], cur := none } else st
  | none => st

/-- One pass of the loop. `smrf/envphys/storms.py:161-193`. -/
def trackStep (thr : K) (n : Nat) (st : Track T K) (t : T) (row : List (Option K)) : Track T K :=
  trackClose n (trackRow thr n st t row)

/-- The loop over the rows of the table. `smrf/envphys/storms.py:161-193`. -/
def trackLoop (thr : K) (n : Nat) (st : Track T K) : List (T × List (Option K)) → Track T K
  | [] => st
  | (t, row) :: rest => trackLoop thr n (trackStep thr n st t row) rest

/-- `tracking_by_station`: the storms and their number. `smrf/envphys/storms.py:114-210`; the
returned table is a list of rows. `n` is `steps_thresh` (a negative one behaves like 0). -/
def trackingByStation (thr : K) (n : Nat) (rows : List (T × List (Option K))) :
    List (Storm T K) × Nat :=
  let st := trackLoop thr n ⟨[], none, 0⟩ rows
  let storms := st.closed ++ st.cur.toList
  (storms, storms.length)

end

/-! ### tracking_by_basin -/

/-- An entry of `storm_lst`. The end is `None` only between lines 249 and 253.
`smrf/envphys/storms.py:248-253`. -/
structure Span (T : Type) where
  start : T
  stop : Option T
deriving DecidableEq

/-- `storm_lst[-1]['end'] = time`. `smrf/envphys/storms.py:253`. -/
def setLastStop {T : Type} (t : T) : List (Span T) → List (Span T)
  | [] => []
  | [s] => [{ s with stop := some t }]
  | s :: r => s :: setLastStop t r

/-- The values handed from call to call: `storm_lst`, `time_steps_since_precip`, `is_storming`. -/
structure Basin (T : Type) where
  lst : List (Span T)
  cnt : Nat
  storming : Bool

/-- `tracking_by_basin`; `wet` is `precipitation.max() > mass_thresh`.
`smrf/envphys/storms.py:213-266`. -/
def trackingByBasin {T : Type} (n : Nat) (wet : Bool) (t : T) (b : Basin T) : Basin T :=
  let b1 :=
    if wet = true then
      let b' := if b.lst.length = 0 ∨ b.storming = false then
          { b with lst := b.lst ++ [⟨t, none⟩], storming := true }
        else b
      { b' with lst := setLastStop t b'.lst, cnt := 0 }
    else if b.storming = true ∧ b.cnt < n then
      { b with cnt := b.cnt + 1 }
    else b
  if n ≤ b1.cnt then { b1 with storming := false } else b1

/-- The calls of one run: images tested against the threshold at the times 0, 1, 2, ... -/
def basinLoop {T : Type} (n : Nat) (b : Basin T) : List (T × Bool) → Basin T
  | [] => b
  | (t, w) :: rest => basinLoop n (trackingByBasin n w t b) rest

/-- `precipitation.max() > mass_thresh` for an image: numpy's maximum is NaN if any cell is NaN, and
the comparison is then false. The maximum of an empty image (an exception) is not modelled.
`smrf/envphys/storms.py:246`. -/
def imageWet {K : Type} [LinearOrder K] (thr : K) (img : List (Option K)) : Bool :=
  img.all Option.isSome && wetRow thr img

/-! ### clip_and_correct -/

section
variable {K : Type} [Field K] [LinearOrder K]

/-- `my_slice` copied into `precip_clipped`, the rest zero; the storms' starts and ends are row
numbers and `.loc` is inclusive. `smrf/envphys/storms.py:294-302`. -/
def clipRow (storms : List (Storm Nat K)) (i : Nat) (row : List (Option K)) : List (Option K) :=
  if storms.any (fun s => decide (s.start ≤ i) && decide (i ≤ s.stop)) = true then row
  else row.map fun _ => some 0

/-- The clipped table. `smrf/envphys/storms.py:294-302`. -/
def clip (storms : List (Storm Nat K)) (precip : List (List (Option K))) : List (List (Option K)) :=
  precip.mapIdx (clipRow storms)

/-- `precip[station].sum()`: NaN is skipped. `smrf/envphys/storms.py:311-312`. The column number
must be one of the table's (otherwise the code raises `KeyError`; see `correction`). -/
def columnSum (tbl : List (List (Option K))) (k : Nat) : K :=
  (tbl.filterMap fun row => (row[k]?).join).sum

/-- The correction of one station. `smrf/envphys/storms.py:310-321`. -/
def correction (precip clipped : List (List (Option K))) (k : Nat) : K :=
  let original := columnSum precip k
  let cl := columnSum clipped k
  if original = 0 then 1
  else if cl = 0 then 0
  else original / cl

/-- `precip_clipped.mul(pd.Series(correction), axis=1)`; a station that is not in `stations` has no
correction and its column becomes NaN. `smrf/envphys/storms.py:323`. -/
def correctRow (stations : List Nat) (c : Nat → K) (row : List (Option K)) : List (Option K) :=
  row.mapIdx fun k x => if k ∈ stations then x.map (· * c k) else none

/-- `clip_and_correct` with the list of stations given as column numbers of the table (the caller
passes the columns themselves, `smrf/distribute/precipitation.py:186-196`; an empty list means all
columns). `smrf/envphys/storms.py:269-323`. -/
def clipAndCorrect (storms : List (Storm Nat K)) (width : Nat) (stations : List Nat)
    (precip : List (List (Option K))) : List (List (Option K)) :=
  let clipped := clip storms precip
  let stations := if stations.length = 0 then List.range width else stations
  clipped.map (correctRow stations (correction precip clipped))

end

/-! ### time_since_storm -/

section
variable {K : Type} [Field K] [LinearOrder K] {ι : Type} [Fintype ι]
open scoped BigOperators

/-- The two images handed from call to call. -/
structure Clock (ι K : Type) where
  days : ι → K
  precip : ι → K

/-- `time_since_storm` with both images given (the only caller passes them,
`smrf/distribute/precipitation.py:430-437`). Images are functions from cells; NaN cells are not
modelled here. The argument `time_step` is accepted and never used, as in the code.
`smrf/envphys/storms.py:5-67`. -/
def timeSinceStorm (precip perc : ι → K) (_timeStep mass time : K) (thresh : K)
    (c : Clock ι K) : Clock ι K :=
  let days1 := fun i => c.days i + 1
  if ∑ i, perc i = 0 then
    ⟨days1, fun _ => 0⟩
  else
    let sp1 := fun i => if time ≤ days1 i then 0 else c.precip i
    let sp2 := fun i => if thresh ≤ perc i then precip i else sp1 i
    ⟨fun i => if mass ≤ sp2 i then 0 else days1 i, sp2⟩

/-- The test `dpt.min() < 2.0`: some cell is below 2 (the minimum of an empty image is not
modelled). `smrf/envphys/storms.py:101`. -/
def coldSomewhere (dpt : ι → K) : Prop := ∃ i, dpt i < 2

instance (dpt : ι → K) : Decidable (coldSomewhere dpt) :=
  inferInstanceAs (Decidable (∃ i, dpt i < 2))

/-- `time_since_storm_pixel` with `stormDays` given. `smrf/envphys/storms.py:70-111`. -/
def timeSinceStormPixel (precip dpt perc : ι → K) (storming : Bool) (timeStep mass thresh : K)
    (days : ι → K) : ι → K :=
  let days1 := fun i => days i + timeStep
  if storming = true ∧ coldSomewhere dpt then
    fun i => if mass ≤ precip i ∧ thresh ≤ perc i then 0 else days1 i
  else days1

end

end Verif.Storms
