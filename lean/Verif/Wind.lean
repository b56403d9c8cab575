import Mathlib.Algebra.Order.Floor.Ring
import Mathlib.Algebra.Order.Field.Basic
import Mathlib.Analysis.SpecialFunctions.Complex.Arg

/-!
Model of the wind distribution: `smrf/distribute/wind/wind.py` and `smrf/distribute/wind/winstral.py`.
Exact arithmetic; a missing value (NaN) is `none`. One cell or one station at a time, images being
elementwise.
-/

namespace Verif.Wind

/-! ### Direction -/

/-- `np.arctan2(u, v)*180/np.pi` with negative values shifted by 360. There is no negative zero in exact
arithmetic. wind.py 176-178; winstral.py 204-206. -/
noncomputable def azimuth (u v : ℝ) : ℝ :=
  let az := Complex.arg ⟨v, u⟩ * 180 / Real.pi
  if az < 0 then az + 360 else az

/-- `np.sin(data_direction * np.pi/180)`. wind.py 166; winstral.py 368. -/
noncomputable def uDirection (d : ℝ) : ℝ := Real.sin (d * Real.pi / 180)

/-- `np.cos(data_direction * np.pi/180)`. wind.py 167; winstral.py 369. -/
noncomputable def vDirection (d : ℝ) : ℝ := Real.cos (d * Real.pi / 180)

variable {K : Type} [Field K] [LinearOrder K] [FloorRing K]

/-- `self.nstep`. winstral.py 314-315. -/
def nstep (nbins : Nat) : K := 360 / nbins

/-- `dir_round_cell`. winstral.py 208-212. -/
def dirRound (step az : K) : K :=
  let r : K := ⌈(az - step / 2) / step⌉ * step
  let r := if r < 0 then r + 360 else r
  if r = 360 then 0 else r

/-- `np.argwhere(self.maxus_direction == d)[0][0]`; `none` for the `IndexError`. winstral.py 221. -/
def maxusIndex (dirs : List K) (d : K) : Option Nat := dirs.findIdx? fun x => decide (x = d)

/-- The station's `idx`: `int` cuts the fraction off. winstral.py 330-333. -/
def stationIdx (step d : K) : Int :=
  let x : K := ⌈(d - step / 2) / step⌉ * step
  let idx := if 0 ≤ x then ⌊x⌋ else ⌈x⌉
  if idx = 360 then 0 else idx

/-! ### Wind speed of a cell -/

/-- Vegetation: `veg` holds the classes of the configuration and their values (without `default`); its keys
are distinct, being those of a dictionary. winstral.py 225-235. -/
def vegAdjust (veg : List (Int × K)) (dflt : K) (cls : Int) (c : K) : K :=
  let s := veg.foldl (fun (s : K × Bool) kv => if cls = kv.1 then (s.1 + kv.2, false) else s) (c, true)
  if dflt ≠ 0 then (if s.2 then s.1 + dflt else s.1) else s.1

/-- winstral.py 238-239. -/
def clampMaxus (c : K) : K :=
  let c := if 32 < c then 32 else c
  if c < -32 then -32 else c

/-- The cubic used beyond 21.3. winstral.py 248-250, 263-265, 348-350. -/
def steep (c : K) : K := 1.756507 - 0.1678945 * c + 0.01927844 * c ^ 2 - 0.0003651592 * c ^ 3

/-- The cubic used up to 21.3. winstral.py 254-256, 269-271, 354-356. -/
def gentle (c : K) : K := 1.0 + 0.1031717 * c - 0.008003561 * c ^ 2 + 0.0003996581 * c ^ 3

/-- The wind of a cell from the flat wind: masked assignments on an array of zeros. winstral.py 215,
242-274. -/
def cellWind (factor flat c : K) : K :=
  let w : K := 0
  let w := if c < -30.10 then factor * flat * 4.211 else w
  let w := if -30.10 < c ∧ c < -21.3 then factor * flat * steep |c| else w
  let w := if -21.3 < c ∧ c < 0 then factor * flat * gentle |c| else w
  let w := if 30.10 < c then flat / 4.211 else w
  let w := if c < 30.10 ∧ 21.3 < c then flat / steep c else w
  let w := if c < 21.3 ∧ 0 ≤ c then flat / gentle c else w
  w * 1.07985

/-! ### Stations -/

/-- A station with its name in upper case (`m.upper()`), its values at a time step, and the column of the
library at its pixel. -/
structure Sta (K : Type) where
  name : String
  speed : Option K
  direction : Option K
  enhancement : K
  maxus : List K

inductive Err where
  | unbound
  | value
  deriving DecidableEq

/-- `self.maxus[ind, yi, xi] + e` with the mask of the directions equal to `idx`: a single value is used
as a number, several or none end in a `ValueError`. winstral.py 334-336. -/
def tableValue (dirs : List K) (step d : K) (s : Sta K) : Except Err K :=
  match (List.zip dirs s.maxus).filter fun p => decide (p.1 = (stationIdx step d : K)) with
  | [p] => .ok (p.2 + s.enhancement)
  | _ => .error .value

/-- `np.min(self.maxus[:, yi, xi] + e)`. winstral.py 327. -/
def peakValue (s : Sta K) : Except Err K :=
  match s.maxus.map (· + s.enhancement) with
  | [] => .error .value
  | x :: xs => .ok (xs.foldl min x)

/-- `val_maxus` before the limits: `old` is the value of an earlier turn of the loop, if there was one. A
station that is not in the list of peaks gets no new value. winstral.py 324-336. -/
def valMaxus (dirs : List K) (step d : K) (peaks : Option (List String)) (old : Option K) (s : Sta K) :
    Except Err K :=
  match peaks with
  | some l =>
    if s.name ∈ l then peakValue s
    else match old with
      | some v => .ok v
      | none => .error .unbound
  | none => tableValue dirs step d s

/-- winstral.py 339-342. -/
def clampStation (v : K) : K :=
  let v := if 35 < v then 35 else v
  if v < -35 then -35 else v

/-- `expVal`. winstral.py 344-356. -/
def expVal (ma : K) : K :=
  if 21.3 < ma ∧ ma < 30.0 then steep ma else if 30.0 ≤ ma then 4.21 else gentle ma

/-- The wind on flat terrain. winstral.py 358-361. -/
def flatten (v speed : K) : K := if 0 < v then speed * expVal |v| else speed / expVal |v|

/-- One turn of the loop: `val_maxus` and the flat wind of the station. winstral.py 317-363. -/
def stationStep (dirs : List K) (step : K) (peaks : Option (List String)) (old : Option K) (s : Sta K) :
    Except Err (Option K × Option K) :=
  match s.direction with
  | none => .ok (old, none)
  | some d =>
    match valMaxus dirs step d peaks old s with
    | .error e => .error e
    | .ok v =>
      let v := clampStation v
      .ok (some v, s.speed.map (flatten v))

/-- The loop of `stationMaxus`. winstral.py 317-365. -/
def stationMaxus (dirs : List K) (step : K) (peaks : Option (List String)) : Option K → List (Sta K) →
    Except Err (List (Option K))
  | _, [] => .ok []
  | old, s :: ss =>
    match stationStep dirs step peaks old s with
    | .error e => .error e
    | .ok (v, flat) =>
      match stationMaxus dirs step peaks v ss with
      | .error e => .error e
      | .ok rest => .ok (flat :: rest)

end Verif.Wind
