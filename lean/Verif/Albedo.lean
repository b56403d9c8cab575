import Mathlib.Analysis.SpecialFunctions.Pow.Real
import Verif.Utils

/-!
Model of the snow albedo functions of `smrf/envphys/albedo.py` and of `Albedo.distribute` of
`smrf/distribute/albedo.py`. Real arithmetic; images are functions of the cell.
-/

namespace Verif.Albedo

/-- The exceptions of this file. `complexNumber` stands for Python's complex result of a negative
float to a fractional power, which the model does not follow. -/
inductive Err where
  | exception
  | valueError
  | keyError
  | zeroDivision
  | complexNumber
  deriving DecidableEq

/-- Grain growth. `smrf/envphys/albedo.py:19-32`. -/
noncomputable def growth (t : ℝ) : ℝ :=
  let factor := (4 + 3 * t + t * t) / (2 + 1 * t + t * t) - 1
  1 - factor

/-- `math.sqrt`: raises `ValueError` for a negative argument. -/
noncomputable def pySqrt (x : ℝ) : Except Err ℝ :=
  if x < 0 then .error .valueError else .ok (Real.sqrt x)

/-- Visible albedo of a cell with effective grain size `gv`. `smrf/envphys/albedo.py:88,94,101-106`. -/
noncomputable def visCell (gv cosz : ℝ) : ℝ :=
  let base := 1 - gv / 500
  let dz := gv * (1375 / 1000000)
  if 0 < cosz then base + dz * (1 - cosz) else base

/-- Infrared albedo of a cell with effective grain size `gir`.
`smrf/envphys/albedo.py:89,95,101-106`. -/
noncomputable def irCell (gir cosz : ℝ) : ℝ :=
  let base := 85447 / 100000 * Real.exp (-(2123 / 100000) * gir)
  let dz := gir * (2 / 1000) + 1 / 10
  if 0 < cosz then base + dz * (1 - cosz) else base

/-- Effective grain size: `radius + range * growth(telapsed + 1)`. `smrf/envphys/albedo.py:74-85`. -/
noncomputable def grain (radius maxRadius telapsed : ℝ) : ℝ :=
  radius + (maxRadius - radius) * growth (telapsed + 1)

/-- `albedo`. The chained comparison `1 >= dirt >= 10` is kept as written.
`smrf/envphys/albedo.py:35-107`. -/
noncomputable def albedo {ι : Type} (telapsed cosz : ι → ℝ) (gsize maxgsz dirt : ℝ) :
    Except Err ((ι → ℝ) × (ι → ℝ)) :=
  if gsize ≤ 0 ∨ 500 < gsize then .error .exception
  else if maxgsz ≤ gsize ∨ 2000 < maxgsz then .error .exception
  else if dirt ≤ 1 ∧ 10 ≤ dirt then .error .exception
  else do
    let rir ← pySqrt gsize
    let mir ← pySqrt maxgsz
    let rv ← pySqrt (dirt * gsize)
    let mv ← pySqrt (dirt * maxgsz)
    .ok (fun i => visCell (grain rv mv (telapsed i)) (cosz i),
         fun i => irCell (grain rir mir (telapsed i)) (cosz i))

/-- A key of the vegetation dictionaries: a class number (a string for which `isint` holds) or another
word. `smrf/distribute/albedo.py:70-81`, `smrf/utils/io.py:35-45`. -/
inductive Key where
  | cls (n : Int)
  | word (s : String)
  deriving DecidableEq

/-- A Python dictionary in insertion order. -/
abbrev Dict := List (Key × ℝ)

/-- `d[k]`. -/
def Dict.get (d : Dict) (k : Key) : Except Err ℝ :=
  match d.find? (fun kv => kv.1 == k) with
  | some kv => .ok kv.2
  | none => .error .keyError

/-- The loop `for k, v in d.items(): if isint(k): img[veg_type == int(k)] = ...` at one cell, with the
values already computed. -/
def assign (d : Dict) (vt : Int) (init : ℝ) : ℝ :=
  d.foldl (fun acc kv => if kv.1 = Key.cls vt then kv.2 else acc) init

/-- Hours of a `timedelta` given in microseconds: `days*24 + seconds/3600`, microseconds dropped.
`smrf/envphys/albedo.py:147-154`. -/
noncomputable def hours (us : Int) : ℝ :=
  ((us / 86400000000 : Int) : ℝ) * 24 + ((us % 86400000000 / 1000000 : Int) : ℝ) / 3600

/-- `tao = t_decay / max_dec**(1/pwr)`; `(t_diff/tao)**pwr`. `smrf/envphys/albedo.py:175-187`. -/
noncomputable def powerDecay (tDiff tDecay pwr maxDec : ℝ) : Except Err ℝ :=
  if pwr = 0 then .error .zeroDivision
  else if maxDec < 0 then .error .complexNumber
  else
    let root := maxDec ^ (1 / pwr)
    if root = 0 then .error .zeroDivision
    else .ok ((tDiff / (tDecay / root)) ^ pwr)

/-- Values for all keys of the dictionary, in order; the first failure is raised.
`smrf/envphys/albedo.py:181-187`. -/
noncomputable def decayAll (tDiff tDecay pwr : ℝ) : Dict → Except Err Dict
  | [] => .ok []
  | (k, v) :: rest =>
    match powerDecay tDiff tDecay pwr v with
    | .error e => .error e
    | .ok x =>
      match decayAll tDiff tDecay pwr rest with
      | .error e => .error e
      | .ok r => .ok ((k, x) :: r)

/-- The image `alb_dec`. Times are microseconds. `smrf/envphys/albedo.py:145-187`. -/
noncomputable def albDec {ι : Type} (veg : Dict) (vegType : ι → Int) (start stop t : Int) (pwr : ℝ) :
    Except Err (ι → ℝ) :=
  let tDiff := hours (t - start)
  let tDecay := hours (stop - start)
  if tDiff ≤ 0 then .ok (fun _ => 0)
  else if tDecay < tDiff then
    match veg.get (.word "default") with
    | .error e => .error e
    | .ok d => .ok (fun i => assign veg (vegType i) d)
  else
    match veg.get (.word "default") with
    | .error e => .error e
    | .ok d =>
      match powerDecay tDiff tDecay pwr d with
      | .error e => .error e
      | .ok x =>
        match decayAll tDiff tDecay pwr veg with
        | .error e => .error e
        | .ok vs => .ok (fun i => assign vs (vegType i) x)

/-- `decay_alb_power`. `smrf/envphys/albedo.py:110-193`. -/
noncomputable def decayAlbPower {ι : Type} (veg : Dict) (vegType : ι → Int) (start stop t : Int)
    (pwr : ℝ) (albV albIr : ι → ℝ) : Except Err ((ι → ℝ) × (ι → ℝ)) :=
  match albDec veg vegType start stop t pwr with
  | .error e => .error e
  | .ok dec => .ok (fun i => albV i - dec i, fun i => albIr i - dec i)

/-- Snow cover fraction left of a class with litter rate `r` after `day` days. A litter rate above 1
(numpy NaN) is outside the model. `smrf/envphys/albedo.py:237,244-245`. -/
noncomputable def snowCover (r day : ℝ) : ℝ := (1 - r) ^ day

/-- `decay_alb_hardy`. `smrf/envphys/albedo.py:196-256`. -/
noncomputable def decayAlbHardy {ι : Type} (litter : Dict) (vegType : ι → Int) (day albV albIr : ι → ℝ) :
    Except Err ((ι → ℝ) × (ι → ℝ)) :=
  match litter.get (.word "default"), litter.get (.word "albedo") with
  | .error e, _ => .error e
  | .ok _, .error e => .error e
  | .ok r, .ok al =>
    let sc := fun i => assign (litter.map fun kv => (kv.1, snowCover kv.2 (day i))) (vegType i)
      (snowCover r (day i))
    let lc := fun i => 1 - sc i
    .ok (fun i => albV i * sc i + al * lc i, fun i => albIr i * sc i + al * lc i)

/-- The decay methods. -/
inductive Method where
  | none
  | date (start stop : Int) (pwr : ℝ)
  | hardy

/-- The `[albedo]` configuration. -/
structure Cfg where
  grain : ℝ
  maxGrain : ℝ
  dirt : ℝ
  decay : Method
  veg : Dict
  litter : Dict
  lo : Option ℝ
  hi : Option ℝ

/-- `Albedo.distribute`: `cosz = none` when the sun is down. `smrf/distribute/albedo.py:104-159`. -/
noncomputable def distribute {ι : Type} (cfg : Cfg) (vegType : ι → Int) (t : Int)
    (cosz : Option (ι → ℝ)) (stormDay : ι → ℝ) : Except Err ((ι → Option ℝ) × (ι → Option ℝ)) :=
  match cosz with
  | Option.none => .ok (fun _ => some 0, fun _ => some 0)
  | some cz =>
    match albedo stormDay cz cfg.grain cfg.maxGrain cfg.dirt with
    | .error e => .error e
    | .ok (v, ir) =>
      let decayed : Except Err ((ι → ℝ) × (ι → ℝ)) :=
        match cfg.decay with
        | .none => .ok (v, ir)
        | .date start stop pwr => decayAlbPower cfg.veg vegType start stop t pwr v ir
        | .hardy => decayAlbHardy cfg.litter vegType stormDay v ir
      match decayed with
      | .error e => .error e
      | .ok (v', ir') =>
        .ok (fun i => Utils.clampCell cfg.lo cfg.hi (some (v' i)),
             fun i => Utils.clampCell cfg.lo cfg.hi (some (ir' i)))

end Verif.Albedo
