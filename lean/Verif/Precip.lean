import Verif.Utils
import Verif.Storms
import Verif.Nasde
import Mathlib.Analysis.SpecialFunctions.Pow.Real

/-!
Model of `smrf/envphys/precip.py` (undercatch, redistribution by wind) and of the per-step logic of
`smrf/distribute/precipitation.py`. Real numbers; NaN is `none` where it is treated specially.
-/

namespace Verif.Precip

/-! ### Undercatch -/

/-- Exceptions. -/
inductive Err where
  /-- unknown gauge type -/
  | valueError
  /-- no default gauge type configured -/
  | keyError
  /-- a wind direction that is not in the tbreak file -/
  | indexError
deriving DecidableEq

/-- `catchment_ratios`. The wind is NaN when `none`; then the computed ratio is NaN and replaced by
100 percent. Wind speeds are not negative (a power of a negative number would be NaN in numpy).
`smrf/envphys/precip.py:12-54`. -/
noncomputable def catchmentRatio (ws : Option ℝ) (gauge : String) (snowing : Bool) :
    Except Err ℝ :=
  if gauge = "us_nws_8_shielded" then
    let cr := ws.map fun w =>
      if snowing = true then Real.exp (461 / 100 - 4 / 100 * w ^ (175 / 100 : ℝ))
      else 10104 / 100 - 562 / 100 * w
    .ok ((match cr with | none => 100 | some c => c) / 100)
  else if gauge = "us_nws_8_unshielded" then
    let cr := ws.map fun w =>
      if snowing = true then Real.exp (461 / 100 - 16 / 100 * w ^ (128 / 100 : ℝ))
      else 10077 / 100 - 834 / 100 * w
    .ok ((match cr with | none => 100 | some c => c) / 100)
  else .error .valueError

/-- The inputs of `adjust_for_undercatch`: for every station its wind, air temperature (outer `none`:
the station is not in the table; inner `none`: NaN), and the configuration dictionary. -/
structure Gauges where
  wind : String → Option (Option ℝ)
  temp : String → Option (Option ℝ)
  gauge : String → Option String
  default : Option String

/-- `if ws > 6.0: ws = 6.0` (false for NaN). `smrf/envphys/precip.py:79-80`. -/
noncomputable def capWind : Option ℝ → Option ℝ
  | none => none
  | some w => some (if 6 < w then 6 else w)

/-- `T < -0.5` (false for NaN). `smrf/envphys/precip.py:82-85`. -/
noncomputable def isSnowing : Option ℝ → Bool
  | none => false
  | some t => decide (t < -1 / 2)

/-- The gauge type of a station. `smrf/envphys/precip.py:87-90`. -/
def gaugeType (g : Gauges) (sta : String) : Except Err String :=
  match g.gauge sta with
  | some t => .ok t
  | none => match g.default with
    | some t => .ok t
    | none => .error .keyError

/-- The loop body of `adjust_for_undercatch` for one station.
`smrf/envphys/precip.py:73-94`. -/
noncomputable def adjustStation (g : Gauges) (sta : String) (p : Option ℝ) :
    Except Err (Option ℝ) :=
  match g.temp sta with
  | none => .ok p
  | some t =>
    match g.wind sta with
    | none => .ok p
    | some w =>
      match gaugeType g sta with
      | .error e => .error e
      | .ok ty =>
        match catchmentRatio (capWind w) ty (isSnowing t) with
        | .error e => .error e
        | .ok cr => .ok (p.map (· / cr))

/-- `adjust_for_undercatch`: the loop over the stations; the first exception ends it.
`smrf/envphys/precip.py:57-96`. -/
noncomputable def adjustForUndercatch (g : Gauges) :
    List (String × Option ℝ) → Except Err (List (String × Option ℝ))
  | [] => .ok []
  | (sta, p) :: rest =>
    match adjustStation g sta p with
    | .error e => .error e
    | .ok q =>
      match adjustForUndercatch g rest with
      | .error e => .error e
      | .ok r => .ok ((sta, q) :: r)

/-! ### Redistribution by wind -/

/-- `utils.set_min_max` for one finite value and finite limits. `smrf/utils/utils.py:132-149`; see
`Verif.Utils.clampCell`. -/
noncomputable def clampTo (lo hi x : ℝ) : ℝ :=
  let y := if x ≤ lo then lo else x
  if hi ≤ y then hi else y

theorem clampTo_eq (lo hi x : ℝ) :
    Utils.clampCell (some lo) (some hi) (some x) = some (clampTo lo hi x) := by
  unfold Utils.clampCell Utils.clampLow clampTo Utils.clampHigh
  simp only
  by_cases h : x ≤ lo
  · simp only [h, if_true]
    split <;> rfl
  · simp only [h, if_false]
    split <;> rfl

/-- The configuration values read by `dist_precip_wind`. `smrf/envphys/precip.py:124-128`. -/
structure WindCfg where
  threshold : ℝ
  minScour : ℝ
  maxScour : ℝ
  minDrift : ℝ
  maxDrift : ℝ

/-- The inputs at one cell: precipitation, precipitation temperature, wind direction (rounded), wind
speed, maxus and vegetation type. NaN temperature is `none`. -/
structure CellIn where
  precip : ℝ
  temp : Option ℝ
  dir : ℝ
  wind : ℝ
  maxus : ℝ
  veg : Nat

/-- `drift_factor` before capping. `smrf/envphys/precip.py:166-169`. -/
noncomputable def driftFactor (w : ℝ) : ℝ :=
  1000761 / 1000000 * Real.exp (-(956 / 10000) * w + 289 / 10000 * w ^ 2)

/-- `pptmult` before vegetation and capping. The first coefficient is `a`, not `d`, as in the code.
`smrf/envphys/precip.py:189-190`. -/
noncomputable def scourPoly (m : ℝ) : ℝ :=
  1737 / 10000000 + 3265 / 100000 * m - 2549 / 1000000 * m ^ 2 + 1737 / 10000000 * m ^ 3

/-- The loop over the vegetation factors and the exception for pine.
`smrf/envphys/precip.py:193-199`. -/
noncomputable def vegetate (vegFact : List (Nat × ℝ)) (veg : Nat) (x : ℝ) : ℝ :=
  let y := vegFact.foldl (fun x v => if veg = v.1 then x * 1 / v.2 else x) x
  if veg = 3055 ∨ veg = 3053 ∨ veg = 42 then 1 else y

/-- One cell of `dist_precip_wind`, given its `celltbreak` (`none` is NaN): the three assignments in
order, starting from 0. `smrf/envphys/precip.py:161-211`. -/
noncomputable def driftCell (cfg : WindCfg) (vegFact : List (Nat × ℝ)) (tbreak : Option ℝ)
    (c : CellIn) : ℝ :=
  let cold := match c.temp with | none => false | some t => decide (t < 1 / 2)
  let warm := match c.temp with | none => false | some t => decide (1 / 2 ≤ t)
  let sheltered := match tbreak with | none => false | some b => decide (cfg.threshold < b)
  let exposed := match tbreak with | none => false | some b => decide (b ≤ cfg.threshold)
  let r : ℝ := 0
  let r := if sheltered = true ∧ cold = true then
      clampTo cfg.minDrift cfg.maxDrift (driftFactor c.wind) * c.precip else r
  let r := if exposed = true ∧ cold = true then
      clampTo cfg.minScour cfg.maxScour (vegetate vegFact c.veg (scourPoly c.maxus)) * c.precip else r
  if warm = true then c.precip else r

/-- `np.argwhere(tbreak_direction == d)[0][0]`: position of the first equal direction.
`smrf/envphys/precip.py:155`. -/
noncomputable def dirIndex (dirs : List ℝ) (d : ℝ) : Option Nat :=
  dirs.findIdx? (fun x => decide (x = d))

/-- `dist_precip_wind` over the cells of a grid: every cell's direction is looked up (an unknown
direction raises `IndexError`), `tbreak i j` is layer `i` at cell `j`.
`smrf/envphys/precip.py:99-211`. -/
noncomputable def distPrecipWind (cfg : WindCfg) (vegFact : List (Nat × ℝ)) (dirs : List ℝ)
    (tbreak : Nat → Nat → Option ℝ) (cells : List CellIn) : Except Err (List ℝ) :=
  if cells.all (fun c => (dirIndex dirs c.dir).isSome) = true then
    .ok (cells.mapIdx fun j c =>
      driftCell cfg vegFact ((dirIndex dirs c.dir).bind fun i => tbreak i j) c)
  else .error .indexError

/-! ### The step of the precipitation class -/

section
open scoped BigOperators
variable {ι D : Type} [Fintype ι]

/-- The published state of the class. `smrf/distribute/precipitation.py:121-131`. -/
structure PState (ι : Type) where
  precip : ι → ℝ
  perc : ι → ℝ
  den : ι → ℝ
  days : ι → ℝ
  total : ι → ℝ

/-- The configuration that decides the branches of `distribute`. -/
structure PCfg where
  /-- `config['distribution'] == 'grid'` -/
  grid : Bool
  /-- `nasde_model == 'marks2017'` -/
  marks : Bool
  /-- `config['station_adjust_for_undercatch']` -/
  undercatch : Bool
  /-- `config['precip_rescaling_model'] == 'winstral'` -/
  winstral : Bool
  timeStep : ℝ
  threshold : ℝ
  timeToEnd : ℝ

/-- The functions called by a step. `sum` is `data.sum()`, `dist` is `_distribute` followed by
`set_min_max`, `phase` is `phase_and_density` with the configured model, `adjust` the undercatch
correction, `clipped` the row of `corrected_precip` for the step, `storming` the result of the search
in the storm table and `redist` is `dist_precip_wind`. -/
structure PEnv (ι D : Type) where
  sum : D → ℝ
  dist : D → ι → ℝ
  phase : (ι → ℝ) → (ι → ℝ) → (ι → ℝ) × (ι → ℝ)
  adjust : D → D

/-- What a step is given. -/
structure PIn (ι D : Type) where
  data : D
  clipped : D
  storming : Bool
  stormTotal : Option (ι → ℝ)
  temp : ι → ℝ
  dpt : ι → ℝ
  redist : (ι → ℝ) → ι → ℝ

/-- `distribute_for_susong1999`. `smrf/distribute/precipitation.py:408-456`. -/
noncomputable def susongStep (cfg : PCfg) (env : PEnv ι D) (data : D) (temp : ι → ℝ)
    (s : PState ι) : PState ι :=
  if 0 < env.sum data then
    let p := env.dist data
    let (den, perc) := env.phase temp p
    let c := Storms.timeSinceStorm p perc (cfg.timeStep / 60 / 24) cfg.threshold cfg.timeToEnd
      (1 / 2) ⟨s.days, s.total⟩
    ⟨p, perc, den, c.days, c.precip⟩
  else
    ⟨fun _ => 0, fun _ => 0, fun _ => 0, fun i => s.days i + cfg.timeStep / 60 / 24, s.total⟩

/-- `distribute_for_marks2017`; `stormTotal` is the distributed total if the step is the first of a
storm. `smrf/distribute/precipitation.py:327-406`. -/
noncomputable def marksStep (cfg : PCfg) (env : PEnv ι D) (data : D) (storming : Bool)
    (stormTotal : Option (ι → ℝ)) (temp : ι → ℝ) (s : PState ι) : PState ι :=
  open Classical in
  if 0 < env.sum data then
    let p := env.dist data
    let cold := ∃ i, temp i < 2
    let total := if cold then stormTotal.getD s.total else s.total
    let (den, perc) := if storming = true ∧ cold then env.phase temp p else (fun _ => 0, fun _ => 0)
    let days := Storms.timeSinceStormPixel p temp perc storming (cfg.timeStep / 60 / 24)
      cfg.threshold (1 / 2) s.days
    ⟨p, perc, den, days, total⟩
  else
    ⟨fun _ => 0, fun _ => 0, fun _ => 0, fun i => s.days i + cfg.timeStep / 60 / 24, s.total⟩

/-- `ppt.distribute`. With station data and a model other than marks2017 the call of
`distribute_for_susong1999` is inside the `if` on the undercatch correction, as in the code.
`smrf/distribute/precipitation.py:236-325`. -/
noncomputable def pptStep (cfg : PCfg) (env : PEnv ι D) (inp : PIn ι D) (s : PState ι) : PState ι :=
  open Classical in
  let s1 :=
    if cfg.grid = false then
      if cfg.marks = true then
        let d := if cfg.undercatch = true then env.adjust inp.clipped else inp.clipped
        marksStep cfg env d inp.storming inp.stormTotal inp.temp s
      else if cfg.undercatch = true then
        susongStep cfg env (env.adjust inp.data) inp.temp s
      else s
    else susongStep cfg env inp.data inp.temp s
  if cfg.winstral = true ∧ ∃ i, inp.dpt i < 1 / 2 then
    { s1 with precip := inp.redist s1.precip }
  else s1

end

end Verif.Precip
