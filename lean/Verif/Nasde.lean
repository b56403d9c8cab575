import Mathlib.Analysis.SpecialFunctions.Pow.Real
import Mathlib.Algebra.BigOperators.Group.Finset.Basic
import Mathlib.Data.Fintype.Basic

/-!
Model of `smrf/envphys/nasde_model/*.py` and `smrf/envphys/snow.py`: percent snow and new snow
density. Numbers are elements of a linearly ordered field or real numbers (rounding is not modelled);
a NaN temperature is `none` in `susong1999`.
-/

namespace Verif.Nasde

/-! ### susong1999 -/

section
variable {K : Type} [Field K] [LinearOrder K]
open scoped BigOperators

/-- A row of `TABLE`; `none` is an infinite bound (the literals `-1e309`, `1e309`).
`smrf/envphys/nasde_model/susong_1999.py:32-75`. -/
structure TableRow (K : Type) where
  tmin : Option K
  tmax : Option K
  snow : K
  density : K

/-- `TABLE`. `smrf/envphys/nasde_model/susong_1999.py:32-75`. -/
def table : List (TableRow K) :=
  [⟨none, some (-5), 1, 75⟩,
   ⟨some (-5), some (-3), 1, 100⟩,
   ⟨some (-3), some (-3 / 2), 1, 150⟩,
   ⟨some (-3 / 2), some (-1 / 2), 1, 175⟩,
   ⟨some (-1 / 2), some 0, 3 / 4, 200⟩,
   ⟨some 0, some (1 / 2), 1 / 4, 250⟩,
   ⟨some (1 / 2), none, 0, 0⟩]

/-- `(temperature >= row['temp_min']) & (temperature < row['temp_max'])`, false for NaN.
`smrf/envphys/nasde_model/susong_1999.py:103-104`. -/
def TableRow.hits (r : TableRow K) (t : Option K) : Bool :=
  match t with
  | none => false
  | some t =>
    (match r.tmin with | none => true | some a => decide (a ≤ t)) &&
    (match r.tmax with | none => true | some b => decide (t < b))

/-- The loop over the table at one cell: later rows overwrite earlier ones; the arrays start at 0.
`smrf/envphys/nasde_model/susong_1999.py:92-109`. -/
def classify (t : Option K) : K × K :=
  table.foldl (fun acc r => if r.hits t = true then (r.snow, r.density) else acc) (0, 0)

/-- `Susong1999.run`: percent snow and density images.
`smrf/envphys/nasde_model/susong_1999.py:78-116`. -/
def susong1999 {ι : Type} [Fintype ι] (temp : ι → Option K) (precip : ι → K) : ι → K × K :=
  if ∑ i, precip i = 0 then fun _ => (0, 0)
  else fun i => if precip i = 0 then (0, 0) else classify (temp i)

/-! ### calc_percent_snow, check_temperature -/

/-- `calc_percent_snow` at one cell: three assignments in order, starting from 0.
`smrf/envphys/nasde_model/utils.py:11-42`. -/
def percentSnow (tmax t : K) : K :=
  let p : K := 0
  let p := if t ≤ -1 / 2 then 1 else p
  let p := if -1 / 2 < t ∧ t ≤ 0 then (-t / (1 / 2)) * (1 / 4) + 3 / 4 else p
  if 0 < t ∧ t ≤ tmax + 1 then (-t / (tmax + 1)) * (3 / 4) + 3 / 4 else p

/-- `check_temperature` at one cell: the precipitation temperature and the snow temperature.
`smrf/envphys/nasde_model/utils.py:45-71`. -/
def checkTemperature (tmax tmin t : K) : K × K :=
  let t := if t < tmin then tmin else t
  (t, if tmax < t then tmax else t)

end

/-! ### piecewise_susong1999 -/

/-- `UnboundLocalError`: `tsnow` is only assigned when `check_temps` is true.
`smrf/envphys/nasde_model/piecewise_suosong_1999.py:67-77`. -/
inductive Err where
  | unboundLocal
deriving DecidableEq

/-- `ex`, capped. `smrf/envphys/nasde_model/piecewise_suosong_1999.py:74-80`. -/
noncomputable def exponent (tmax tmin tsnow : ℝ) : ℝ :=
  let range := tmax - tmin
  let ex := 1 + ((range + (tsnow - tmax)) / range) * (3 / 4)
  if 7 / 4 < ex then 7 / 4 else ex

/-- `50.0 + 1.7 * ((tpp - TZ) + 15.0)**ex`.
`smrf/envphys/nasde_model/piecewise_suosong_1999.py:82`. -/
noncomputable def density (tmax tmin tpp tsnow : ℝ) : ℝ :=
  50 + 17 / 10 * ((tpp - 0) + 15) ^ exponent tmax tmin tsnow

/-- `PiecewiseSusong1999.run` at one cell: percent snow and density. The precipitation argument is
not used by the code. `smrf/envphys/nasde_model/piecewise_suosong_1999.py:44-87`. -/
noncomputable def piecewise (tmax tmin : ℝ) (checkTemps : Bool) (tpp _precip : ℝ) :
    Except Err (ℝ × ℝ) :=
  if checkTemps = true then
    let t := checkTemperature tmax tmin tpp
    .ok (percentSnow tmax t.1, density tmax tmin t.1 t.2)
  else .error .unboundLocal

/-! ### marks2017 -/

/-- Values computed at one cell with snow, lines 133-176.
`smrf/envphys/nasde_model/marks_2017.py:133-176`. -/
structure MarksCell where
  rhoNs : ℝ
  dRhoM : ℝ
  dRhoC : ℝ
  zs : ℝ
  rhoS : ℝ
  rho : ℝ

/-- `smrf/envphys/nasde_model/marks_2017.py:133-176` at one cell: `tsnow`, the uncompacted density
in kg/m3, percent snow, precipitation and SWE. -/
noncomputable def marksCell (tsnow rhoOrig pcs pp swe : ℝ) : MarksCell :=
  let rhoNs := rhoOrig / 1000
  let dRhoC := 26 / 1000 * Real.exp (-(8 / 100) * (0 - tsnow)) * swe * Real.exp (-21 * rhoNs)
  let c11 := if 100 ≤ rhoNs * 1000 then Real.exp (-(46 / 1000) * (rhoNs * 1000 - 100)) else 1
  let dRhoM := 1 / 100 * c11 * Real.exp (-(4 / 100) * (0 - tsnow))
  let rhoS := rhoNs + (dRhoC + dRhoM) * rhoNs
  let zs := swe / rhoS
  let rho := if swe < pp ∧ 0 < pcs then pcs * rhoS + (1 - pcs) else rhoS
  let rho := if 1 < rho then 1 else rho
  ⟨rhoNs, dRhoM, dRhoC, zs, rhoS, rho⟩

/-- `x[swe_ind] = v`. -/
noncomputable def write {ι : Type} (ind : ι → Prop) (v : ι → ℝ) (x : ι → ℝ) : ι → ℝ :=
  open Classical in fun i => if ind i then v i else x i

/-- The returned dictionary. `smrf/envphys/nasde_model/marks_2017.py:198-207`. -/
structure MarksResult (ι : Type) where
  swe : ι → ℝ
  pcs : ι → ℝ
  rhoNs : ι → ℝ
  dRhoC : ι → ℝ
  dRhoM : ι → ℝ
  rhoS : ι → ℝ
  rho : ι → ℝ
  zs : ι → ℝ

/-- `Marks2017.run`. Line 115 binds `rho_ns`, `d_rho_m`, `d_rho_c`, `zs`, `rho_s`, `swe` and `pcs`
to one and the same array, here `z`; `swe` and `pcs` are bound to new arrays inside the first `if`,
the others never are, so the five writes of lines 179-183 all go to `z`.
`smrf/envphys/nasde_model/marks_2017.py:86-207`. -/
noncomputable def marks2017 {ι : Type} (tpp pp : ι → ℝ) : MarksResult ι :=
  open Classical in
  let z : ι → ℝ := fun _ => 0
  let rho : ι → ℝ := fun _ => 1
  if ∃ i, 0 < pp i then
    let t := fun i => checkTemperature (K := ℝ) 0 (-10) (tpp i)
    -- `PiecewiseSusong1999.run` checks the checked temperature again
    let t' := fun i => checkTemperature (K := ℝ) 0 (-10) (t i).1
    let pcs := fun i => percentSnow 0 (t' i).1
    let rhoOrig := fun i => density 0 (-10) (t' i).1 (t' i).2
    let swe := fun i => pp i * pcs i
    let ind := fun i => 0 < swe i
    let c := fun i => marksCell (t i).2 (rhoOrig i) (pcs i) (pp i) (swe i)
    if ∃ i, ind i then
      let z := write ind (fun i => (c i).rhoNs) z
      let z := write ind (fun i => (c i).dRhoM) z
      let z := write ind (fun i => (c i).dRhoC) z
      let z := write ind (fun i => (c i).zs) z
      let z := write ind (fun i => (c i).rhoS) z
      let rho := write ind (fun i => (c i).rho) rho
      ⟨swe, pcs, fun i => z i * 1000, z, z, fun i => z i * 1000, fun i => rho i * 1000, z⟩
    else
      ⟨swe, pcs, fun i => z i * 1000, z, z, fun i => z i * 1000, fun i => rho i * 1000, z⟩
  else
    ⟨z, z, fun i => z i * 1000, z, z, fun i => z i * 1000, fun i => rho i * 1000, z⟩

/-! ### phase_and_density -/

/-- `ValueError` for a model name that is not in `MODELS`. -/
inductive SnowErr where
  | valueError
  | unboundLocal
deriving DecidableEq

/-- `Snow.phase_and_density`: density and percent snow. The inputs are copied first, so the
in-place change of `check_temperature` stays inside. `smrf/envphys/snow.py:36-75`. -/
noncomputable def phaseAndDensity {ι : Type} [Fintype ι] (temp precip : ι → ℝ) (model : String) :
    Except SnowErr ((ι → ℝ) × (ι → ℝ)) :=
  if model = "susong1999" then
    let r := susong1999 (fun i => some (temp i)) precip
    .ok (fun i => (r i).2, fun i => (r i).1)
  else if model = "piecewise_susong1999" then
    -- defaults t_max = 0, t_min = -10, check_temps = True
    let t := fun i => checkTemperature (K := ℝ) 0 (-10) (temp i)
    .ok (fun i => density 0 (-10) (t i).1 (t i).2, fun i => percentSnow 0 (t i).1)
  else if model = "marks2017" then
    let r := marks2017 temp precip
    .ok (r.rhoS, r.pcs)
  else .error .valueError

end Verif.Nasde
