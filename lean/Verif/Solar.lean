import Verif.Twostream
import Verif.Utils
import Verif.Albedo

/-
Solar radiation: `cf_cloud` (smrf/envphys/solar/cloud.py), `solar_veg_beam`, `solar_veg_diffuse`
(smrf/envphys/solar/vegetation.py), `Solar.distribute` and the methods it calls
(smrf/distribute/solar.py), `shade_thread` (smrf/envphys/solar/model.py) and the part of
`SMRF.distribute_single_timestep` about the sun (smrf/framework/model_framework.py 404-484).

Images are functions from cells to reals; NaN cells are not modelled here.
-/

namespace Verif.Solar
open Verif.Twostream

/-- `cf_cloud` (cloud.py 6-45), one cell: global and diffuse radiation under cloud. `c_brad` is computed
by the code and not returned; it is left out. -/
noncomputable def cfCloud (beam diffuse cf : ℝ) : ℝ × ℝ :=
  let bf := 138 / 100 * (cf - 15 / 100) ^ 2
  let grad := beam * cf
  let brad := grad * bf
  let drad := grad - brad
  let drad := if cf ≤ 15 / 100 then grad else drad
  let drad := if 99 / 100 < cf then diffuse * cf else drad
  (grad, drad)

/-- `solar_veg_beam` (vegetation.py 4-18), one cell: the corrected value and what is left in the cell
of the array `cosz`, which the function overwrites. -/
noncomputable def vegBeam (data height cosz k : ℝ) : ℝ × ℝ :=
  let cosz := if cosz ≤ 0 then 1 / 100 else cosz
  (data * Real.exp (-k * height / cosz), cosz)

/-- `solar_veg_diffuse` (vegetation.py 21-31). -/
def vegDiffuse (data tau : ℝ) : ℝ := tau * data

/-- `utils.set_min_max` (utils.py 137-161) on a cell that is not NaN (`clamp_eq`); `none` for a limit
that is infinite. -/
noncomputable def clamp (lo hi : Option ℝ) (x : ℝ) : ℝ :=
  let y := lo.elim x (fun l => if x ≤ l then l else x)
  hi.elim y (fun h => if h ≤ y then h else y)

theorem clamp_eq (lo hi : Option ℝ) (x : ℝ) :
    Utils.clampCell lo hi (some x) = some (clamp lo hi x) := by
  unfold Utils.clampCell Utils.clampHigh Utils.clampLow clamp
  rcases lo with _ | l <;> rcases hi with _ | h <;> simp only [Option.elim]
  · by_cases h1 : h ≤ x <;> simp [h1]
  · by_cases h1 : x ≤ l <;> simp [h1]
  · by_cases h1 : x ≤ l <;> simp only [h1, if_true, if_false]
    · by_cases h2 : h ≤ l <;> simp [h2]
    · by_cases h2 : h ≤ x <;> simp [h2]

/-- The radiation of a cell during a time step: `vis_beam`, `vis_diffuse`, `ir_beam`, `ir_diffuse`. -/
structure Rad where
  visBeam : ℝ
  visDiffuse : ℝ
  irBeam : ℝ
  irDiffuse : ℝ

/-- `Solar.cloud_correct` (solar.py 409-425). -/
noncomputable def cloudCorrect (r : Rad) (cf : ℝ) : Rad :=
  let v := cfCloud r.visBeam r.visDiffuse cf
  let i := cfCloud r.irBeam r.irDiffuse cf
  ⟨v.1, v.2, i.1, i.2⟩

/-- The vegetation of a cell. -/
structure Veg (ι : Type) where
  height : ι → ℝ
  tau : ι → ℝ
  k : ι → ℝ

/-- `Solar.veg_correct` (solar.py 427-467): the second call of `solar_veg_beam` reads the illumination
angles that the first one has overwritten. -/
noncomputable def vegCorrect (r : Rad) (illum height tau k : ℝ) : Rad :=
  let v := vegBeam r.visBeam height illum k
  let i := vegBeam r.irBeam height v.2 k
  ⟨v.1, vegDiffuse r.visDiffuse tau, i.1, vegDiffuse r.irDiffuse tau⟩

/-- `Solar.calc_net` (solar.py 469-493). -/
noncomputable def calcNet (lo hi : Option ℝ) (r : Rad) (albV albIr : ℝ) : ℝ :=
  let v := clamp lo hi ((r.visBeam + r.visDiffuse) * (1 - albV))
  let i := clamp lo hi ((r.irBeam + r.irDiffuse) * (1 - albIr))
  clamp lo hi (v + i)

inductive Comp where
  | beam | diffuse
  deriving DecidableEq

/-- The output variables of the class (solar.py 114-181). -/
inductive Var where
  | clear (b : Band) (c : Comp)
  | cloud (b : Band) (c : Comp)
  | veg (b : Band) (c : Comp)
  | net
  deriving DecidableEq

/-- An attribute of the instance: not set yet, `None`, or an array. -/
inductive Attr (ι : Type) where
  | unset
  | none
  | array (a : ι → ℝ)

/-- Attributes of a new instance: `__init__` sets none of these (solar.py 215-225,
image_data.py 49-57). -/
def initial (ι : Type) : Var → Attr ι := fun _ => .unset

/-- `[solar]` section. -/
structure Cfg where
  clear : Clear
  correctCloud : Bool
  correctVeg : Bool
  lo : Option ℝ
  hi : Option ℝ

inductive Err where
  | sky (e : Twostream.Err)
  /-- `illum_ang` is None -/
  | typeError
  /-- `getattr` of an attribute that was never set -/
  | attribute
  | albedo (e : Albedo.Err)

/-- One component of the radiation of all cells. -/
def Rad.get (r : Rad) : Band → Comp → ℝ
  | .vis, .beam => r.visBeam
  | .vis, .diffuse => r.visDiffuse
  | .ir, .beam => r.irBeam
  | .ir, .diffuse => r.irDiffuse

/-- Attributes after a step with the sun up (solar.py 294-331), from the clear-sky radiation. Arrays
are copied before they are corrected, so that the names do not share storage. -/
noncomputable def day {ι : Type} (cfg : Cfg) (veg : Veg ι) (st : Var → Attr ι) (clear : ι → Rad)
    (illum cf albV albIr : ι → ℝ) : Var → Attr ι :=
  let r1 := fun i => if cfg.correctCloud then cloudCorrect (clear i) (cf i) else clear i
  let r2 := fun i => if cfg.correctVeg then
      vegCorrect (r1 i) (illum i) (veg.height i) (veg.tau i) (veg.k i) else r1 i
  fun
  | .clear b c => .array fun i => (clear i).get b c
  | .cloud b c => if cfg.correctCloud then .array fun i => (r1 i).get b c else st (.cloud b c)
  | .veg b c => if cfg.correctVeg then .array fun i => (r2 i).get b c else st (.veg b c)
  | .net => .array fun i => calcNet cfg.lo cfg.hi (r2 i) (albV i) (albIr i)

/-- `Solar.distribute` (solar.py 254-360). `s0` is the irradiance of each band. -/
noncomputable def distribute {ι : Type} [Fintype ι] (cfg : Cfg) (topo : Topo ι) (veg : Veg ι)
    (s0 : Band → ℝ) (hidden : ι → Prop) (st : Var → Attr ι) (cf : ι → ℝ) (illum : Option (ι → ℝ))
    (cosz : ℝ) (albV albIr : ι → ℝ) : Except Err (Var → Attr ι) :=
  if 0 < cosz then
    match illum with
    | Option.none => .error .typeError
    | some ill =>
      match stoporad cfg.clear topo (s0 .ir) cosz hidden ill albIr (7 / 10) (28 / 10) with
      | .error e => .error (.sky e)
      | .ok ir =>
        match stoporad cfg.clear topo (s0 .vis) cosz hidden ill albV (28 / 100) (7 / 10) with
        | .error e => .error (.sky e)
        | .ok vis =>
          .ok (day cfg veg st (fun i => ⟨(vis i).1, (vis i).2, (ir i).1, (ir i).2⟩) ill cf albV albIr)
  else .ok fun _ => Attr.none

/-- What `SMRF.output` writes for an attribute (model_framework.py 741-745). -/
def written {ι : Type} : Attr ι → Except Err (ι → ℝ)
  | .unset => .error .attribute
  | .none => .ok fun _ => 0
  | .array a => .ok a

/-! ### The drivers -/

/-- The illumination angles of a step (model_framework.py 418-425; shade_thread, model.py 34-41): `shade`
(topocalc) is called only with the sun up. -/
noncomputable def illumination {ι : Type} (shade : ℝ → ι → ℝ) (cosz : ℝ) : Option (ι → ℝ) :=
  if 0 < cosz then some (shade cosz) else none

/-- The inputs of one time step. -/
structure Step (ι : Type) where
  time : Int
  cosz : ℝ
  cloudFactor : ι → ℝ
  stormDay : ι → ℝ
  s0 : Band → ℝ
  hidden : ι → Prop

/-- The fixed inputs of a run. -/
structure Setup (ι : Type) where
  solar : Cfg
  albedo : Albedo.Cfg
  topo : Topo ι
  veg : Veg ι
  vegType : ι → Int
  shade : ℝ → ι → ℝ

/-- An albedo array of the albedo module; its cells are never NaN here (`Albedo.distribute` clamps
cells that hold a number). -/
noncomputable def cells {ι : Type} (a : ι → Option ℝ) : ι → ℝ := fun i => (a i).elim 0 id

/-- Steps 0.2, 5 and 7 of `distribute_single_timestep` (model_framework.py 418-425, 455-459, 465-473). The
result is the attributes of the solar module and the two albedos. -/
noncomputable def timestep {ι : Type} [Fintype ι] (S : Setup ι) (st : Var → Attr ι) (x : Step ι) :
    Except Err ((Var → Attr ι) × (ι → ℝ) × (ι → ℝ)) :=
  let ill := illumination S.shade x.cosz
  match Albedo.distribute S.albedo S.vegType x.time ill x.stormDay with
  | .error e => .error (.albedo e)
  | .ok (v, ir) =>
    match distribute S.solar S.topo S.veg x.s0 x.hidden st x.cloudFactor ill x.cosz (cells v) (cells ir) with
    | .error e => .error e
    | .ok st' => .ok (st', cells v, cells ir)

/-- A run over several steps; the first error ends it. -/
noncomputable def run {ι : Type} [Fintype ι] (S : Setup ι) (st : Var → Attr ι) :
    List (Step ι) → Except Err (Var → Attr ι)
  | [] => .ok st
  | x :: xs =>
    match timestep S st x with
    | .error e => .error e
    | .ok (st', _) => run S st' xs

end Verif.Solar
