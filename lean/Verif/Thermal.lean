import Verif.Vapor
import Verif.Solar

/-!
Model of thermal (longwave) radiation: `smrf/envphys/thermal/*.py`, `smrf/envphys/core/topotherm.c` and
`smrf/distribute/thermal.py`. Real arithmetic; images are functions of the cell and hold numbers (NaN only
in `topothermPy`, where the code itself introduces it).
-/

namespace Verif.Thermal

open Verif.Vapor Verif.Twostream

/-- `STEF_BOLTZ` (constants.py). -/
noncomputable def stefBoltz : ℝ := 56697 / 10 ^ 12

/-- `EMISS_TERRAIN`, `EMISS_VEG`. -/
noncomputable def emissTerrain : ℝ := 98 / 100
noncomputable def emissVeg : ℝ := 96 / 100

/-- `thermal_correct_terrain` (thermal/clear_sky.py 6-27). -/
noncomputable def correctTerrain (th ta viewf : ℝ) : ℝ :=
  let terrain := stefBoltz * emissTerrain * (ta + 27315 / 100) ^ 4;
  viewf * th + (1 - viewf) * terrain

/-- `precipitable_water` (thermal/clear_sky.py 30-34). -/
noncomputable def precipitableWater (ta ea : ℝ) : ℝ := 4650 * ea / ta

/-- `calc_long_wave` (thermal/clear_sky.py 37-41). -/
noncomputable def longWave (e ta : ℝ) : ℝ := e * stefBoltz * ta ^ 4

/-- `Dilly1998` (thermal/clear_sky.py 44-72). -/
noncomputable def dilley (ta ea : ℝ) : ℝ :=
  let ta := ta + freeze;
  let w := precipitableWater ta ea;
  5938 / 100 + 1137 / 10 * (ta / (27316 / 100)) ^ 6 + 9696 / 100 * Real.sqrt (w / 25)

/-- `Prata1996` (thermal/clear_sky.py 75-103). -/
noncomputable def prata (ta ea : ℝ) : ℝ :=
  let ta := ta + freeze;
  let w := precipitableWater ta ea;
  let ec := 1 - (1 + w) * Real.exp (-Real.sqrt (12 / 10 + 3 * w));
  longWave ec ta

/-- `Angstrom1918` (thermal/clear_sky.py 106-130). -/
noncomputable def angstrom (ta ea : ℝ) : ℝ :=
  let ta := ta + freeze;
  let e := 83 / 100 - 18 / 100 * (10 : ℝ) ^ (-(67 / 1000) * ea);
  longWave e ta

/-- `STD_LAPSE_M` (constants.py, envphys.h:84). -/
noncomputable def lapseM : ℝ := -(65 / 10000)

/-- `brutsaert` in C (topotherm.c): `none` when one of the two calls of `sati` exits. -/
noncomputable def brutsaertC (ta lapse ea z pa : ℝ) : Option ℝ :=
  let tp := ta - lapse * z;
  (satiC ta).bind fun sa =>
    let rh := if 1 < ea / sa then 1 else ea / sa
    (satiC tp).bind fun sp =>
      let ep := rh * sp / 100
      let em := 124 / 100 * (ep / tp) ^ (1 / 7 : ℝ) * pa / Vapor.seaLevel
      some (if 1 < em then 1 else em)

/-- The body of the loop of `topotherm` in C (topotherm.c); `none` for the calls of `exit(-1)`. The
parallel loop has no shared writes, so it is the body on every cell. -/
noncomputable def topothermC (ta tw z svf : ℝ) : Option ℝ :=
  let ta := ta + freeze;
  let tw := tw + freeze;
  if ta < 0 ∨ tw < 0 then none
  else
    let tw := if ta < tw then ta else tw;
    (satiC tw).bind fun ea =>
      (brutsaertC ta lapseM ea z Vapor.seaLevel).bind fun em =>
        let t0 := ta - z * lapseM;
        let press := hysat Vapor.seaLevel t0 stdLapse (z / 1000) gravity molAir;
        let em := em * (press / Vapor.seaLevel);
        let em := em * svf + (1 - svf);
        let em := if 1 < em then 1 else em;
        some (em * stefBoltz * ta * ta * ta * ta)

/-- `brutsaert` in Python (thermal/topotherm.py 8-36) on a cell with NaN. `sati(ta) = 0` only for
`ta = 0`, where `topotherm` passes `ea = 0` and numpy's `0/0` is NaN; `t_prime = 0` gives `0/0` as well. -/
noncomputable def brutsaertPy (ta : Option ℝ) (lapse : ℝ) (ea : Option ℝ) (z pa : ℝ) : Option ℝ :=
  let tp := ta.map (· - lapse * z)
  ea.bind fun ea =>
    (satiPy ta).bind fun sa =>
      if sa = 0 then none
      else
        let rh := if 1 < ea / sa then 1 else ea / sa
        tp.bind fun t =>
          (satiPy tp).bind fun sp =>
            if t = 0 then none
            else
              let ep := rh * sp / 100
              let em := 124 / 100 * (ep / t) ^ (1 / 7 : ℝ) * pa / Vapor.seaLevel
              some (if 1 < em then 1 else em)

/-- `topotherm` in Python (thermal/topotherm.py 65-118) on one cell. -/
noncomputable def topothermPy (ta tw : Option ℝ) (z svf : ℝ) : Option ℝ :=
  let ta := ta.map (· + freeze)
  let tw := tw.map (· + freeze)
  let tw := tw.bind fun t => if t < 0 then none else some t
  let ta := ta.bind fun t => if t < 0 then none else some t
  let tw := tw.bind fun w => ta.elim (some w) fun a => if a < w then some a else some w
  let em := brutsaertPy ta lapseM (satiPy tw) z Vapor.seaLevel
  ta.bind fun t =>
    em.bind fun em =>
      let t0 := t - z * lapseM
      let press := hysat Vapor.seaLevel t0 stdLapse (z / 1000) gravity molAir
      let em := em * (press / Vapor.seaLevel)
      let em := em * svf + (1 - svf)
      let em := if 1 < em then 1 else em
      some (em * stefBoltz * t ^ 4)

/-- `Garen2005` (thermal/cloud.py 7-27). -/
noncomputable def garen (th cf : ℝ) : ℝ := th * (1485 / 1000 - 488 / 1000 * cf)

/-- `Unsworth1975` (thermal/cloud.py 30-61). -/
noncomputable def unsworth (th ta cf : ℝ) : ℝ :=
  let c := 1 - cf;
  let ta := ta + freeze;
  let ec := th / (stefBoltz * ta ^ 4);
  let ea := (1 - 84 / 100 * c) * ec + 84 / 100 * c;
  longWave ea ta

/-- The factors of `Kimball1982` (thermal/cloud.py 94-102), `ta` in kelvin. -/
noncomputable def kimballF8 (ta : ℝ) : ℝ :=
  let tc := ta - 11;
  -(6732 / 10000) + 624 / 1000 / 100 * tc - 914 / 1000 / 100000 * tc ^ 2

noncomputable def kimballE8 (ta ea : ℝ) : ℝ :=
  24 / 100 + 298 / 100 / 1000000 * ea ^ 2 * Real.exp (3000 / ta)

noncomputable def kimballT8 (e8 : ℝ) : ℝ := 1 - e8 * (14 / 10 - 4 / 10 * e8)

/-- `Kimball1982` (thermal/cloud.py 64-104); the cloud factor is an argument that is not used. -/
noncomputable def kimball (th ta ea _cf : ℝ) : ℝ :=
  let ta := ta + freeze;
  let e8 := kimballE8 ta ea;
  th + longWave (kimballF8 ta * e8 * kimballT8 e8) ta

/-- `Crawford1999` (thermal/cloud.py 107-132). -/
noncomputable def crawford (th ta cf : ℝ) : ℝ := longWave (1 - cf) (ta + freeze) + cf * th

/-- `thermal_correct_canopy` (thermal/vegetation.py 6-38) on one cell. -/
noncomputable def correctCanopy (th ta tau height : ℝ) (threshold : ℝ := 2) : ℝ :=
  let veg := stefBoltz * emissVeg * (ta + freeze) ^ 4;
  if threshold < height then tau * th + (1 - tau) * veg else th

/-- `clear_sky_method` and `cloud_method`. -/
inductive Sky where
  | marks1979 | dilley1998 | prata1996 | angstrom1918
  deriving DecidableEq

inductive Cloud where
  | garen2005 | unsworth1975 | kimball1982 | crawford1999
  deriving DecidableEq

/-- The configuration (distribute/thermal.py 191-210); limits as in `Solar.clamp`. -/
structure Cfg where
  sky : Sky
  cloud : Option Cloud
  veg : Bool
  terrain : Bool
  lo : Option ℝ
  hi : Option ℝ

/-- The maps of the topo file used here. -/
structure Maps (ι : Type) where
  dem : ι → ℝ
  svf : ι → ℝ
  height : ι → ℝ
  tau : ι → ℝ

/-- The distributed variables of the step. -/
structure In (ι : Type) where
  airTemp : ι → ℝ
  vapor : ι → ℝ
  dew : ι → ℝ
  cloudFactor : ι → ℝ

/-- What can go wrong: `exit(-1)` in C; a missing sky view factor reaching the C routine: numpy makes the
one-dimensional array `[nan]` of `None` and the buffer of two dimensions rejects it (`ValueError`). -/
inductive Err where
  | exit
  | value
  deriving DecidableEq

/-- The attributes set by a step. -/
structure Out (ι : Type) where
  clear : ι → ℝ
  cloud : Option (ι → ℝ)
  veg : Option (ι → ℝ)
  thermal : ι → ℝ

/-- Clear-sky radiation before terrain (distribute/thermal.py 276-295); `svf` is `self.sky_view_factor`. -/
noncomputable def clearSky {ι : Type} (m : Sky) (dem : ι → ℝ) (svf : Option (ι → ℝ)) (x : In ι) :
    Except Err (ι → ℝ) :=
  match m with
  | .marks1979 =>
    match svf with
    | none => .error .value
    | some v =>
      open Classical in
      if h : ∀ i, (topothermC (x.airTemp i) (x.dew i) (dem i) (v i)).isSome then
        .ok fun i => (topothermC (x.airTemp i) (x.dew i) (dem i) (v i)).get (h i)
      else .error .exit
  | .dilley1998 => .ok fun i => dilley (x.airTemp i) (x.vapor i / 1000)
  | .prata1996 => .ok fun i => prata (x.airTemp i) (x.vapor i / 1000)
  | .angstrom1918 => .ok fun i => angstrom (x.airTemp i) (x.vapor i / 1000)

/-- The terrain correction of the module (distribute/thermal.py 297-302). -/
noncomputable def terrain {ι : Type} (m : Sky) (svf : Option (ι → ℝ)) (ta cth : ι → ℝ) : ι → ℝ :=
  match svf with
  | none => cth
  | some v =>
    if m = .marks1979 then cth
    else fun i => cth i * v i + (1 - v i) * stefBoltz * ta i ^ 4

/-- The cloud correction (distribute/thermal.py 309-329) on one cell. -/
noncomputable def cloudCell (m : Cloud) (th ta vp cf : ℝ) : ℝ :=
  match m with
  | .garen2005 => garen th cf
  | .unsworth1975 => unsworth th ta cf
  | .kimball1982 => kimball th ta (vp / 1000) cf
  | .crawford1999 => crawford th ta cf

/-- `th.distribute` (distribute/thermal.py 254-342, `initialize` 236-239 for the sky view factor). The
attributes are copies, so later in-place changes do not reach them. -/
noncomputable def distribute {ι : Type} (c : Cfg) (g : Maps ι) (x : In ι) : Except Err (Out ι) :=
  let svf := if c.terrain = true then some g.svf else none
  match clearSky c.sky g.dem svf x with
  | .error e => .error e
  | .ok cth =>
    let clear := terrain c.sky svf x.airTemp cth
    let cloud := c.cloud.map fun m => fun i => cloudCell m (clear i) (x.airTemp i) (x.vapor i) (x.cloudFactor i)
    let th := cloud.elim clear id
    let veg := if c.veg = true then some fun i => correctCanopy (th i) (x.airTemp i) (g.tau i) (g.height i) else none
    let th := veg.elim th id
    .ok ⟨clear, cloud, veg, fun i => Solar.clamp c.lo c.hi (th i)⟩

end Verif.Thermal
