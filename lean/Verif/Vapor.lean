import Mathlib.Analysis.SpecialFunctions.Pow.Real
import Verif.Utils

/-!
Model of saturation vapor pressure (`smrf/envphys/vapor_pressure.py`, `smrf/envphys/core/topotherm.c`),
of `rh2vp` and of the dew-point limit of `smrf/distribute/vapor_pressure.py`. Real arithmetic; NaN is
`none`.
-/

namespace Verif.Vapor

/-- `FREEZE`. `smrf/envphys/constants.py`, `smrf/envphys/core/envphys.h`. -/
noncomputable def freeze : ℝ := 27316 / 100

/-- `BOIL`. -/
noncomputable def boil : ℝ := 37315 / 100

/-- `SEA_LEVEL`. -/
noncomputable def seaLevel : ℝ := 1013246 / 10

/-- The exponent in `satw`. `smrf/envphys/vapor_pressure.py:22-28`,
`smrf/envphys/core/topotherm.c` (`satw`). -/
noncomputable def waterExp (tk : ℝ) : ℝ :=
  let l10 := Real.log 10;
  let btk := boil / tk;
  -(790298 / 100000) * (btk - 1) + 502808 / 100000 * Real.log btk / l10 -
    13816 / 10 ^ 11 * ((10 : ℝ) ^ (11344 / 1000 * (1 - tk / boil)) - 1) +
    81328 / 10 ^ 7 * ((10 : ℝ) ^ (-(349149 / 100000) * (btk - 1)) - 1) +
    Real.log seaLevel / l10

/-- Saturation over water for positive temperature. -/
noncomputable def satWater (tk : ℝ) : ℝ := (10 : ℝ) ^ waterExp tk

/-- The exponent in `sati` below freezing. `smrf/envphys/vapor_pressure.py:59-63`,
`smrf/envphys/core/topotherm.c` (`sati`). -/
noncomputable def iceExp (tk : ℝ) : ℝ :=
  let l10 := Real.log 10;
  -(909718 / 100000) * (freeze / tk - 1) - 356654 / 100000 * Real.log (freeze / tk) / l10 +
    876793 / 1000000 * (1 - tk / freeze) + Real.log (61071 / 10000) / l10

/-- Saturation over ice for positive temperature. -/
noncomputable def satIce (tk : ℝ) : ℝ := 100 * (10 : ℝ) ^ iceExp tk

/-- The value for a positive temperature: the water formula above `FREEZE`, else the ice formula. -/
noncomputable def sat (tk : ℝ) : ℝ := if freeze < tk then satWater tk else satIce tk

/-- The C function: `exit(-1)` for a temperature that is not positive is `none`.
`smrf/envphys/core/topotherm.c` (`sati`). -/
noncomputable def satiC (tk : ℝ) : Option ℝ := if tk ≤ 0 then none else some (sat tk)

/-- The Python function: negative temperatures become NaN; zero is let through, where numpy computes
`FREEZE/0 = inf` and `10**(-inf) = 0`. `smrf/envphys/vapor_pressure.py:35-65`. -/
noncomputable def satiPy (tk : Option ℝ) : Option ℝ :=
  match tk with
  | none => none
  | some t => if t < 0 then none else if t = 0 then some 0 else some (sat t)

/-- The exceptions of this file. -/
inductive Err where
  | indexError
  deriving DecidableEq

/-- Product of arrays with NaN. -/
noncomputable def mulNan : Option ℝ → Option ℝ → Option ℝ
  | some a, some b => some (a * b)
  | _, _ => none

/-- `rh2vp` on the stations `(ta, rh)`: the first element decides whether humidity is in percent
(a comparison with NaN is false). `smrf/envphys/vapor_pressure.py:93-111`. -/
noncomputable def rh2vp (l : List (Option ℝ × Option ℝ)) : Except Err (List (Option ℝ)) :=
  match l with
  | [] => .error .indexError
  | (_, rh0) :: _ =>
    let percent := match rh0 with | none => false | some r => decide (1 ≤ r)
    .ok (l.map fun x =>
      let rh := if percent = true then x.2.map (· / 100) else x.2
      mulNan (satiPy (x.1.map (· + 27315 / 100))) rh)

/-- The dew point of one cell: `dpt[dpt >= ta] = ta - 0.2`, false comparisons for NaN.
`smrf/distribute/vapor_pressure.py:136-142`. -/
noncomputable def limitDew (dpt ta : Option ℝ) : Option ℝ :=
  match dpt, ta with
  | some d, some t => if t ≤ d then some (t - 2 / 10) else some d
  | d, _ => d

/-- What `vp.distribute` publishes. -/
structure Published (ι : Type) where
  vp : ι → Option ℝ
  dew : ι → Option ℝ
  precipTemp : ι → Option ℝ

/-- `vp.distribute` after the station values were distributed to `img`. `solve` is the dew-point
solver, `wet` the wet-bulb routine if it is the configured method.
`smrf/distribute/vapor_pressure.py:104-164`. -/
noncomputable def distribute {ι : Type} (lo hi : Option ℝ) (solve : Option ℝ → Option ℝ)
    (wet : Option ((ι → Option ℝ) → (ι → Option ℝ) → ι → Option ℝ)) (img ta : ι → Option ℝ) :
    Published ι :=
  let vp := fun i => Utils.clampCell lo hi (img i)
  let dpt := fun i => limitDew (solve (vp i)) (ta i)
  ⟨vp, dpt, match wet with | some w => w ta dpt | none => dpt⟩

end Verif.Vapor
