import Verif.Vapor

/-!
Model of the wet-bulb routine of `smrf/envphys/core/iwbt.c`. Real arithmetic. `exit(-1)` is an
outcome.
-/

namespace Verif.WetBulb
open Verif.Vapor

/-- `LH_VAP`. `smrf/envphys/core/envphys.h:281`. -/
noncomputable def lhVap (t : ℝ) : ℝ := 2500000 - 295573 / 100 * (t - freeze)

/-- `LH_FUS`. `smrf/envphys/core/envphys.h:288`. -/
noncomputable def lhFus (t : ℝ) : ℝ := 333600 + 16667 / 100 * (freeze - t)

/-- Latent heat. `smrf/envphys/core/iwbt.c:38-51`. -/
noncomputable def latent (ta dpt : ℝ) : ℝ :=
  if ta ≤ freeze then lhVap ((ta + dpt) / 2) + lhFus ((ta + dpt) / 2)
  else if dpt ≤ freeze then
    lhVap ((ta + dpt) / 2) + (freeze - dpt) / (ta - dpt) * lhFus ((freeze + dpt) / 2)
  else lhVap ((ta + dpt) / 2)

/-- How the routine ends: a value with the last correction `ti0 - ti` (1 before any round) and the
number of rounds, or `exit(-1)` after "failure to converge", or `exit(-1)` inside `sati`. -/
inductive Outcome where
  | value (ti last : ℝ) (rounds : Nat)
  | noConvergence
  | badTemperature

/-- `psyc`. `smrf/envphys/core/iwbt.c:57`, `MOL_H2O`, `MOL_AIR`, `CP_AIR` of `envphys.h`. -/
noncomputable def psyc (xlh press : ℝ) : ℝ := 180153 / 289644 * (xlh / (1005 * press))

/-- One Newton step from `ti` with saturation pressure `esat`: the new `ti`.
`smrf/envphys/core/iwbt.c:67-71`. -/
noncomputable def newton (xlh ps ea ta ti esat : ℝ) : ℝ :=
  let dedt := xlh * (esat / (4615 / 10 * (ti * ti)))
  let pf := (ti - ta) + ps * (esat - ea)
  let dpdt := 1 + ps * dedt
  ti - pf / dpdt

/-- `while (dti > tol)`: `n` rounds are done, `left` more are allowed to return.
`smrf/envphys/core/iwbt.c:60-78`. -/
noncomputable def go (xlh ps ea ta tol : ℝ) : Nat → Nat → ℝ → ℝ → ℝ → Outcome
  | left, n, ti, esat, dti =>
    if tol < dti then
      match (if ti ≠ ta then satiC ti else some esat) with
      | none => .badTemperature
      | some es =>
        let ti' := newton xlh ps ea ta ti es
        match left with
        | 0 => .noConvergence
        | l + 1 => go xlh ps ea ta tol l (n + 1) ti' es (ti - ti')
    else .value ti dti n

/-- `wetbulb`. `smrf/envphys/core/iwbt.c:16-80`. -/
noncomputable def wetbulb (ta dpt press tol : ℝ) : Outcome :=
  let xlh := latent ta dpt
  match satiC dpt, satiC ta with
  | some ea, some esat => go xlh (psyc xlh press) ea ta tol 10 0 ta esat 1
  | _, _ => .badTemperature

end Verif.WetBulb
