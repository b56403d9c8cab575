import Verif.Krige
import Verif.LuFloat

/-!
The kriging weights `smrf/spatial/dk/krige.c` in arithmetic with rounding. Only the linear solver computes (`LuFloat`); the sort,
the loading of the matrix, the choice of a station to drop and the writing of the weights copy and compare numbers and are those
of `Krige`. The distances are inputs: rounding in their computation (dk.py 109-125) only changes which numbers these are.
-/

namespace Verif.KrigeFloat

open Verif.Krige (Mem Outcome load drop scatter useFlags)
open Verif.Lu (put)

variable (rnd : ℝ → ℝ)

/-- The loop; `fuel` bounds the rounds. krige.c 134-198. -/
noncomputable def loop (mem : Mem ℝ) (nsta : Nat) (ad : Nat → Nat → ℝ) (dgrid elev : Nat → ℝ) :
    Nat → Nat → (Nat → Bool) → Outcome ℝ
  | 0, _, _ => .stuck
  | fuel + 1, ns, flag =>
    match LuFloat.lusolv rnd (mem.lu ns) (ns + 1) (load nsta ns ad dgrid flag (mem.a ns)) with
    | none => .exit
    | some wcalc =>
      match drop nsta flag elev wcalc with
      | some m => loop mem nsta ad dgrid elev fuel (ns - 1) (put flag m false)
      | none => .weights (scatter nsta flag wcalc mem.w)

/-- `krige`. krige.c 66-216. -/
noncomputable def krige (mem : Mem ℝ) (nsta : Nat) (ad : Nat → Nat → ℝ) (dgrid elev : Nat → ℝ) : Outcome ℝ :=
  loop rnd mem nsta ad dgrid elev (nsta + 1) nsta (useFlags nsta dgrid mem.flags)

end Verif.KrigeFloat
