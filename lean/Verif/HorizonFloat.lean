import Verif.Horizon

/-!
Model of the upwind horizon search of `smrf/utils/wind/calc_wind.c` with a rounding after every operation. `rnd` is the
rounding of a `double`; overflow is not modelled. The arc tangent, the division by `PI` and the multiplication by
180 at the end of `hord` are exact, as in `Horizon`.
-/

namespace Verif.HorizonFloat

open Horizon (Num)

/-- `run`. calc_wind.c 260. -/
noncomputable def run (rnd : ℝ → ℝ) (x y : Nat → ℝ) (i j : Nat) : ℝ :=
  rnd (Real.sqrt (rnd (rnd (rnd (x j - x i) * rnd (x j - x i)) + rnd (rnd (y j - y i) * rnd (y j - y i)))))

/-- `rise`. calc_wind.c 259. -/
def rise (rnd : ℝ → ℝ) (z : Nat → ℝ) (height : ℝ) (i j : Nat) : ℝ := rnd (z j - rnd (height + z i))

/-- Division of `double`s. -/
noncomputable def div (rnd : ℝ → ℝ) (a b : ℝ) : Num :=
  if b = 0 then (if a = 0 then .nan else if 0 < a then .pinf else .ninf) else .fin (rnd (a / b))

/-- `slope` of the points `i` and `j`. calc_wind.c 248-263. -/
noncomputable def slope (rnd : ℝ → ℝ) (x y z : Nat → ℝ) (height : ℝ) (i j : Nat) : Num :=
  div rnd (rise rnd z height i j) (run rnd x y i j)

/-- The slopes that the loop compares. calc_wind.c 208-209. -/
noncomputable def cmp (rnd : ℝ → ℝ) (x y z : Nat → ℝ) (height : ℝ) (H : Nat → Nat) (i : Nat) :
    (Nat → Num) × (Nat → Num) :=
  (fun j => slope rnd x y z height i j, fun j => slope rnd x y z height j (H j))

/-- The array `H` after the loops; the loops are those of `Horizon`. calc_wind.c 200-237. -/
noncomputable def horizon (rnd : ℝ → ℝ) (x y z : Nat → ℝ) (height : ℝ) (N : Nat) (junk : Nat → Nat) :
    Option (Nat → Nat) :=
  Horizon.outer N (cmp rnd x y z height) (N - 1) (Horizon.initH N junk)

/-- `hord`. calc_wind.c 188-246. -/
noncomputable def hord (rnd : ℝ → ℝ) (x y z : Nat → ℝ) (height : ℝ) (N : Nat) (junk : Nat → Nat) :
    Option (Option ℝ) :=
  (horizon rnd x y z height N junk).map fun H => Horizon.degrees (slope rnd x y z height 0 (H 0))

end Verif.HorizonFloat
