import Verif.Bres
import Mathlib.Analysis.SpecialFunctions.Trigonometric.Arctan

/-!
Model of the upwind horizon search: `slope`, `hord` and `calc_maxus` of `smrf/utils/wind/calc_wind.c`, and `hord`,
`_slope` and `maxus_angle` of `smrf/utils/wind/model.py`. Exact arithmetic over ℝ, with the infinities and
the NaN that a division by zero gives.
-/

namespace Verif.Horizon

/-- A `double`. -/
inductive Num where
  | fin (r : ℝ)
  | ninf
  | pinf
  | nan

/-- Division in C and numpy. -/
noncomputable def Num.div (a b : ℝ) : Num :=
  if b = 0 then (if a = 0 then .nan else if 0 < a then .pinf else .ninf) else .fin (a / b)

/-- `a < b`; false if one of them is NaN. -/
def Num.lt : Num → Num → Prop
  | .fin a, .fin b => a < b
  | .ninf, .fin _ => True
  | .ninf, .pinf => True
  | .fin _, .pinf => True
  | _, _ => False

/-- Distance of two points. calc_wind.c 260; model.py 410-413. -/
noncomputable def run (x y : Nat → ℝ) (i j : Nat) : ℝ :=
  Real.sqrt ((x j - x i) * (x j - x i) + (y j - y i) * (y j - y i))

/-- `slope` of the points `i` and `j`. calc_wind.c 248-263; model.py 415-416, 435-440. -/
noncomputable def slope (x y z : Nat → ℝ) (height : ℝ) (i j : Nat) : Num :=
  Num.div (z j - (height + z i)) (run x y i j)

open Classical in
/-- The inner loop of `hord` for one `i`: `A j` is `slope_ij` (`pt_i`), `B j` is `slope_hj` (`pt_h`), and `j` goes
on to `H[j]`. `none` if the number of turns is not enough. calc_wind.c 206-235; model.py 408-429. -/
noncomputable def search (N : Nat) (H : Nat → Nat) (A B : Nat → Num) : Nat → Nat → Option Nat
  | 0, _ => none
  | fuel + 1, j =>
    if (A j).lt (B j) then
      if j = N - 1 then some j else search N H A B fuel (H j)
    else if (B j).lt (A j) then some j else some (H j)

/-- The outer loop: `cmp H i` gives the slopes compared for `i`. The index runs from `i - 1` down to 0.
calc_wind.c 201-237; model.py 400-431. -/
noncomputable def outer (N : Nat) (cmp : (Nat → Nat) → Nat → (Nat → Num) × (Nat → Num)) :
    Nat → (Nat → Nat) → Option (Nat → Nat)
  | 0, H => some H
  | i + 1, H =>
    match search N H (cmp H i).1 (cmp H i).2 N (i + 1) with
    | none => none
    | some v => outer N cmp i (fun k => if k = i then v else H k)

/-- The C code compares the slope from `i` to `j` with the slope from `j` to its horizon. calc_wind.c 208-209. -/
noncomputable def cmpC (x y z : Nat → ℝ) (height : ℝ) (H : Nat → Nat) (i : Nat) : (Nat → Num) × (Nat → Num) :=
  (fun j => slope x y z height i j, fun j => slope x y z height j (H j))

/-- The python code compares the slopes from `i` to `j` and from `i` to the horizon of `j`. model.py 410-416. -/
noncomputable def cmpPy (x y z : Nat → ℝ) (height : ℝ) (H : Nat → Nat) (i : Nat) : (Nat → Num) × (Nat → Num) :=
  (fun j => slope x y z height i j, fun j => slope x y z height i (H j))

/-- `H[N - 1] = N - 1` in memory that holds `junk`. calc_wind.c 200; model.py 398-399. -/
def initH (N : Nat) (junk : Nat → Nat) : Nat → Nat := fun k => if k = N - 1 then N - 1 else junk k

/-- The array `H` after the loops. calc_wind.c 200-237. -/
noncomputable def horizonC (x y z : Nat → ℝ) (height : ℝ) (N : Nat) (junk : Nat → Nat) : Option (Nat → Nat) :=
  outer N (cmpC x y z height) (N - 1) (initH N junk)

/-- `hord` of the python code; the array is zero at first. model.py 394-433. -/
noncomputable def horizonPy (x y z : Nat → ℝ) (height : ℝ) (N : Nat) : Option (Nat → Nat) :=
  outer N (cmpPy x y z height) (N - 1) (initH N fun _ => 0)

/-- `PI`. calc_wind.c 11. -/
noncomputable def PI : ℝ := 3.141592654

/-- `atan(s) / PI * 180`; `none` is NaN. calc_wind.c 241. -/
noncomputable def degrees : Num → Option ℝ
  | .fin r => some (Real.arctan r / PI * 180)
  | .pinf => some (Real.pi / 2 / PI * 180)
  | .ninf => some (-(Real.pi / 2) / PI * 180)
  | .nan => none

/-- `hord` of the C code: the outer option is for a loop that does not end. calc_wind.c 188-246. -/
noncomputable def hord (x y z : Nat → ℝ) (height : ℝ) (N : Nat) (junk : Nat → Nat) : Option (Option ℝ) :=
  (horizonC x y z height N junk).map fun H => degrees (slope x y z height 0 (H 0))

open Classical in
/-- `maxus[maxus <= -89.0] = 0`. model.py 213. -/
noncomputable def correct (m : Option ℝ) : Option ℝ := m.map fun v => if v ≤ -89.0 then 0 else v

/-- The value of a cell: the line, the arrays, the horizon. `junk`, `mem` and `jh` are what the structure and the
two arrays hold before. calc_wind.c 80-117, model.py 213. -/
noncomputable def cellMaxus (nx ny : Int) (x y z : Int → ℝ) (s e : Int × Int) (height : ℝ)
    (junk : Bres.LineData) (mem : Bres.Arrays ℝ) (jh : Nat → Nat) : Option (Option ℝ) :=
  let a := Bres.fill nx ny x y z { mem with n := 0 } 0 (Bres.findLine nx ny s.1 s.2 e.1 e.2 junk)
  (hord a.x a.y a.z height a.n jh).map correct

end Verif.Horizon
