import Verif.Lu
import Mathlib.Data.Real.Basic

/-!
The linear solver `smrf/spatial/dk/lusolv.c` in arithmetic with rounding: every multiplication, subtraction and division is
followed by the rounding `rnd`. Overflow, underflow, infinities and NaN are not modelled (`Lu` is the solver without rounding);
neither are products and sums contracted to one rounding (`fma`), which C compilers may do.
-/

namespace Verif.LuFloat

open Verif.Lu (set put span rowBig swapRows State Search Forward Junk)

variable (rnd : ℝ → ℝ)

/-- Scaling of the rows. lusolv.c 79-93. -/
noncomputable def scaling (n : Nat) (a : Nat → Nat → ℝ) (vv : Nat → ℝ) : Option (Nat → ℝ) :=
  (List.range n).foldlM (fun vv i => if rowBig n a i = 0 then none else some (put vv i (rnd (1 / rowBig n a i)))) vv

/-- `sum` after the inner loop. lusolv.c 99-101, 109-111, 197-199. -/
noncomputable def reduced (a : Nat → Nat → ℝ) (i j : Nat) (ks : List Nat) : ℝ :=
  ks.foldl (fun sum k => rnd (sum - rnd (a i k * a k j))) (a i j)

/-- Rows above the diagonal of column `j`. lusolv.c 98-103. -/
noncomputable def upper (j : Nat) (a : Nat → Nat → ℝ) : Nat → Nat → ℝ :=
  (List.range j).foldl (fun a i => set a i j (reduced rnd a i j (List.range i))) a

/-- One row of the pivot search. lusolv.c 109-116. -/
noncomputable def searchRow (j : Nat) (vv : Nat → ℝ) (s : Search ℝ) (i : Nat) : Search ℝ :=
  let sum := reduced rnd s.a i j (List.range j)
  let a := set s.a i j sum
  if s.big ≤ rnd (vv i * |sum|) then ⟨a, rnd (vv i * |sum|), i⟩ else ⟨a, s.big, s.imax⟩

/-- Rows from the diagonal down. lusolv.c 107-117. -/
noncomputable def search (n j : Nat) (vv : Nat → ℝ) (a : Nat → Nat → ℝ) (imax : Nat) : Search ℝ :=
  (span j n).foldl (searchRow rnd j vv) ⟨a, 0, imax⟩

/-- One column. lusolv.c 97-154. -/
noncomputable def column (n : Nat) (s : State ℝ) (j : Nat) : Option (State ℝ) :=
  let f := search rnd n j s.vv (upper rnd j s.a) s.imax
  let a := if j = f.imax then f.a else swapRows n j f.imax f.a
  let vv := if j = f.imax then s.vv else put s.vv f.imax (s.vv j)
  let indx := put s.indx j f.imax
  if a j j = 0 then none
  else if j = n - 1 then some ⟨a, vv, indx, f.imax⟩
  else some ⟨(span (j + 1) n).foldl (fun b i => set b i j (rnd (b i j * rnd (1 / a j j)))) a, vv, indx, f.imax⟩

/-- `ludcmp`. lusolv.c 57-157. -/
noncomputable def ludcmp (n : Nat) (a : Nat → Nat → ℝ) (vv : Nat → ℝ) (indx : Nat → Nat) (imax : Nat) : Option (State ℝ) :=
  match scaling rnd n a vv with
  | none => none
  | some vv => (List.range n).foldlM (column rnd n) ⟨a, vv, indx, imax⟩

/-- One row of the forward substitution. lusolv.c 182-191. -/
noncomputable def forwardRow (n : Nat) (indx : Nat → Nat) (s : Forward ℝ) (i : Nat) : Forward ℝ :=
  let ip := indx i
  let sum := s.a ip n
  let a := set s.a ip n (s.a i n)
  match s.ii with
  | some ii =>
    let sum := (span ii i).foldl (fun sum j => rnd (sum - rnd (a i j * a j n))) sum
    ⟨set a i n sum, some ii⟩
  | none => ⟨set a i n sum, if 0 < sum then some i else none⟩

/-- One row of the back substitution. lusolv.c 197-200. -/
noncomputable def backRow (n : Nat) (a : Nat → Nat → ℝ) (i : Nat) : Nat → Nat → ℝ :=
  set a i n (rnd (reduced rnd a i n (span (i + 1) n) / a i i))

/-- `lubksb`. lusolv.c 168-202. -/
noncomputable def lubksb (n : Nat) (a : Nat → Nat → ℝ) (indx : Nat → Nat) : Nat → Nat → ℝ :=
  let f := (List.range n).foldl (forwardRow rnd n indx) ⟨a, none⟩
  (List.range n).reverse.foldl (backRow rnd n) f.a

/-- `lusolv`. lusolv.c 26-48. -/
noncomputable def lusolv (junk : Junk ℝ) (n : Nat) (a : Nat → Nat → ℝ) : Option (Nat → ℝ) :=
  match ludcmp rnd n a junk.vv junk.indx junk.imax with
  | none => none
  | some s => some fun i => lubksb rnd n s.a s.indx i n

end Verif.LuFloat
