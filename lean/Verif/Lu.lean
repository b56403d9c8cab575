import Mathlib.Algebra.Order.Field.Basic

/-!
Model of the linear solver `smrf/spatial/dk/lusolv.c`. Matrices are functions of row and column; the
right-hand side is column `n`. Exact arithmetic in an ordered field instead of `double`. Arrays
allocated with `malloc` hold unknown values: they are parameters.
-/

namespace Verif.Lu

variable {K : Type} [Field K] [LinearOrder K] [IsStrictOrderedRing K]

/-- `a[i][j] = x`. -/
def set (a : Nat → Nat → K) (i j : Nat) (x : K) : Nat → Nat → K :=
  fun r c => if r = i ∧ c = j then x else a r c

/-- `v[i] = x`. -/
def put {α : Type} (v : Nat → α) (i : Nat) (x : α) : Nat → α := fun r => if r = i then x else v r

/-- `lo, ..., hi - 1`. -/
def span (lo hi : Nat) : List Nat := (List.range (hi - lo)).map (· + lo)

/-- Largest absolute value in a row. lusolv.c 80-83. -/
def rowBig (n : Nat) (a : Nat → Nat → K) (i : Nat) : K :=
  (List.range n).foldl (fun big j => if big < |a i j| then |a i j| else big) 0

/-- Scaling of the rows, or `return(1)` for a row of zeros; `vv` is the uninitialised vector.
lusolv.c 79-93. -/
def scaling (n : Nat) (a : Nat → Nat → K) (vv : Nat → K) : Option (Nat → K) :=
  (List.range n).foldlM (fun vv i => if rowBig n a i = 0 then none else some (put vv i (1 / rowBig n a i))) vv

/-- `sum` after the inner loop over `k` in `[lo, m)`. lusolv.c 99-101, 109-111, 183-187, 197-199. -/
def reduced (a : Nat → Nat → K) (i j : Nat) (ks : List Nat) : K :=
  ks.foldl (fun sum k => sum - a i k * a k j) (a i j)

/-- Rows above the diagonal of column `j`. lusolv.c 98-103. -/
def upper (j : Nat) (a : Nat → Nat → K) : Nat → Nat → K :=
  (List.range j).foldl (fun a i => set a i j (reduced a i j (List.range i))) a

/-- State of the pivot search. -/
structure Search (K : Type) where
  a : Nat → Nat → K
  big : K
  imax : Nat

/-- One row of the pivot search. lusolv.c 109-116. -/
def searchRow (j : Nat) (vv : Nat → K) (s : Search K) (i : Nat) : Search K :=
  let sum := reduced s.a i j (List.range j)
  let a := set s.a i j sum
  if s.big ≤ vv i * |sum| then ⟨a, vv i * |sum|, i⟩ else ⟨a, s.big, s.imax⟩

/-- Rows from the diagonal down. `imax` is left over from the column before. lusolv.c 107-117. -/
def search (n j : Nat) (vv : Nat → K) (a : Nat → Nat → K) (imax : Nat) : Search K :=
  (span j n).foldl (searchRow j vv) ⟨a, 0, imax⟩

/-- Interchange of two rows of the matrix, not of the right-hand side. lusolv.c 122-126. -/
def swapRows (n j imax : Nat) (a : Nat → Nat → K) : Nat → Nat → K :=
  (List.range n).foldl (fun a k =>
    let dum := a imax k
    let a := set a imax k (a j k)
    set a j k dum) a

/-- State of the loop over columns. -/
structure State (K : Type) where
  a : Nat → Nat → K
  vv : Nat → K
  indx : Nat → Nat
  imax : Nat

/-- One column. lusolv.c 97-154; `*d` is never read and left out. -/
def column (n : Nat) (s : State K) (j : Nat) : Option (State K) :=
  let f := search n j s.vv (upper j s.a) s.imax
  let a := if j = f.imax then f.a else swapRows n j f.imax f.a
  let vv := if j = f.imax then s.vv else put s.vv f.imax (s.vv j)
  let indx := put s.indx j f.imax
  if a j j = 0 then none
  else if j = n - 1 then some ⟨a, vv, indx, f.imax⟩
  else some ⟨(span (j + 1) n).foldl (fun b i => set b i j (b i j * (1 / a j j))) a, vv, indx, f.imax⟩

/-- `ludcmp`; `none` for `return(1)`. lusolv.c 57-157. -/
def ludcmp (n : Nat) (a : Nat → Nat → K) (vv : Nat → K) (indx : Nat → Nat) (imax : Nat) :
    Option (State K) :=
  match scaling n a vv with
  | none => none
  | some vv => (List.range n).foldlM (column n) ⟨a, vv, indx, imax⟩

/-- State of the forward substitution; `ii = none` for -1. -/
structure Forward (K : Type) where
  a : Nat → Nat → K
  ii : Option Nat

/-- One row of the forward substitution. lusolv.c 182-191. -/
def forwardRow (n : Nat) (indx : Nat → Nat) (s : Forward K) (i : Nat) : Forward K :=
  let ip := indx i
  let sum := s.a ip n
  let a := set s.a ip n (s.a i n)
  match s.ii with
  | some ii =>
    let sum := (span ii i).foldl (fun sum j => sum - a i j * a j n) sum
    ⟨set a i n sum, some ii⟩
  | none => ⟨set a i n sum, if 0 < sum then some i else none⟩

/-- One row of the back substitution. lusolv.c 197-200. -/
def backRow (n : Nat) (a : Nat → Nat → K) (i : Nat) : Nat → Nat → K :=
  set a i n (reduced a i n (span (i + 1) n) / a i i)

/-- `lubksb`. lusolv.c 168-202. -/
def lubksb (n : Nat) (a : Nat → Nat → K) (indx : Nat → Nat) : Nat → Nat → K :=
  let f := (List.range n).foldl (forwardRow n indx) ⟨a, none⟩
  (List.range n).reverse.foldl (backRow n) f.a

/-- Contents of memory from `malloc` and of the uninitialised `imax`. -/
structure Junk (K : Type) where
  vv : Nat → K
  indx : Nat → Nat
  imax : Nat

/-- `lusolv`: the solution, or `none` for the return value 1. lusolv.c 26-48. -/
def lusolv (junk : Junk K) (n : Nat) (a : Nat → Nat → K) : Option (Nat → K) :=
  match ludcmp n a junk.vv junk.indx junk.imax with
  | none => none
  | some s => some fun i => lubksb n s.a s.indx i n

end Verif.Lu
