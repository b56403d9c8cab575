import Verif.CMem

/-!
The Cython functions `ctopotherm`, `cdewpt` and `cwbt` of `smrf/envphys/core/envphys_c.pyx` with the loops of `topotherm.c`, `dewpt.c` and
`iwbt.c`: which elements of which arrays are read and written. The calculation for a cell is left abstract here (`Verif.Thermal`,
`Verif.Dewpoint`, `Verif.WetBulb`), and so are the threads (`Verif.Omp`).
-/

namespace Verif.Wrap
open Verif.CMem

/-- An array of two dimensions given to a Cython function. -/
structure Arr (K : Type) where
  rows : Nat
  cols : Nat
  /-- `dtype == float64` -/
  isDouble : Bool
  /-- contiguous, rows first -/
  cOrder : Bool
  data : Buf K

/-- What Cython tests for an argument `np.ndarray[double, mode="c", ndim=2]`. envphys_c.pyx 27-31, 73-74, 103-106. -/
def Arr.accepted {K : Type} (a : Arr K) : Bool := a.isDouble && a.cOrder

/-- Result of a call. -/
inductive Res (α : Type) where
  | valueError
  | stop (s : Stop)
  | done (a : α)

/-- `int ngrid = rows * cols`: the product is a `Py_ssize_t` (64 bits, no overflow for arrays that exist) and is cut to 32 bits.
envphys_c.pyx 45-46, 87-88, 121-122. -/
def toInt (n : Nat) : Int := (n : Int).bmod (2 ^ 32)

/-- The body of the loop over the cells: one element of each input is read, one element of the output is written; `none` is the call of
`exit`. topotherm.c 45-103; dewpt.c 33-46; iwbt.c 103-132. -/
def cell {K : Type} (f : List K → Option K) (ins : List (Buf K)) (out : Buf K) (i : Nat) : C (Buf K) :=
  (ins.mapM fun (b : Buf K) => b.rd i).bind fun vs =>
    match f vs with
    | none => .error .exit
    | some v => out.wr i v

/-- A wrapper: the number of cells is taken from the first argument alone. The arrays need no conversion once they are accepted.
envphys_c.pyx 27-67, 73-97, 103-139. -/
def wrapper {K : Type} (f : List K → Option K) (first : Arr K) (others : List (Arr K)) (out : Arr K) : Res (Buf K) :=
  if (first :: others ++ [out]).all Arr.accepted then
    match forUp 0 (toInt (first.rows * first.cols)).toNat (cell f ((first :: others).map Arr.data)) out.data with
    | .error s => .stop s
    | .ok b => .done b
  else .valueError

/-- `ctopotherm(ta, tw, z, skvfac, thermal)`. envphys_c.pyx 27-67. -/
def ctopotherm {K : Type} (f : List K → Option K) (ta tw z skvfac thermal : Arr K) : Res (Buf K) :=
  wrapper f ta [tw, z, skvfac] thermal

/-- `cdewpt(vp, dwpt)`. envphys_c.pyx 73-97. -/
def cdewpt {K : Type} (f : List K → Option K) (vp dwpt : Arr K) : Res (Buf K) := wrapper f vp [] dwpt

/-- `cwbt(ta, td, z, tw)`. envphys_c.pyx 103-139. -/
def cwbt {K : Type} (f : List K → Option K) (ta td z tw : Arr K) : Res (Buf K) := wrapper f ta [td, z] tw

end Verif.Wrap
