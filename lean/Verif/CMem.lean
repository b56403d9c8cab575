import Mathlib.Data.List.Basic

/-!
Memory of the C code: arrays with their size, whether they are allocated, and which elements have been written. Every access is
checked, so that a program that leaves an array, reads memory it has not written, uses memory after `free` or overflows an
`int` index ends with a fault instead of having some value.
-/

namespace Verif.CMem

/-- What must not happen. -/
inductive Fault where
  /-- index outside the array -/
  | bounds
  /-- element or variable that was never written -/
  | uninit
  /-- array after `free` -/
  | freed
  /-- value that does not fit in an `int` -/
  | overflow
  /-- a loop that does not end within the rounds given to the model -/
  | endless
  deriving DecidableEq

/-- How a C function may end other than by returning. -/
inductive Stop where
  /-- `exit(0)` -/
  | exit
  | fault (f : Fault)
  deriving DecidableEq

/-- A computation. -/
abbrev C (α : Type) := Except Stop α

/-- An array. A pointer is never copied in the code modelled, so that an array can be a value. -/
structure Buf (α : Type) where
  size : Nat
  live : Bool
  val : Nat → Option α

/-- `malloc` through `vector`, `dvector` and `ivector`: no memory for sizes that are not positive, which ends the process, like a
`malloc` that fails (left out). array.c 19-31, 46-57, 72-83. -/
def malloc {α : Type} (n : Int) : C (Buf α) := if 0 < n then .ok ⟨n.toNat, true, fun _ => none⟩ else .error .exit

/-- `b[i]`. -/
def Buf.rd {α : Type} (b : Buf α) (i : Int) : C α :=
  if b.live = false then .error (.fault .freed)
  else if i < 0 ∨ (b.size : Int) ≤ i then .error (.fault .bounds)
  else
    match b.val i.toNat with
    | none => .error (.fault .uninit)
    | some v => .ok v

/-- `b[i] = v`. -/
def Buf.wr {α : Type} (b : Buf α) (i : Int) (v : α) : C (Buf α) :=
  if b.live = false then .error (.fault .freed)
  else if i < 0 ∨ (b.size : Int) ≤ i then .error (.fault .bounds)
  else .ok { b with val := fun k => if k = i.toNat then some v else b.val k }

/-- `free(b)`. -/
def Buf.free {α : Type} (b : Buf α) : C (Buf α) :=
  if b.live = false then .error (.fault .freed) else .ok { b with live := false }

/-- The value of a variable. -/
def use {α : Type} : Option α → C α
  | none => .error (.fault .uninit)
  | some v => .ok v

/-- The result of an `int` expression. -/
@[irreducible] def int32 (n : Int) : C Int := if -2 ^ 31 ≤ n ∧ n < 2 ^ 31 then .ok n else .error (.fault .overflow)

/-- `a[i][j]` for a matrix of pointers to rows. -/
def rd2 {α : Type} (a : Buf (Buf α)) (i j : Int) : C α := (a.rd i).bind fun row => row.rd j

/-- `a[i][j] = v`; the pointer `a[i]` is read only, the row it points to changes. -/
def wr2 {α : Type} (a : Buf (Buf α)) (i j : Int) (v : α) : C (Buf (Buf α)) :=
  (a.rd i).bind fun row => (row.wr j v).map fun row =>
    { a with val := fun k => if k = i.toNat then some row else a.val k }

/-- `for (i = lo; i < hi; i++)`. -/
def forUp {S : Type} (lo hi : Nat) (f : S → Nat → C S) (s : S) : C S := (List.range' lo (hi - lo)).foldlM f s

/-- `for (i = hi - 1; i >= 0; i--)`. -/
def forDown {S : Type} : Nat → (S → Nat → C S) → S → C S
  | 0, _, s => .ok s
  | i + 1, f, s => (f s i).bind fun s => forDown i f s

/-- `for (i = 0; i < n; i++)` whose body may leave the function (`none`); `rest` turns are left, starting at `i`. -/
def forRet {S : Type} : Nat → Nat → (S → Nat → C (Option S)) → S → C (Option S)
  | 0, _, _, s => .ok (some s)
  | rest + 1, i, f, s => (f s i).bind fun r =>
    match r with
    | none => .ok none
    | some s => forRet rest (i + 1) f s

end Verif.CMem
