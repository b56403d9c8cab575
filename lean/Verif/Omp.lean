import Verif.Thermal
import Verif.WetBulb
import Verif.Dewpoint
import Verif.Krige
import Verif.Horizon

/-!
The parallel loops of the C code: `#pragma omp parallel` with `#pragma omp for` in `smrf/envphys/core/topotherm.c` 41-104,
`iwbt.c` 99-134, `dewpt.c` 29-48, `smrf/spatial/dk/krige.c` 48-60 and `smrf/utils/wind/calc_wind.c` 73-125. The threads run
interleaved over one memory; a variable is one cell for all threads or one cell for each thread, as the clauses say. A C statement
(with the functions it calls, whose variables are on the stack of the thread) is one step; the loop counter belongs to the thread,
as OpenMP prescribes for the loop of `omp for`.
-/

namespace Verif.Omp

/-- A statement of the body of a loop: `x` are variables, `v` their values, `o` the values of the array that is written. The
function gets the values of the variables in `reads` only. -/
inductive Stmt (X V O : Type) where
  /-- `x = f(...)`; `none` is a call of `exit`. The first argument of `f` is the loop counter (for the input arrays). -/
  | assign (x : X) (k : Nat) (reads : Fin k → X) (f : Nat → (Fin k → V) → Option V)
  /-- `if (bad) exit(-1)`. -/
  | check (k : Nat) (reads : Fin k → X) (bad : (Fin k → V) → Prop)
  /-- `out[i * width + off] = f(...)`. -/
  | store (off : Nat) (k : Nat) (reads : Fin k → X) (f : (Fin k → V) → O)

/-- A parallel loop: the variables of which every thread has its own, and the body. -/
structure Loop (X V O : Type) where
  priv : List X
  width : Nat
  body : List (Stmt X V O)

/-- The state of the process. `todo t` are the iterations thread `t` has to finish, `cur t` what is left of the first. -/
structure State (X V O : Type) where
  shared : X → V
  own : Nat → X → V
  out : Nat → O
  todo : Nat → List Nat
  cur : Nat → List (Stmt X V O)
  exited : Bool

/-- Change a function at one place. -/
def upd {A B : Type} [DecidableEq A] (f : A → B) (a : A) (b : B) : A → B := fun x => if x = a then b else f x

section
variable {X V O : Type} [DecidableEq X]

/-- Thread `t` reads a variable. -/
def read (L : Loop X V O) (s : State X V O) (t : Nat) (x : X) : V := if x ∈ L.priv then s.own t x else s.shared x

/-- Thread `t` writes a variable. -/
def write (L : Loop X V O) (s : State X V O) (t : Nat) (x : X) (v : V) : State X V O :=
  if x ∈ L.priv then { s with own := upd s.own t (upd (s.own t) x v) } else { s with shared := upd s.shared x v }

open Classical in
/-- Thread `t` executes a statement of iteration `i`. -/
noncomputable def exec (L : Loop X V O) (t i : Nat) (s : State X V O) : Stmt X V O → Option (State X V O)
  | .assign x _ reads f => (f i fun j => read L s t (reads j)).map (write L s t x)
  | .check _ reads bad => if bad fun j => read L s t (reads j) then none else some s
  | .store off _ reads f => some { s with out := upd s.out (i * L.width + off) (f fun j => read L s t (reads j)) }

/-- The next step of thread `t`; `none` if it has none. After the last statement of an iteration the next one begins. `exit` ends
the process. -/
noncomputable def step (L : Loop X V O) (t : Nat) (s : State X V O) : Option (State X V O) :=
  if s.exited = true then none
  else
    match s.todo t, s.cur t with
    | [], _ => none
    | _ :: r, [] => some { s with todo := upd s.todo t r, cur := upd s.cur t L.body }
    | i :: _, c :: cs =>
      match exec L t i s c with
      | none => some { s with exited := true }
      | some s' => some { s' with cur := upd s.cur t cs }

/-- The start: `share t` are the iterations of thread `t`; all memory holds arbitrary values. -/
def start (L : Loop X V O) (share : Nat → List Nat) (shared : X → V) (own : Nat → X → V) (out : Nat → O) : State X V O :=
  ⟨shared, own, out, share, fun _ => L.body, false⟩

/-- The states that can be reached in `k` steps, whichever thread runs next. -/
inductive Reach (L : Loop X V O) (s0 : State X V O) : Nat → State X V O → Prop
  | refl : Reach L s0 0 s0
  | step {k : Nat} {s s' : State X V O} (t : Nat) (h : Reach L s0 k s) (e : Verif.Omp.step L t s = some s') : Reach L s0 (k + 1) s'

end

/-! ### The loops -/

open Verif.Vapor

/-- The variables of `topotherm`. -/
inductive TV where
  | taP | twP | zP | skvfacP | ea | emiss | t0 | press | lwIn
  deriving DecidableEq

/-- `topotherm`; `private` is the clause of the pragma. topotherm.c 41-104. -/
noncomputable def topotherm (ta tw z skvfac : Nat → ℝ) : Loop TV ℝ ℝ where
  priv := [.taP, .twP, .zP, .skvfacP, .ea, .emiss, .t0, .press, .lwIn]
  width := 1
  body := [
    .assign .taP 0 ![] fun i _ => some (ta i),
    .assign .twP 0 ![] fun i _ => some (tw i),
    .assign .zP 0 ![] fun i _ => some (z i),
    .assign .skvfacP 0 ![] fun i _ => some (skvfac i),
    .assign .taP 1 ![.taP] fun _ v => some (v 0 + freeze),
    .assign .twP 1 ![.twP] fun _ v => some (v 0 + freeze),
    .check 2 ![.taP, .twP] fun v => v 0 < 0 ∨ v 1 < 0,
    .assign .twP 2 ![.taP, .twP] fun _ v => some (if v 0 < v 1 then v 0 else v 1),
    .assign .ea 1 ![.twP] fun _ v => satiC (v 0),
    .assign .emiss 3 ![.taP, .ea, .zP] fun _ v => Thermal.brutsaertC (v 0) Thermal.lapseM (v 1) (v 2) seaLevel,
    .assign .t0 2 ![.taP, .zP] fun _ v => some (v 0 - v 1 * Thermal.lapseM),
    .assign .press 2 ![.t0, .zP] fun _ v => some (Twostream.hysat seaLevel (v 0) Twostream.stdLapse (v 1 / 1000) Twostream.gravity Twostream.molAir),
    .assign .emiss 2 ![.emiss, .press] fun _ v => some (v 0 * (v 1 / seaLevel)),
    .assign .emiss 2 ![.emiss, .skvfacP] fun _ v => some (v 0 * v 1 + (1 - v 1)),
    .assign .emiss 1 ![.emiss] fun _ v => some (if 1 < v 0 then 1 else v 0),
    .assign .lwIn 2 ![.emiss, .taP] fun _ v => some (v 0 * Thermal.stefBoltz * v 1 * v 1 * v 1 * v 1),
    .store 0 1 ![.lwIn] fun v => v 0]

/-- The variables of `iwbt`. -/
inductive WV where
  | taP | twP | zP | paP | tdP
  deriving DecidableEq

/-- `wetbulb` as a value; `none` is `exit`. -/
noncomputable def wetbulbValue (ta td pa tol : ℝ) : Option ℝ :=
  match WetBulb.wetbulb ta td pa tol with
  | .value ti _ _ => some ti
  | _ => none

/-- `HYSTAT` of the elevation, or the pressure at sea level. iwbt.c 109-116. -/
noncomputable def pressureAt (z : ℝ) : ℝ :=
  if z = 0 then seaLevel
  else Twostream.hysat seaLevel Twostream.stdAirtmp Twostream.stdLapse (z / 1000) Twostream.gravity Twostream.molAir

/-- `iwbt`. iwbt.c 99-134. -/
noncomputable def iwbt (ta td z : Nat → ℝ) (tol : ℝ) : Loop WV ℝ ℝ where
  priv := [.taP, .twP, .zP, .paP, .tdP]
  width := 1
  body := [
    .assign .taP 0 ![] fun i _ => some (ta i),
    .assign .tdP 0 ![] fun i _ => some (td i),
    .assign .zP 0 ![] fun i _ => some (z i),
    .assign .paP 1 ![.zP] fun _ v => some (pressureAt (v 0)),
    .assign .taP 1 ![.taP] fun _ v => some (v 0 + freeze),
    .assign .tdP 1 ![.tdP] fun _ v => some (v 0 + freeze),
    .check 2 ![.taP, .tdP] fun v => v 0 < 0 ∨ v 1 < 0,
    .assign .twP 3 ![.taP, .tdP, .paP] fun _ v => wetbulbValue (v 0) (v 1) (v 2) tol,
    .store 0 1 ![.twP] fun v => v 0 - freeze]

/-- The variables of `dewpt` and of `dew_pointp` (`e`, `a`, `b`, `result`). -/
inductive DV where
  | eaP | dptP | ePass | e | a | b | result
  deriving DecidableEq

/-- What `zerobr` returns. -/
noncomputable def zerobrValue : Dewpoint.Result → ℝ
  | .root x => x
  | _ => 0

/-- `dewpt` with `dew_pointp`: `ea_p` and `dpt_p` are in the clause, `e_pass` is a file variable that is `threadprivate`, the
others are variables of the called function. The bracketing loops end within `fuel` rounds (a loop that does not end is not
modelled here, see C43); `satm` reads `e_pass`. dewpt.c 29-48, 53-93. -/
noncomputable def dewpt (ea : Nat → ℝ) (fuel : Nat) (meps tol : ℝ) : Loop DV ℝ ℝ where
  priv := [.eaP, .dptP] ++ [.ePass] ++ [.e, .a, .b, .result]
  width := 1
  body := [
    .assign .eaP 0 ![] fun i _ => some (ea i),
    .assign .e 1 ![.eaP] fun _ v => some (v 0),
    .assign .a 1 ![.e] fun _ v => Dewpoint.lowerLoop (v 0) fuel freeze,
    .assign .b 1 ![.e] fun _ v => Dewpoint.upperLoop (v 0) fuel (freeze + 15),
    .assign .ePass 1 ![.e] fun _ v => some (v 0),
    .assign .result 3 ![.ePass, .a, .b] fun _ v => some (zerobrValue (Dewpoint.zerobr (fun t => v 0 - sat t) meps tol (v 1) (v 2))),
    .assign .dptP 1 ![.result] fun _ v => some (v 0),
    .assign .dptP 1 ![.dptP] fun _ v => some (v 0 - freeze),
    .store 0 1 ![.dptP] fun v => v 0]

/-- The variables of `krige_grid`. -/
inductive KV where
  | w | j
  deriving DecidableEq

/-- `krige` as a value; `none` is `exit`. -/
def krigeValue {K : Type} : Krige.Outcome K → Option ((Nat → K) ⊕ Nat)
  | .weights w => some (.inl w)
  | _ => none

/-- `w[j]`; the other cases do not occur, the variables have one type each. -/
def entry {K : Type} [Zero K] : (Nat → K) ⊕ Nat → (Nat → K) ⊕ Nat → K
  | .inl w, .inr j => w j
  | _, _ => 0

/-- The loop over the stations in `krige_grid`, with its counter. krige.c 55-57. -/
def copyRow (K : Type) [Zero K] (nsta : Nat) : List (Stmt KV ((Nat → K) ⊕ Nat) K) :=
  (List.range nsta).flatMap fun j =>
    [.assign .j 0 ![] fun _ _ => some (.inr j), .store j 2 ![.w, .j] fun v => entry (v 0) (v 1)]

/-- `krige_grid`; the memory that `krige` gets from `malloc` may be different in every call. krige.c 48-60. -/
def krigeGrid {K : Type} [Field K] [LinearOrder K] (mem : Nat → Krige.Mem K) (nsta : Nat) (ad : Nat → Nat → K)
    (dgrid : Nat → Nat → K) (elev : Nat → K) : Loop KV ((Nat → K) ⊕ Nat) K where
  priv := [.w, .j]
  width := nsta
  body := .assign .w 0 ![] (fun i _ => krigeValue (Krige.krige (mem i) nsta ad (dgrid i) elev)) :: copyRow K nsta

/-- The variables of `calc_maxus`; `line` is `xcoords`, `ycoords` and `line_length`, `arrays` is `xl`, `yl`, `elev` and `n`, which
are declared in the body. -/
inductive MV where
  | startX | startY | endX | endY | line | arrays
  deriving DecidableEq

/-- Their values. -/
inductive MVal where
  | int (n : Int)
  | line (l : List (Int × Int))
  | arrays (a : Bres.Arrays ℝ)

/-- `find_line` on the variables. -/
def lineValue (nx ny : Int) (junk : Bres.LineData) : MVal → MVal → MVal → MVal → Option MVal
  | .int sx, .int sy, .int ex, .int ey => some (.line (Bres.findLine nx ny sx sy ex ey junk))
  | _, _, _, _ => none

/-- The loop that fills the arrays. -/
def arraysValue (nx ny : Int) (x y z : Int → ℝ) (mem : Bres.Arrays ℝ) : MVal → Option MVal
  | .line l => some (.arrays (Bres.fill nx ny x y z { mem with n := 0 } 0 l))
  | _ => none

/-- `hord` on the variables; the outer `none` is a loop that does not end. -/
noncomputable def hordValue (height : ℝ) (jh : Nat → Nat) : MVal → Option (Option ℝ)
  | .arrays a => Horizon.hord a.x a.y a.z height a.n jh
  | _ => none

/-- `calc_maxus`; `s` and `e` are the start and end cells (`X_start`, ...), the memory is arbitrary in every iteration.
calc_wind.c 73-125. -/
noncomputable def calcMaxus (nx ny : Int) (x y z : Int → ℝ) (s e : Nat → Int × Int) (height : ℝ) (junk : Nat → Bres.LineData)
    (mem : Nat → Bres.Arrays ℝ) (jh : Nat → Nat) : Loop MV MVal (Option (Option ℝ)) where
  priv := [.startX, .startY, .endX, .endY, .line] ++ [.arrays]
  width := 1
  body := [
    .assign .startX 0 ![] fun i _ => some (.int (s i).1),
    .assign .startY 0 ![] fun i _ => some (.int (s i).2),
    .assign .endX 0 ![] fun i _ => some (.int (e i).1),
    .assign .endY 0 ![] fun i _ => some (.int (e i).2),
    .assign .line 4 ![.startX, .startY, .endX, .endY] fun i v => lineValue nx ny (junk i) (v 0) (v 1) (v 2) (v 3),
    .assign .arrays 1 ![.line] fun i v => arraysValue nx ny x y z (mem i) (v 0),
    .store 0 1 ![.arrays] fun v => hordValue height jh (v 0)]

end Verif.Omp
