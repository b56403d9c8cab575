import Verif.CMem

/-!
The kriging code of `smrf/spatial/dk/krige.c`, `lusolv.c` and `array.c` statement by statement with checked memory. The numbers are
any type with the operations of the code, so that rounding, infinities and NaN are included.
-/

namespace Verif.KrigeMem
open Verif.CMem

/-- A type of floating point numbers: the constants and operations that the code uses. -/
structure Fl (K : Type) where
  zero : K
  one : K
  sub : K → K → K
  mul : K → K → K
  div : K → K → K
  abs : K → K
  lt : K → K → Bool
  le : K → K → Bool
  eq : K → K → Bool

variable {K : Type}

/-! ### lusolv.c -/

/-- Largest element of row `i`. lusolv.c 80-83. -/
def rowBig (F : Fl K) (n : Nat) (a : Buf (Buf K)) (i : Nat) : C K :=
  forUp 0 n (fun big j => (rd2 a i j).map fun v => if F.lt big (F.abs v) then F.abs v else big) F.zero

/-- The scaling of the rows; `none` is `return(1)`. lusolv.c 79-93. -/
def scaling (F : Fl K) (n : Nat) (a : Buf (Buf K)) (vv : Buf K) : C (Option (Buf K)) :=
  forRet n 0 (fun vv i => (rowBig F n a i).bind fun big =>
    if F.eq big F.zero then .ok none else (vv.wr i (F.div F.one big)).map some) vv

/-- The inner loop over `k` from `lo` to `hi - 1` and the value of `sum` after it. lusolv.c 99-101, 109-111, 186-187, 198-199. -/
def reduce (F : Fl K) (a : Buf (Buf K)) (i j lo hi : Nat) (sum : K) : C K :=
  forUp lo hi (fun sum k => (rd2 a i k).bind fun u => (rd2 a k j).map fun v => F.sub sum (F.mul u v)) sum

/-- lusolv.c 98-103. -/
def upper (F : Fl K) (j : Nat) (a : Buf (Buf K)) : C (Buf (Buf K)) :=
  forUp 0 j (fun a i => (rd2 a i j).bind fun sum => (reduce F a i j 0 i sum).bind fun sum => wr2 a i j sum) a

/-- State of the search for the pivot; `imax` is not set at first. -/
structure Search (K : Type) where
  a : Buf (Buf K)
  big : K
  imax : Option Int

/-- One row of the search. lusolv.c 108-116. -/
def searchRow (F : Fl K) (j : Nat) (vv : Buf K) (s : Search K) (i : Nat) : C (Search K) :=
  (rd2 s.a i j).bind fun sum => (reduce F s.a i j 0 j sum).bind fun sum => (wr2 s.a i j sum).bind fun a =>
    (vv.rd i).map fun v =>
      if F.le s.big (F.mul v (F.abs sum)) then ⟨a, F.mul v (F.abs sum), some i⟩ else ⟨a, s.big, s.imax⟩

/-- lusolv.c 121-126. -/
def swapRows (n j : Nat) (imax : Int) (a : Buf (Buf K)) : C (Buf (Buf K)) :=
  forUp 0 n (fun a k => (rd2 a imax k).bind fun dum => (rd2 a j k).bind fun v => (wr2 a imax k v).bind fun a =>
    wr2 a j k dum) a

/-- State of the loop over the columns. -/
structure State (K : Type) where
  a : Buf (Buf K)
  vv : Buf K
  indx : Buf Int
  imax : Option Int

/-- One column; `*d` is a variable of the caller and left out. lusolv.c 97-154. -/
def column (F : Fl K) (n : Nat) (s : State K) (j : Nat) : C (Option (State K)) :=
  (upper F j s.a).bind fun a => (forUp j n (searchRow F j s.vv) ⟨a, F.zero, s.imax⟩).bind fun f =>
    (use f.imax).bind fun imax =>
      (if (j : Int) ≠ imax then (swapRows n j imax f.a).bind fun a => (s.vv.rd j).bind fun v =>
        (s.vv.wr imax v).map fun vv => (a, vv) else .ok (f.a, s.vv)).bind fun (a, vv) =>
        (s.indx.wr j imax).bind fun indx => (rd2 a j j).bind fun p =>
          if F.eq p F.zero then .ok none
          else if j ≠ n - 1 then
            (rd2 a j j).bind fun p => (forUp (j + 1) n (fun a i => (rd2 a i j).bind fun v => wr2 a i j (F.mul v (F.div F.one p))) a).map
              fun a => some ⟨a, vv, indx, f.imax⟩
          else .ok (some ⟨a, vv, indx, f.imax⟩)

/-- `ludcmp`: the matrix, `indx` and the freed `vv`, or `none` for `return(1)`, where `vv` stays allocated. lusolv.c 57-157. -/
def ludcmp (F : Fl K) (n : Nat) (a : Buf (Buf K)) (indx : Buf Int) : C (Option (Buf (Buf K) × Buf Int × Buf K)) :=
  (malloc n).bind fun vv => (scaling F n a vv).bind fun r =>
    match r with
    | none => .ok none
    | some vv => (forRet n 0 (column F n) ⟨a, vv, indx, none⟩).bind fun r =>
      match r with
      | none => .ok none
      | some s => s.vv.free.map fun vv => some (s.a, s.indx, vv)

/-- One row of the forward substitution; `ii` is -1 at first. lusolv.c 182-191. -/
def forwardRow (F : Fl K) (n : Nat) (indx : Buf Int) (s : Buf (Buf K) × Int) (i : Nat) : C (Buf (Buf K) × Int) :=
  (indx.rd i).bind fun ip => (rd2 s.1 ip n).bind fun sum => (rd2 s.1 i n).bind fun v => (wr2 s.1 ip n v).bind fun a =>
    if 0 ≤ s.2 then (reduce F a i n s.2.toNat i sum).bind fun sum => (wr2 a i n sum).map fun a => (a, s.2)
    else (wr2 a i n sum).map fun a => (a, if F.lt F.zero sum then (i : Int) else s.2)

/-- One row of the back substitution. lusolv.c 195-201. -/
def backRow (F : Fl K) (n : Nat) (a : Buf (Buf K)) (i : Nat) : C (Buf (Buf K)) :=
  (rd2 a i n).bind fun sum => (reduce F a i n (i + 1) n sum).bind fun sum => (rd2 a i i).bind fun d => wr2 a i n (F.div sum d)

/-- `lubksb`. lusolv.c 168-202. -/
def lubksb (F : Fl K) (n : Nat) (a : Buf (Buf K)) (indx : Buf Int) : C (Buf (Buf K)) :=
  (forUp 0 n (forwardRow F n indx) (a, -1)).bind fun s => forDown n (backRow F n) s.1

/-- What `lusolv` leaves: the matrix, the solution, and the arrays it has allocated. -/
structure Solved (K : Type) where
  a : Buf (Buf K)
  x : Buf K
  vv : Buf K
  indx : Buf Int

/-- `lusolv`; `none` for the return value 1. lusolv.c 26-48. -/
def lusolv (F : Fl K) (n : Nat) (a : Buf (Buf K)) (x : Buf K) : C (Option (Solved K)) :=
  (malloc n).bind fun indx => (ludcmp F n a indx).bind fun r =>
    match r with
    | none => .ok none
    | some (a, indx, vv) => (lubksb F n a indx).bind fun a =>
      (forUp 0 n (fun x i => (rd2 a i n).bind fun v => Buf.wr x i v) x).bind fun x =>
        indx.free.map fun indx => some ⟨a, x, vv, indx⟩

/-! ### krige.c -/

/-- `dmatrix`. array.c 133-165. -/
def dmatrix (nr nc : Nat) : C (Buf (Buf K)) :=
  (malloc nr).bind fun m => forUp 0 nr (fun m i => (malloc nc).bind fun row => Buf.wr m i row) m

/-- krige.c 103-113. -/
def exchange (F : Fl K) (i : Nat) (s : Buf K × Buf Int) (j : Nat) : C (Buf K × Buf Int) :=
  (s.1.rd i).bind fun p => (s.1.rd j).bind fun q =>
    if F.lt q p then
      (s.1.wr i q).bind fun dist => (dist.wr j p).bind fun dist =>
        (s.2.rd i).bind fun u => (s.2.rd j).bind fun v => (s.2.wr i v).bind fun idx => (idx.wr j u).map fun idx => (dist, idx)
    else .ok s

/-- The copy of the distances and the sort; `off` is the offset of the cell in `dgrid`. krige.c 97-115. -/
def sort (F : Fl K) (nsta : Nat) (dgrid : Buf K) (off : Int) (dist : Buf K) (idx : Buf Int) : C (Buf K × Buf Int) :=
  (forUp 0 nsta (fun (s : Buf K × Buf Int) i => (dgrid.rd (off + i)).bind fun d => (s.1.wr i d).bind fun dist =>
    (s.2.wr i i).map fun idx => (dist, idx)) (dist, idx)).bind fun s =>
      forUp 0 nsta (fun s i => forUp (i + 1) nsta (exchange F i) s) s

/-- krige.c 120-123; `ns` counts to `nsta`. -/
def useFlags (nsta : Nat) (idx staflg : Buf Int) : C (Buf Int) :=
  forUp 0 nsta (fun f m => (idx.rd m).bind fun k => f.wr k 1) staflg

/-- The row of station `m`. krige.c 144-150. -/
def loadRow (nsta : Nat) (ad : Buf K) (staflg : Buf Int) (m : Nat) (mm : Int) (a : Buf (Buf K)) : C (Buf (Buf K) × Int) :=
  forUp 0 nsta (fun (s : Buf (Buf K) × Int) n => (staflg.rd n).bind fun f =>
    if f = 1 then
      (int32 (m * nsta)).bind fun p => (int32 (p + n)).bind fun p => (ad.rd p).bind fun v => (wr2 s.1 mm (s.2 + 1) v).map
        fun a => (a, s.2 + 1)
    else .ok s) (a, -1)

/-- krige.c 139-157. -/
def load (F : Fl K) (nsta ns : Nat) (ad dgrid : Buf K) (off : Int) (staflg : Buf Int) (a : Buf (Buf K)) : C (Buf (Buf K)) :=
  (forUp 0 nsta (fun (s : Buf (Buf K) × Int) m => (staflg.rd m).bind fun f =>
    if f = 1 then
      (loadRow nsta ad staflg m (s.2 + 1) s.1).bind fun r => (wr2 r.1 ns (s.2 + 1) F.one).bind fun a =>
        (wr2 a (s.2 + 1) ns F.one).bind fun a => (dgrid.rd (off + m)).bind fun d =>
          (wr2 a (s.2 + 1) (ns + 1) d).map fun a => (a, s.2 + 1)
    else .ok s) (a, -1)).bind fun s => (wr2 s.1 ns ns F.zero).bind fun a => wr2 a ns (ns + 1) F.one

/-- State of the search for the station to drop. -/
structure Drop (K : Type) where
  mm : Int
  msave : Int
  elevsave : K

/-- krige.c 169-181. -/
def drop (F : Fl K) (nsta : Nat) (elev : Buf K) (staflg : Buf Int) (wcalc : Buf K) : C (Drop K) :=
  forUp 0 nsta (fun (s : Drop K) m => (staflg.rd m).bind fun f =>
    if f = 1 then
      (wcalc.rd (s.mm + 1)).bind fun w =>
        if F.lt w F.zero then
          (elev.rd m).bind fun e =>
            if F.lt s.elevsave e then .ok ⟨s.mm + 1, m, e⟩ else .ok ⟨s.mm + 1, s.msave, s.elevsave⟩
        else .ok ⟨s.mm + 1, s.msave, s.elevsave⟩
    else .ok s) ⟨-1, -1, F.zero⟩

/-- krige.c 187-195. -/
def scatter (F : Fl K) (nsta : Nat) (staflg : Buf Int) (wcalc w : Buf K) : C (Buf K × Int) :=
  forUp 0 nsta (fun (s : Buf K × Int) m => (staflg.rd m).bind fun f =>
    if f = 1 then (wcalc.rd (s.2 + 1)).bind fun v => (s.1.wr m v).map fun w => (w, s.2 + 1)
    else (s.1.wr m F.zero).map fun w => (w, s.2)) (w, -1)

/-- The arrays in the loop. -/
structure Work (K : Type) where
  a : Buf (Buf K)
  staflg : Buf Int
  wcalc : Buf K
  w : Buf K

/-- The `while (1)`; `fuel` bounds the rounds. krige.c 132-198. -/
def rounds (F : Fl K) (nsta : Nat) (ad dgrid : Buf K) (off : Int) (elev : Buf K) : Nat → Nat → Work K → C (Work K)
  | 0, _, _ => .error (.fault .endless)
  | fuel + 1, ns, s =>
    (load F nsta ns ad dgrid off s.staflg s.a).bind fun a => (lusolv F (ns + 1) a s.wcalc).bind fun r =>
      match r with
      | none => .error .exit
      | some t => (drop F nsta elev s.staflg t.x).bind fun d =>
        if 0 ≤ d.msave then (s.staflg.wr d.msave 0).bind fun staflg =>
          rounds F nsta ad dgrid off elev fuel (ns - 1) ⟨t.a, staflg, t.x, s.w⟩
        else (scatter F nsta s.staflg t.x s.w).map fun w => ⟨t.a, s.staflg, t.x, w.1⟩

/-- The arrays of `krige` at its end. -/
structure Ended (K : Type) where
  dist : Buf K
  idx : Buf Int
  staflg : Buf Int
  wcalc : Buf K
  a : Buf (Buf K)
  w : Buf K

/-- `krige`. krige.c 66-216. -/
def krige (F : Fl K) (nsta : Nat) (ad dgrid : Buf K) (off : Int) (elev w : Buf K) : C (Ended K) :=
  (malloc nsta).bind fun dist => (malloc nsta).bind fun idx => (sort F nsta dgrid off dist idx).bind fun di =>
    (malloc nsta).bind fun staflg => (useFlags nsta di.2 staflg).bind fun staflg =>
      (int32 (nsta + 2)).bind fun _ => (dmatrix (nsta + 1) (nsta + 2)).bind fun a => (malloc (nsta + 1)).bind fun wcalc =>
        (rounds F nsta ad dgrid off elev (nsta + 1) nsta ⟨a, staflg, wcalc, w⟩).bind fun s =>
          di.1.free.bind fun dist => di.2.free.bind fun idx => s.staflg.free.bind fun staflg => s.wcalc.free.bind fun wcalc =>
            (forUp 0 (nsta + 1) (fun (a : Buf (Buf K)) m => (a.rd m).bind fun row => row.free.map fun row =>
              { a with val := fun k => if k = m then some row else a.val k }) s.a).bind fun a =>
                a.free.map fun a => ⟨dist, idx, staflg, wcalc, a, s.w⟩

/-- `krige_grid` run by one thread; `w` is an array on the stack. krige.c 41-60. -/
def krigeGrid (F : Fl K) (nsta ngrid : Nat) (ad dgrid elev weights : Buf K) : C (Buf K × Buf K) :=
  forUp 0 ngrid (fun (s : Buf K × Buf K) i => (int32 (i * nsta)).bind fun off =>
    (krige F nsta ad dgrid off elev s.1).bind fun e =>
      (forUp 0 nsta (fun (weights : Buf K) j => (e.w.rd j).bind fun v => (int32 (i * nsta)).bind fun p =>
        (int32 (p + j)).bind fun p => weights.wr p v) s.2).map fun weights => (e.w, weights))
    (⟨nsta + 1, true, fun _ => none⟩, weights)

end Verif.KrigeMem
