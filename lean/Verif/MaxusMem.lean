import Verif.CMem
import Verif.Bres

/-!
The upwind-slope code with its memory: `calc_maxus`, `find_line` and `hord` of `smrf/utils/wind/calc_wind.c`, statement by
statement, over arrays whose bounds and writes are checked (`Verif.CMem`). The numbers are left abstract, so that what is proved
about the memory holds for floats, with their rounding and NaN. The loop over the cells is sequential here; the threads
are in `Verif.Omp`.
-/

namespace Verif.MaxusMem
open Verif.CMem Verif.Bres

/-- The arithmetic: coordinates and elevations `K`, slopes `R`, angles `O`. -/
structure Ar (K R O : Type) where
  /-- `slope(x1, y1, z1, x2, y2, z2, height)`. calc_wind.c 248-263. -/
  slope : K → K → K → K → K → K → R
  /-- `<` on slopes. -/
  lt : R → R → Bool
  /-- `atan(slope_hj) / PI * 180`. calc_wind.c 241. -/
  deg : R → O

/-- The variables of `find_line`: coordinates and structure, arrays, `N`. calc_wind.c 144-146. -/
structure Walk where
  t : State
  xs : Buf Int
  ys : Buf Int
  N : Nat

/-- The loop of `find_line`, with the number of turns the model allows. calc_wind.c 163-174. -/
def walk (nx ny sx sy ex ey : Int) : Nat → Walk → C Walk
  | 0, _ => .error (.fault .endless)
  | fuel + 1, w =>
    if (w.t.x ≠ ex ∨ w.t.y ≠ ey) ∧ w.N < maxSize then
      if w.t.x > nx ∨ w.t.x < 0 ∨ w.t.y > ny ∨ w.t.y < 0 then .ok w
      else
        let t := nextCell (short sx) (short sy) (short ex) (short ey) w.t
        (w.xs.wr w.N t.x).bind fun xs => (w.ys.wr w.N t.y).bind fun ys => walk nx ny sx sy ex ey fuel ⟨t, xs, ys, w.N + 1⟩
    else .ok w

/-- `find_line`: the arrays and the number of cells. `junk` is what the structure holds before its field `SlopeType` is set.
calc_wind.c 130-178. -/
def findLineMem (nx ny sx sy ex ey : Int) (junk : LineData) (xs ys : Buf Int) : C (Buf Int × Buf Int × Nat) :=
  (xs.wr 0 sx).bind fun xs => (ys.wr 0 sy).bind fun ys =>
    (walk nx ny sx sy ex ey (maxSize + 1) ⟨{ x := short sx, y := short sy, l := { junk with slopeType := 0 } }, xs, ys, 1⟩).map
      fun w => (w.xs, w.ys, w.N)

/-- `xl`, `yl`, `elev`, `n`. calc_wind.c 98-99. -/
structure Line (K : Type) where
  xl : Buf K
  yl : Buf K
  elev : Buf K
  n : Nat

/-- An array on the stack. -/
def local_ {α : Type} (n : Nat) : Buf α := ⟨n, true, fun _ => none⟩

/-- One turn of the loop that fills the arrays. Both coordinates are read here even if the first test fails. calc_wind.c 100-113. -/
def takeCell {K : Type} (nx ny : Int) (x y z : Buf K) (xs ys : Buf Int) (a : Line K) (j : Nat) : C (Line K) :=
  (xs.rd j).bind fun cx => (ys.rd j).bind fun cy =>
    if cx ≥ 0 ∧ cx ≤ nx - 1 ∧ cy ≥ 0 ∧ cy ≤ ny - 1 then
      (x.rd cx).bind fun v => (a.xl.wr j v).bind fun xl =>
      (y.rd cy).bind fun v => (a.yl.wr j v).bind fun yl =>
      (int32 (cy * nx)).bind fun p => (int32 (p + cx)).bind fun p =>
      (z.rd p).bind fun v => (a.elev.wr j v).map fun elev => ⟨xl, yl, elev, a.n + 1⟩
    else .ok a

/-- The slope between the points `i` and `j` of a line. calc_wind.c 208, 209, 240. -/
def slopeOf {K R O : Type} (F : Ar K R O) (a : Line K) (i j : Int) : C R :=
  (a.xl.rd i).bind fun x1 => (a.yl.rd i).bind fun y1 => (a.elev.rd i).bind fun z1 =>
  (a.xl.rd j).bind fun x2 => (a.yl.rd j).bind fun y2 => (a.elev.rd j).map fun z2 => F.slope x1 y1 z1 x2 y2 z2

/-- The loop over `j` of `hord`, giving what is stored in `H[i]`, with the number of turns the model allows. `N` is the length of the
line. calc_wind.c 206-235. -/
def search {K R O : Type} (F : Ar K R O) (a : Line K) (N : Int) (H : Buf Int) (i : Int) : Nat → Int → C Int
  | 0, _ => .error (.fault .endless)
  | fuel + 1, j =>
    (slopeOf F a i j).bind fun sij => (H.rd j).bind fun h => (slopeOf F a j h).bind fun shj =>
      if F.lt sij shj then
        if j = N - 1 then .ok j else (H.rd j).bind fun j => search F a N H i fuel j
      else if F.lt shj sij then .ok j else H.rd j

/-- `hord`; the index `H[N - 1]` is outside the array for an empty line. calc_wind.c 186-246. -/
def hordMem {K R O : Type} (F : Ar K R O) (a : Line K) : C O :=
  ((local_ a.n).wr ((a.n : Int) - 1) ((a.n : Int) - 1)).bind fun H =>
  (forDown (a.n - 1) (fun H i => (search F a a.n H i a.n (i + 1)).bind fun v => H.wr i v) H).bind fun H =>
  (H.rd 0).bind fun h => (slopeOf F a 0 h).map F.deg

/-- The arrays of `calc_maxus`: the coordinates and elevations, and the start and end cells, whose elements are converted from `double` to
`int`. They hold whole numbers, see `Verif.Window.farEnd`. calc_wind.c 48-61. -/
structure Grid (K : Type) where
  x : Buf K
  y : Buf K
  z : Buf K
  startX : Buf Int
  startY : Buf Int
  endX : Buf Int
  endY : Buf Int

/-- The body of the loop over the cells: `xcoords`, `ycoords` and `maxus` after it. calc_wind.c 80-117. -/
def cellMem {K R O : Type} (F : Ar K R O) (nx ny : Int) (g : Grid K) (junk : LineData) (s : Buf Int × Buf Int × Buf O) (i : Nat) :
    C (Buf Int × Buf Int × Buf O) :=
  (g.startX.rd i).bind fun sx => (int32 sx).bind fun sx => (g.startY.rd i).bind fun sy => (int32 sy).bind fun sy =>
  (g.endX.rd i).bind fun ex => (int32 ex).bind fun ex => (g.endY.rd i).bind fun ey => (int32 ey).bind fun ey =>
  (findLineMem nx ny sx sy ex ey junk s.1 s.2.1).bind fun c =>
  (forUp 0 c.2.2 (takeCell nx ny g.x g.y g.z c.1 c.2.1) ⟨local_ c.2.2, local_ c.2.2, local_ c.2.2, 0⟩).bind fun a =>
  (hordMem F a).bind fun v => (s.2.2.wr i v).map fun m => (c.1, c.2.1, m)

/-- `calc_maxus`: the array `maxus` after the call. calc_wind.c 47-127. -/
def maxusMem {K R O : Type} (F : Ar K R O) (nx ny : Int) (g : Grid K) (junk : LineData) (maxus : Buf O) : C (Buf O) :=
  (int32 (nx * ny)).bind fun ngrid =>
  (forUp 0 ngrid.toNat (cellMem F nx ny g junk) (local_ maxSize, local_ maxSize, maxus)).map fun s => s.2.2

/-- A numpy array of `n` elements. -/
def array {α : Type} (n : Nat) (f : Nat → α) : Buf α := ⟨n, true, fun k => if k < n then some (f k) else none⟩

/-- `call_maxus` as `maxus_angle` calls it: `X` and `Y` are the column and row of each cell (`np.meshgrid`), `ends r c` the far end of the
search from the cell, `dem` an array of the same shape. model.py 62-64, 193-195; wind_c.pyx 21-78. -/
def callMaxus {K R O : Type} (F : Ar K R O) (nx ny : Nat) (x y : Nat → K) (dem : Nat → Nat → K) (ends : Nat → Nat → Int × Int)
    (zero : O) (junk : LineData) : C (Buf O) :=
  maxusMem F nx ny
    { x := array nx x
      y := array ny y
      z := array (ny * nx) fun k => dem (k / nx) (k % nx)
      startX := array (ny * nx) fun k => ((k % nx : Nat) : Int)
      startY := array (ny * nx) fun k => ((k / nx : Nat) : Int)
      endX := array (ny * nx) fun k => (ends (k / nx) (k % nx)).1
      endY := array (ny * nx) fun k => (ends (k / nx) (k % nx)).2 }
    junk (array (ny * nx) fun _ => zero)

end Verif.MaxusMem
