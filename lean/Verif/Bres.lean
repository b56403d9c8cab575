/-!
Model of the line walker of the upwind-slope code: `smrf/utils/wind/breshen.c`, `find_line` of
`smrf/utils/wind/calc_wind.c`, and the python version `bresenham` of `smrf/utils/wind/model.py`.

The C code keeps its coordinates and its structure in `short`; every store is modelled with its wrap-around
(`short`). Expressions are evaluated in `int`, where the values below do not overflow.
-/

namespace Verif.Bres

/-- A store into a C `short` of 16 bits. -/
def short (n : Int) : Int := n.bmod 65536

/-- `struct BreshenhamData`. breshen.h 17-20. -/
structure LineData where
  dx : Int
  dy : Int
  inc1 : Int
  inc2 : Int
  inc3 : Int
  inc4 : Int
  inc5 : Int
  d : Int
  octent : Int
  slopeType : Int
  deriving DecidableEq

/-- The blocks "Upper" and "Lower" of `InitializeLineData`, which occur twice with another `Inc4` and other
numbers of the octant. breshen.c 312-331, 336-355. -/
def block (slopeType dx dy inc4 oUpper oLower : Int) (upper : Bool) : LineData :=
  if upper then
    { dx := dx, dy := dy, slopeType := slopeType, inc4 := inc4
      d := short (-1 * ((2 * dx) - dy))
      inc1 := short (-2 * dx)
      inc2 := short (-2 * (dx - dy))
      inc3 := short (-2 * (dx + dy))
      inc5 := -1
      octent := oUpper }
  else
    { dx := dx, dy := dy, slopeType := slopeType, inc4 := inc4
      d := short (1 * ((2 * dx) - dy))
      inc1 := short (2 * dx)
      inc2 := short (2 * (dx + dy))
      inc3 := short (2 * (dx - dy))
      inc5 := 1
      octent := oLower }

/-- `InitializeLineData`; it also sets `*X` and `*Y` to the start, see `started`. breshen.c 285-357. -/
def initLine (sx sy ex ey : Int) : LineData :=
  let dx := short (sx - ex).natAbs
  let dy := short (sy - ey).natAbs
  let steep := decide (dx > dy)
  let slopeType : Int := if steep then 1 else -1
  let dx' := if steep then dy else dx
  let sx' := if steep then sy else sx
  let sy' := if steep then sx else sy
  let ex' := if steep then ey else ex
  let ey' := if steep then ex else ey
  if sy' > ey' then block slopeType dx' (short (sy' - ey')) (-1) 5 4 (decide (sx' ≥ ex'))
  else block slopeType dx' (short (ey' - sy')) 1 8 1 (decide (sx' ≥ ex'))

/-- The part of `GetNextCellCoordinate` between the exchanges of the coordinates. breshen.c 142-186. -/
def move (sx ex x y : Int) (l : LineData) : Int × Int × LineData :=
  if l.octent = 5 ∨ l.octent = 8 then
    let y := short (y + l.inc4)
    if (sx ≤ ex ∧ l.d ≥ 0) ∨ (sx > ex ∧ l.d ≤ 0) then
      if (sx ≥ ex ∧ l.dx ≤ 0) ∨ (sx < ex ∧ l.dx ≥ 0) then (x, y, { l with d := short (l.d - l.inc1) })
      else (short (x + l.inc5), y, { l with d := short (l.d + l.inc2) })
    else
      if (sx ≥ ex ∧ l.dx ≥ 0) ∨ (sx < ex ∧ l.dx ≤ 0) then (x, y, { l with d := short (l.d + l.inc1) })
      else (short (x + l.inc5), y, { l with d := short (l.d - l.inc3) })
  else if l.octent = 1 ∨ l.octent = 4 then
    let y := short (y + l.inc4)
    if (sx ≤ ex ∧ l.d ≤ 0) ∨ (sx > ex ∧ l.d ≥ 0) then
      if (sx ≥ ex ∧ l.dx ≤ 0) ∨ (sx < ex ∧ l.dx ≥ 0) then (x, y, { l with d := short (l.d + l.inc1) })
      else (short (x + l.inc5), y, { l with d := short (l.d - l.inc2) })
    else
      if (sx ≥ ex ∧ l.dx ≥ 0) ∨ (sx < ex ∧ l.dx ≤ 0) then (x, y, { l with d := short (l.d + l.inc1) })
      else (short (x + l.inc5), y, { l with d := short (l.d + l.inc3) })
  else (x, y, l)

/-- The coordinates `*X`, `*Y` and the structure. -/
structure State where
  x : Int
  y : Int
  l : LineData
  deriving DecidableEq

/-- The coordinates and the structure after the call of `InitializeLineData`. breshen.c 126, 287-288. -/
def started (sx sy ex ey : Int) : State := { x := sx, y := sy, l := initLine sx sy ex ey }

/-- `GetNextCellCoordinate`. breshen.c 123-194. -/
def nextCell (sx sy ex ey : Int) (t : State) : State :=
  let t := if t.l.slopeType = 0 then started sx sy ex ey else t
  if t.l.slopeType = 1 then
    let r := move sy ey t.y t.x t.l
    { x := r.2.1, y := r.1, l := r.2.2 }
  else
    let r := move sx ex t.x t.y t.l
    { x := r.1, y := r.2.1, l := r.2.2 }

/-- The loop of `find_line` with the number of cells that may still be stored. calc_wind.c 163-174. -/
def lineLoop (nx ny sx sy ex ey : Int) : Nat → State → List (Int × Int)
  | 0, _ => []
  | n + 1, t =>
    if t.x ≠ ex ∨ t.y ≠ ey then
      if t.x > nx ∨ t.x < 0 ∨ t.y > ny ∨ t.y < 0 then []
      else
        let t := nextCell (short sx) (short sy) (short ex) (short ey) t
        (t.x, t.y) :: lineLoop nx ny sx sy ex ey n t
    else []

/-- `MAX_SIZE`. calc_wind.c 10. -/
def maxSize : Nat := 500

/-- `find_line`: the cells stored in `xcoords` and `ycoords`. `junk` is what the structure holds before the
call; its field `SlopeType` is set to zero. calc_wind.c 144-176. -/
def findLine (nx ny sx sy ex ey : Int) (junk : LineData) : List (Int × Int) :=
  (sx, sy) :: lineLoop nx ny sx sy ex ey (maxSize - 1)
    { x := short sx, y := short sy, l := { junk with slopeType := 0 } }

/-! ### The arrays given to `hord` -/

/-- `xl`, `yl`, `elev` (one record here) and `n`. -/
structure Arrays (K : Type) where
  x : Nat → K
  y : Nat → K
  z : Nat → K
  n : Nat

/-- One turn of the loop that fills the arrays. calc_wind.c 100-113. -/
def fillStep {K : Type} (nx ny : Int) (x y : Int → K) (z : Int → K) (a : Arrays K) (j : Nat) (c : Int × Int) :
    Arrays K :=
  if c.1 ≥ 0 ∧ c.1 ≤ nx - 1 ∧ c.2 ≥ 0 ∧ c.2 ≤ ny - 1 then
    { x := fun i => if i = j then x c.1 else a.x i
      y := fun i => if i = j then y c.2 else a.y i
      z := fun i => if i = j then z (c.2 * nx + c.1) else a.z i
      n := a.n + 1 }
  else a

/-- The loop over the cells of the line, from index `j`. calc_wind.c 100-113. -/
def fill {K : Type} (nx ny : Int) (x y : Int → K) (z : Int → K) : Arrays K → Nat → List (Int × Int) → Arrays K
  | a, _, [] => a
  | a, j, c :: cs => fill nx ny x y z (fillStep nx ny x y z a j c) (j + 1) cs

/-! ### The python version -/

/-- The loop of `bresenham`: the values of `y` for the successive `x`, with `error`. model.py 358-368. -/
def pyLoop (dx dy ystep : Int) (steep : Bool) : Nat → Int → Int → Rat → List (Int × Int)
  | 0, _, _, _ => []
  | n + 1, x, y, error =>
    let error := error - dy
    let c := if steep then (y, x) else (x, y)
    if error ≤ 0 then c :: pyLoop dx dy ystep steep n (x + 1) (y + ystep) (error + dx)
    else c :: pyLoop dx dy ystep steep n (x + 1) y error

/-- `bresenham`, for integer coordinates. model.py 331-373. -/
def bresenham (start stop : Int × Int) : List (Int × Int) :=
  let x0 := start.1
  let y0 := start.2
  let x1 := stop.1
  let y1 := stop.2
  let steep := decide ((y1 - y0).natAbs > (x1 - x0).natAbs)
  let backward := decide (x0 > x1)
  let a := if steep then (y0, x0, y1, x1) else (x0, y0, x1, y1)
  let b := if backward then (a.2.2.1, a.2.2.2, a.1, a.2.1) else a
  let x0 := b.1
  let y0 := b.2.1
  let x1 := b.2.2.1
  let y1 := b.2.2.2
  let dx := x1 - x0
  let dy : Int := (y1 - y0).natAbs
  let ystep := if y0 < y1 then 1 else -1
  let path := pyLoop dx dy ystep steep (x1 + 1 - x0).toNat x0 y0 ((dx : Rat) / 2)
  if backward then path.reverse else path

end Verif.Bres
