import Verif.Lu
import Verif.Idw

/-!
Model of the kriging weights `smrf/spatial/dk/krige.c` and of the class `DK`
(`smrf/spatial/dk/dk.py`). Exact arithmetic. Memory from `malloc` holds unknown values, which are
parameters. The threads of `krige_grid` work on different cells with private variables (krige.c 48-59),
so each cell is treated alone; failing allocations are left out.
-/

namespace Verif.Krige
open Verif.Lu

section C
variable {K : Type} [Field K] [LinearOrder K]

/-- Distances and station numbers while they are sorted. -/
structure Sorting (K : Type) where
  dist : Nat → K
  idx : Nat → Nat

/-- One comparison. krige.c 103-113. -/
def exchange (i : Nat) (s : Sorting K) (j : Nat) : Sorting K :=
  if s.dist j < s.dist i then
    ⟨put (put s.dist i (s.dist j)) j (s.dist i), put (put s.idx i (s.idx j)) j (s.idx i)⟩
  else s

/-- The sort by distance. krige.c 97-115. -/
def sort (nsta : Nat) (dgrid : Nat → K) : Sorting K :=
  (List.range nsta).foldl (fun s i => (span (i + 1) nsta).foldl (exchange i) s) ⟨dgrid, id⟩

/-- The station use flags before the first round; `flags` is uninitialised. krige.c 118-123. -/
def useFlags (nsta : Nat) (dgrid : Nat → K) (flags : Nat → Bool) : Nat → Bool :=
  (List.range nsta).foldl (fun f m => put f ((sort nsta dgrid).idx m) true) flags

/-- Row of one station: the inner loop with the counter `nn` (here one more than in C). krige.c 144-150. -/
def loadRow (nsta : Nat) (ad : Nat → Nat → K) (flag : Nat → Bool) (m mm : Nat) (a : Nat → Nat → K) :
    Nat → Nat → K :=
  ((List.range nsta).foldl (fun (s : (Nat → Nat → K) × Nat) n =>
    if flag n then (set s.1 mm s.2 (ad m n), s.2 + 1) else s) (a, 0)).1

/-- The matrix of the kriging system with its right-hand side, written over `a`. krige.c 135-157. -/
def load (nsta ns : Nat) (ad : Nat → Nat → K) (dgrid : Nat → K) (flag : Nat → Bool) (a : Nat → Nat → K) :
    Nat → Nat → K :=
  let s := (List.range nsta).foldl (fun (s : (Nat → Nat → K) × Nat) m =>
    if flag m then
      let a := loadRow nsta ad flag m s.2 s.1
      let a := set a ns s.2 1
      let a := set a s.2 ns 1
      (set a s.2 (ns + 1) (dgrid m), s.2 + 1)
    else s) (a, 0)
  set (set s.1 ns ns 0) ns (ns + 1) 1

/-- State of the search for a station to drop: the counter (one more than `mm`), `msave`, `elevsave`. -/
structure Drop (K : Type) where
  mm : Nat
  msave : Option Nat
  elevsave : K

/-- krige.c 171-181. -/
def dropStep (flag : Nat → Bool) (elev : Nat → K) (wcalc : Nat → K) (s : Drop K) (m : Nat) : Drop K :=
  if flag m then
    if wcalc s.mm < 0 then
      if s.elevsave < elev m then ⟨s.mm + 1, some m, elev m⟩ else { s with mm := s.mm + 1 }
    else { s with mm := s.mm + 1 }
  else s

/-- The station to drop; `none` for `msave = -1`. krige.c 169-181. -/
def drop (nsta : Nat) (flag : Nat → Bool) (elev : Nat → K) (wcalc : Nat → K) : Option Nat :=
  ((List.range nsta).foldl (dropStep flag elev wcalc) ⟨0, none, 0⟩).msave

/-- The weights of all stations. krige.c 187-195. -/
def scatter (nsta : Nat) (flag : Nat → Bool) (wcalc : Nat → K) (w : Nat → K) : Nat → K :=
  ((List.range nsta).foldl (fun (s : (Nat → K) × Nat) m =>
    if flag m then (put s.1 m (wcalc s.2), s.2 + 1) else (put s.1 m 0, s.2)) (w, 0)).1

/-- How `krige` ends: with weights, with `exit(0)`, or (`stuck`) not within the rounds allowed. -/
inductive Outcome (K : Type) where
  | weights (w : Nat → K)
  | exit
  | stuck

/-- Unknown memory, by number of active stations. -/
structure Mem (K : Type) where
  a : Nat → Nat → Nat → K
  lu : Nat → Junk K
  flags : Nat → Bool
  w : Nat → K

/-- The loop; `fuel` bounds the rounds. krige.c 134-198. -/
def loop (mem : Mem K) (nsta : Nat) (ad : Nat → Nat → K) (dgrid elev : Nat → K) :
    Nat → Nat → (Nat → Bool) → Outcome K
  | 0, _, _ => .stuck
  | fuel + 1, ns, flag =>
    match lusolv (mem.lu ns) (ns + 1) (load nsta ns ad dgrid flag (mem.a ns)) with
    | none => .exit
    | some wcalc =>
      match drop nsta flag elev wcalc with
      | some m => loop mem nsta ad dgrid elev fuel (ns - 1) (put flag m false)
      | none => .weights (scatter nsta flag wcalc mem.w)

/-- `krige`. krige.c 66-216. -/
def krige (mem : Mem K) (nsta : Nat) (ad : Nat → Nat → K) (dgrid elev : Nat → K) : Outcome K :=
  loop mem nsta ad dgrid elev (nsta + 1) nsta (useFlags nsta dgrid mem.flags)

end C

/-! ### The class -/

open Verif.Idw

/-- Distance between stations. dk.py 113-114. -/
noncomputable def between (s t : Station) : ℝ := Real.sqrt ((s.x - t.x) ^ 2 + (s.y - t.y) ^ 2)

/-- The matrix `ad` of the stations with data, filled above and below the diagonal. dk.py 109-116. -/
noncomputable def adMatrix (sta : List Station) (i j : Nat) : ℝ :=
  match sta[i]?, sta[j]? with
  | some s, some t => if i = j then 0 else if i < j then between s t else between t s
  | _, _ => 0

/-- Distances of a cell to the stations with data. dk.py 119-125. -/
noncomputable def gridDist (sta : List Station) (g : Cell) (i : Nat) : ℝ :=
  match sta[i]? with
  | some s => Idw.dist g s
  | none => 0

/-- `mz`. dk.py 106. -/
def elevations (sta : List Station) (i : Nat) : ℝ :=
  match sta[i]? with
  | some s => s.z
  | none => 0

/-- The stations selected by `~nan_val`. dk.py 104-106. -/
def selected (sta : List Station) (nan : List Bool) : List Station :=
  (List.zip sta nan).filterMap fun p => if p.2 then none else some p.1

/-- `calculateWeights`: the weights of every cell, or `none` when the process ends with `exit(0)`.
dk.py 98-137; krige.c 51-58. -/
noncomputable def calculateWeights (mem : Mem ℝ) (sta : List Station) (grid : List Cell) (nan : List Bool) :
    Option (List (List ℝ)) :=
  let sel := selected sta nan
  grid.mapM fun g =>
    match krige mem sel.length (adMatrix sel) (gridDist sel g) (elevations sel) with
    | .weights w => some ((List.range sel.length).map w)
    | _ => none

/-- `self.nan_val` and `self.weights`. dk.py 45-48. -/
structure Cache where
  nan : List Bool
  weights : List (List ℝ)

/-- dk.py 45-48. -/
def Cache.new : Cache := ⟨[], []⟩

/-- The stations with the values of a step. -/
def withData (sta : List Station) (data : List (Option ℝ)) : List Station :=
  List.zipWith (fun s v => { s with val := v }) sta data

/-- `calculate`: the image and the cache afterwards. dk.py 62-96. -/
noncomputable def calculate (mem : Mem ℝ) (fit : List (ℝ × ℝ) → ℝ × ℝ) (flag : Int) (sta : List Station)
    (grid : List Cell) (c : Cache) (data : List (Option ℝ)) : Option (List ℝ × Cache) :=
  let nan := data.map Option.isNone
  let c' := if nan ≠ c.nan then (calculateWeights mem sta grid nan).map (⟨nan, ·⟩) else some c
  c'.map fun c' => (List.zipWith (krigedCell fit flag (withData sta data)) c'.weights grid, c')

/-- The images of consecutive calls; `none` when the process ended. -/
noncomputable def runDK (mem : Mem ℝ) (fit : List (ℝ × ℝ) → ℝ × ℝ) (flag : Int) (sta : List Station)
    (grid : List Cell) : Cache → List (List (Option ℝ)) → Option (List (List ℝ))
  | _, [] => some []
  | c, d :: ds =>
    match calculate mem fit flag sta grid c d with
    | none => none
    | some (img, c') => (runDK mem fit flag sta grid c' ds).map (img :: ·)

end Verif.Krige
