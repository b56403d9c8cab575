import Verif.Window
import Verif.Wind

/-!
The library of upwind slopes from the script that makes it to the wind model that reads it: `scripts/gen_maxus`,
`maxus`, `windower`, `output_init` and `output` of `smrf/utils/wind/model.py`, and `WinstralWindModel`
(`smrf/distribute/wind/winstral.py`). The slopes of one direction (`maxus_angle`) are a parameter here (Tbreak,
MaxusMem); the average over a window is that of Window.
-/

namespace Verif.MaxusLib

/-- A path as characters. -/
abbrev Path := List Char

/-- `str(x) -> bool` as argparse applies it for `type=bool`: a word is true if it is not empty. gen_maxus 72-78. -/
def flag (word : Path) : Bool := word ≠ []

/-- `os.path.dirname` for a name that does not end in slashes behind its directory: what is before the last slash,
without slashes at its end (unless there is nothing else). -/
def dirname (p : Path) : Path :=
  let head := (p.reverse.dropWhile (· ≠ '/')).reverse
  if head.all (· = '/') then head else (head.reverse.dropWhile (· = '/')).reverse

/-- The check of the script before it starts; `isDir` is `os.path.isdir`. gen_maxus 98-105. -/
def accepts (isFile isDir : Path → Bool) (dem out : Path) : Bool := isFile dem && isDir (dirname out)

/-- `os.path.splitext`: the extension begins at the last dot of the last component, unless only dots are before it. -/
def splitext (p : Path) : Path × Path :=
  let last := (p.reverse.takeWhile (· ≠ '/')).reverse
  let ext := (last.reverse.takeWhile (· ≠ '.')).reverse
  let stem := last.take (last.length - ext.length - 1)
  if '.' ∈ last ∧ ¬ stem.all (· = '.') then (p.take (p.length - ext.length - 1), '.' :: ext) else (p, [])

/-- `"%s_%iwindow.nc" % (name[0], window_width)`; `digits` are those of the width. model.py 239. -/
def windowName (p : Path) (digits : Path) : Path := (splitext p).1 ++ '_' :: digits ++ "window.nc".toList

/-- The file: the variable `direction` and the images, `none` where nothing was written (fill values). -/
structure Lib (α : Type) where
  dirs : List (Option Rat)
  images : List (Option α)

variable {α : Type}

/-- `output_init`: a new file (an old one is lost) with as many entries as there are directions.
model.py 453-497. -/
def initLib (ds : List Rat) : Lib α := ⟨List.replicate ds.length none, List.replicate ds.length none⟩

/-- `output`: all directions, and the image of index `i`. model.py 499-512. -/
def output (ds : List Rat) (l : Lib α) (i : Nat) (img : α) : Lib α := ⟨ds.map some, l.images.set i (some img)⟩

/-- `for i, angle in enumerate(swa)` from index `i`. model.py 100-103. -/
def fillFrom (ds : List Rat) (f : Rat → α) : Nat → List Rat → Lib α → Lib α
  | _, [], l => l
  | i, d :: rest, l => fillFrom ds f (i + 1) rest (output ds l i (f d))

/-- `maxus`, if it is stopped after `j` directions (all of them, for a large `j`); the increment is that of the
command line. model.py 81-103. -/
def maxus (inc : Nat) (f : Rat → α) (j : Nat) : Lib α :=
  let ds := Window.directions inc
  fillFrom ds f 0 (ds.take j) (initLib ds)

/-- The library as `windower` and the wind model read it. A masked entry (fill value) is `none`. -/
def column {c : Type} (get : α → c → Rat) (l : Lib α) (i : c) : List (Option Rat) := l.images.map fun o => o.map fun img => get img i

/-- The slope of a cell from the library: `np.argwhere(self.maxus_direction == d)[0][0]` and the image; `none` for
the `IndexError`, the inner `none` for a fill value. The check of `__init__` compares only the shape of an image with
that of the topo file (winstral.py 98-106), not modelled. winstral.py 208-222, 314-315. -/
noncomputable def cellMaxus (ds : List Rat) (column : List (Option Rat)) (az : ℝ) : Option (Option Rat) :=
  (Wind.maxusIndex (ds.map fun d : Rat => (d : ℝ)) (Wind.dirRound (Wind.nstep ds.length) az)).bind fun i => column[i]?

end Verif.MaxusLib
