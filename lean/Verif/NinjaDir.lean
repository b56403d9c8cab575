import Verif.Ninja
import Verif.Wind
import Verif.Calendar

/-!
The rest of `smrf/distribute/wind/wind_ninja.py`: the direction of the wind, the positions of the values of a file
(`get_asc_stats` of `smrf/utils/utils.py`) and the names of the files. Exact real numbers; `none` is NaN.
-/

namespace Verif.NinjaDir
open Verif.Ninja Verif.Wind

/-! ### Direction -/

/-- The triangle of a model cell: its corners, as places of the flattened grid, and two weights. The triangulation is not
modelled. utils.py 397-404. -/
structure Corners where
  v0 : Nat
  v1 : Nat
  v2 : Nat
  a : ℝ
  b : ℝ

/-- `grid_interpolate` on all cells. utils.py 407-425. -/
noncomputable def gridInterp (T : Nat → Nat → Corners) (vals : Nat → ℝ) (r c : Nat) : Option ℝ :=
  interpolate (T r c).a (T r c).b (vals (T r c).v0) (vals (T r c).v1) (vals (T r c).v2)

/-- `np.arctan2(uf, vf)` in degrees, shifted to positive values; NaN if one of them is. wind_ninja.py 240-241. -/
noncomputable def angle : Option ℝ → Option ℝ → Option ℝ
  | some u, some v => some (azimuth u v)
  | _, _ => none

/-- The direction in `convert_wind_ninja` from the angles of the file; the components are always filled, also where both grids have
the same cells. wind_ninja.py 226-241. -/
noncomputable def directions (X Y : Nat → ℝ) (nr nc : Nat) (T : Nat → Nat → Corners) (ang : Nat → ℝ) :
    Except Ninja.Err (Nat → Nat → Option ℝ) :=
  (fillData X Y nr nc (gridInterp T fun k => uDirection (ang k))).bind fun uf =>
    (fillData X Y nr nc (gridInterp T fun k => vDirection (ang k))).map fun vf r c => angle (uf r c) (vf r c)

/-! ### Positions -/

/-- Errors in reading the head of a file. -/
inductive HeadErr where
  /-- a line with fewer than two words -/
  | index
  /-- a key is missing -/
  | key
  /-- not a number -/
  | number
  deriving DecidableEq

/-- `header[k] = v`; the value that is set last is found first. -/
def setKey (d : List (String × String)) (k v : String) : List (String × String) := (k, v) :: d

/-- The loop over the lines, which ends after line 5. utils.py 341-345. -/
def readHead : Nat → List (List String) → List (String × String) → Except HeadErr (List (String × String))
  | _, [], d => .ok d
  | idl, line :: rest, d =>
    match line with
    | k :: v :: _ => if 5 ≤ idl then .ok (setKey d k v) else readHead (idl + 1) rest (setKey d k v)
    | _ => .error .index

/-- `int(header[k])`, `float(header[k])`. -/
def number {V : Type} (parse : String → Option V) (d : List (String × String)) (k : String) : Except HeadErr V :=
  match d.lookup k with
  | none => .error .key
  | some s =>
    match parse s with
    | none => .error .number
    | some v => .ok v

/-- `get_asc_stats`: the numbers of columns and rows and the coordinates. `np.arange` of a negative number is empty.
utils.py 333-365. -/
structure Stats (K : Type) where
  nx : Nat
  ny : Nat
  x : Nat → K
  y : Nat → K

section
variable {K : Type} [Field K]

/-- `get_asc_stats`. `toInt` and `toFloat` are Python's conversions. utils.py 333-365. -/
def ascStats (toInt : String → Option Int) (toFloat : String → Option K) (lines : List (List String)) : Except HeadErr (Stats K) :=
  (readHead 0 lines []).bind fun d =>
    (number toInt d "ncols").bind fun nx =>
      (number toInt d "nrows").bind fun ny =>
        (number toFloat d "cellsize").bind fun du =>
          (number toFloat d "yllcorner").bind fun u =>
            (number toFloat d "xllcorner").bind fun v =>
              let nx := nx.toNat
              let ny := ny.toNat
              .ok ⟨nx, ny, fun c => v + du * c + du / 2, fun r => u + du * (ny - 1 - r : Nat) + du / 2⟩

/-- The points `xy` given to the triangulation, in the order of the flattened `meshgrid`. wind_ninja.py 156-167. -/
def points (s : Stats K) : List (K × K) := (List.range s.ny).flatMap fun r => (List.range s.nx).map fun c => (s.x c, s.y r)

/-- `np.loadtxt(f, skiprows=6).flatten()`. wind_ninja.py 207-208. -/
def values (lines : List (List String)) : List String := (lines.drop 6).flatten
end

/-! ### Files -/

open Verif.Calendar

/-- `%02d` -/
def two (n : Nat) : List Char := [Nat.digitChar (n / 10 % 10), Nat.digitChar (n % 10)]

/-- `%Y` for a year of four digits. -/
def four (n : Nat) : List Char := two (n / 100) ++ two (n % 100)

/-- `dt.strftime('%Y%m%d')`. wind_ninja.py 40. -/
def dayName (d : DT) : List Char := four d.year ++ two d.month ++ two d.day

/-- `t_file.strftime('%m-%d-%Y_%H%M')`. wind_ninja.py 39. -/
def timeName (d : DT) : List Char :=
  two d.month ++ ['-'] ++ two d.day ++ ['-'] ++ four d.year ++ ['_'] ++ two (d.sec / 3600) ++ two (d.sec / 60 % 60)

/-- `wind_ninja_path`: `dt` is the clock of SMRF, `t_file` the clock of WindNinja (`none` if no time zone is configured, when
the attribute does not exist). The results are the folder and the file. wind_ninja.py 74-94. -/
def path (dir pref dxy kind : List Char) (dt : DT) (tFile : Option DT) : Option (List Char × List Char) :=
  tFile.map fun t => (dir ++ "/data".toList ++ dayName dt ++ "/wind_ninja_data".toList,
    pref ++ ['_'] ++ timeName t ++ ['_'] ++ dxy ++ "m_".toList ++ kind ++ ".asc".toList)

end Verif.NinjaDir
