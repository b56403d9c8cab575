import Verif.Queue

/-
Output of results: choice of output steps and variables (smrf/framework/model_framework.py,
smrf/utils/queue.py) and the netCDF writer (smrf/output/output_netcdf.py).
-/

namespace Verif.Output
open Verif.Queue

/-! ### Output steps -/

/-- The test for an output step: model_framework.py 716-721 and queue.py 272-273. `count` is the
index of the step, `n` the number of steps, `f` the output frequency (at least one; Python raises for
a zero modulus). -/
def isOutput (f n count : Nat) : Bool := count % f == 0 || count == n

/-- Dates written by the threaded driver: `for output_count, t in enumerate(self.date_time)`
(queue.py 269-273). -/
def threadedSteps {D : Type} (f n : Nat) : Nat → List D → List D
  | _, [] => []
  | count, t :: ts =>
    if isOutput f n count then t :: threadedSteps f n (count + 1) ts
    else threadedSteps f n (count + 1) ts

/-- Dates written by the serial driver: `self.output(t)` for every date, which looks the date up with
`self.date_time.index` (model_framework.py 388-393, 716-721). -/
def serialSteps {D : Type} [DecidableEq D] (f : Nat) (dates : List D) : List D :=
  dates.filter fun t => isOutput f dates.length (dates.idxOf t)

/-! ### NetCDF records -/

section
variable {T R : Type} [DecidableEq T]

/-- `np.where(times[:] == t)[0]`: index of the first record of that time (output_netcdf.py 172-179,
with `none` for "append"). -/
def findTime (t : T) : List (T × R) → Option Nat
  | [] => none
  | r :: rs => if r.1 = t then some 0 else (findTime t rs).map (· + 1)

/-- `OutputNetcdf.output` (output_netcdf.py 148-188) on one file: the record of time `t` is
overwritten, or appended when no stored time equals `t`. The time variable is single precision
(line 87); `ρ` is the rounding of a time when it is stored. -/
def write (ρ : T → T) (file : List (T × R)) (w : T × R) : List (T × R) :=
  match findTime w.1 file with
  | some i => file.set i (ρ w.1, w.2)
  | none => file ++ [(ρ w.1, w.2)]

/-- A sequence of writes. -/
def writes (ρ : T → T) (file : List (T × R)) (ws : List (T × R)) : List (T × R) :=
  ws.foldl (write ρ) file

/-- The state of the file when the process dies between storing the time and storing the data
(output_netcdf.py 182-186): a new record holds fill values. -/
def writeTime (ρ : T → T) (fill : R) (file : List (T × R)) (t : T) : List (T × R) :=
  match findTime t file with
  | some i => file.modify i fun r => (ρ t, r.2)
  | none => file ++ [(ρ t, fill)]
end

/-! ### Data written -/

/-- A grid as rows of cells; a cell is `none` for NaN. -/
abbrev Grid (K : Type) := List (List (Option K))

/-- `if data is None: data = np.zeros((ny, nx))` (model_framework.py 742-743, queue.py 280-281). -/
def orZeros {K : Type} [Zero K] (ny nx : Nat) : Option (Grid K) → Grid K
  | none => List.replicate ny (List.replicate nx (some 0))
  | some d => d

/-- `data*self.mask` (output_netcdf.py 184-185), cell by cell; NaN times anything is NaN. The mask is
an array of the same shape. -/
def applyMask {K : Type} [Mul K] (mask : List (List K)) (d : Grid K) : Grid K :=
  List.zipWith (List.zipWith fun c m => c.map (· * m)) d mask

/-- The array stored for one variable at one output step. -/
def stored {K : Type} [Zero K] [Mul K] (ny nx : Nat) (maskOutput : Bool) (mask : List (List K))
    (d : Option (Grid K)) : Grid K :=
  if maskOutput then applyMask mask (orZeros ny nx d) else orZeros ny nx d

/-! ### Output variables -/

/-- Entry of `variable_dict` (model_framework.py 650-655) without the `info` attributes. -/
structure Entry where
  name : String
  module : String
  outLocation : String
  deriving DecidableEq

/-- The modules of a run with the names of their output variables (`self.distribute`,
model_framework.py 231-292, and the `OUTPUT_VARIABLES` of each class). -/
abbrev Catalogue := List (String × List String)

/-- `possible_output_variables` (model_framework.py 219-225): maps a variable to its module
(image_data.py 82-88). The key of a module in `self.distribute` is the name of its Python module. -/
def possible (cat : Catalogue) : Dict String String :=
  cat.foldl (fun d m => m.2.foldl (fun d v => d.set v m.1) d) []

/-- One turn of the loop of `create_output_variable_dict` (model_framework.py 638-659). Looking up
`info` in the module found cannot fail (`possible_sound`). -/
def addVariable (cat : Catalogue) (loc : String) (d : Dict String Entry) (v : String) :
    Dict String Entry :=
  match (possible cat).get? v with
  | some m => d.set v
      { name := v
        module := if m = "precipitation" then "precip" else m
        outLocation := loc ++ "/" ++ v }
  | none => d

/-- `create_output_variable_dict` (model_framework.py 634-661). -/
def variableDict (cat : Catalogue) (loc : String) (requested : List String) : Dict String Entry :=
  requested.foldl (addVariable cat loc) []

end Verif.Output
