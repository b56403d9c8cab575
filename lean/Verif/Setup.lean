import Verif.Csv
import Mathlib.Algebra.Order.Field.Basic

/-!
Model of the set-up of a run: the domain asked from gridded data (`model_domain_grid` of `smrf/data/input_data.py`), the copy of
the input (`backup_input` of `smrf/utils/utils.py`) with the reading of the copy (`smrf/data/csv.py`), and the choice of the
configuration file (`find_configs` and `handle_run_script_options` of `smrf/utils/utils.py`).
-/

namespace Verif.Setup

/-! ### Domain -/

section
variable {K : Type} [Field K] [LinearOrder K]

/-- The bounding box; `latlon` is `utm.to_latlon` for the zone of the topo. `none` is the exception of `np.max` for an empty array.
The result is (west, south, east, north). input_data.py 143-173. -/
def bbox (latlon : K → K → K × K) (off : K) (xs ys : List K) : Option (K × K × K × K) :=
  xs.max?.bind fun xmax => ys.max?.bind fun ymax => xs.min?.bind fun xmin => ys.min?.map fun ymin =>
    let ur := latlon xmax ymax
    let ll := latlon xmin ymin
    (ll.2 - off, ll.1 - off, ur.2 + off, ur.1 + off)
end

/-! ### Copy of the input -/

open Verif.Csv

/-- A frame: name of the index, whether its times have a time zone, and the data. -/
structure Frame (V : Type) where
  index : Option String
  aware : Bool
  table : Table V

/-- A file: the word above the first column, whether its times are written with an offset, and the data. -/
structure File (V : Type) where
  first : String
  offsets : Bool
  table : Table V

/-- `DataFrame.to_csv`: a missing name of the index is written as an empty word. -/
def toCsv {V : Type} (f : Frame V) : File V := ⟨f.index.getD "", f.aware, f.table⟩

/-- The exceptions. -/
inductive Err where
  /-- `read_csv` does not find the column of the index -/
  | value
  /-- `tz_localize` on times that have a time zone -/
  | type
  /-- no data in the dates -/
  | empty
  /-- `getattr` of a variable that was not loaded -/
  | attribute
  deriving DecidableEq

/-- `pd.read_csv(file, index_col=name)` for a file whose other columns are stations. -/
def readCsv {V : Type} (name : String) (f : File V) : Except Err (Frame V) :=
  if f.first = name then .ok ⟨some name, f.offsets, f.table⟩ else .error .value

/-- The metadata in `InputCSV.load`: a new index is assigned, which has no name. csv.py 43-49. -/
def loadMetadata {V : Type} (f : File V) : Except Err (Frame V) :=
  (readCsv "primary_id" f).map fun d => ⟨none, d.aware, d.table⟩

/-- One variable in `InputCSV.load`. csv.py 58-74. -/
def loadFrame {V : Type} (start stop : Int) (stations : Option (List Name)) (f : File V) : Except Err (Frame V) :=
  (readCsv "date_time" f).bind fun d =>
    if d.aware then .error .type
    else
      match loadVariable start stop stations d.table with
      | none => .error .empty
      | some t => .ok ⟨d.index, true, t⟩

/-- `InputCSV.load`: first the metadata, then the variables in the order of the section. csv.py 36-74. -/
def loadCsv {V : Type} (start stop : Int) (stations : Option (List Name)) (files : String → File V) (vars : List String) :
    Except Err (Frame V × List (String × Frame V)) :=
  (loadMetadata (files "metadata")).bind fun m =>
    (vars.mapM fun v => (loadFrame start stop stations (files v)).map fun d => (v, d)).map fun l => (m, l)

/-- The variables written by `backup_input`, without the metadata. utils.py 234-235. -/
def backupVars : List String := ["air_temp", "vapor_pressure", "precip", "wind_speed", "wind_direction", "cloud_factor"]

/-- The tables written by `backup_input`; `data` are the attributes of the loaded data (`InputData.set_variables`, which converts
times to the time zone of the run, so they keep one). utils.py 237-240. -/
def backup {V : Type} (md : Frame V) (data : String → Option (Frame V)) : Except Err (String → Option (File V)) :=
  if ∀ v ∈ backupVars, (data v).isSome then
    .ok fun v => if v = "metadata" then some (toCsv md) else if v ∈ backupVars then (data v).map toCsv else none
  else .error .attribute

/-! ### Configuration file -/

/-- `f.split('.')[-1]`. utils.py 78. -/
def lastPart (f : List Char) : List Char := f.foldl (fun acc c => if c = '.' then [] else acc ++ [c]) []

/-- `find_configs`, on the names in the directory. utils.py 63-80. -/
def findConfigs (names : List (List Char)) : List (List Char) := names.filter fun f => lastPart f = ['i', 'n', 'i']

/-- What `handle_run_script_options` does. -/
inductive Choice where
  /-- a configuration file, given or found in the directory -/
  | given
  | found (f : List Char)
  /-- ends with a message -/
  | several
  | missing
  /-- `configs[0]` of an empty list -/
  | indexError
  deriving DecidableEq

/-- `handle_run_script_options`: `dir` holds the names in the directory, if a directory is given; `isFile` tells of a name in it
(or of the path itself, for the empty name) whether it is a file. utils.py 83-112. -/
def choose (dir : Option (List (List Char))) (isFile : List Char → Bool) : Choice :=
  match dir with
  | some names =>
    match findConfigs names with
    | [] => .indexError
    | [f] => if isFile f then .found f else .missing
    | _ => .several
  | none => if isFile [] then .given else .missing

end Verif.Setup
