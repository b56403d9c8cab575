import Mathlib.Data.List.Nodup
import Mathlib.Order.Basic

/-!
Model of the station tables: `InputCSV.load` of `smrf/data/csv.py`, the conversion of station names in the
configuration (`CheckStation` of `smrf/utils/utils.py`), the selection in `SMRF.loadData` of
`smrf/framework/model_framework.py` and the selection of one row in `smrf/distribute/image_data.py`.
-/

namespace Verif.Csv

/-- A station name. -/
abbrev Name := List Char

/-- `str.upper`, for ASCII letters. -/
def upper (s : Name) : Name := s.map Char.toUpper

/-- A data frame: column names, and rows with their time. `V` is the type of a cell (NaN is one of its values). -/
structure Table (V : Type) where
  cols : List Name
  rows : List (Int × List V)

/-- `df[df.columns[mask]]`: the entries of a list whose column name is kept. -/
def pick {A : Type} (keep : Name → Bool) : List Name → List A → List A
  | c :: cs, a :: l => if keep c then a :: pick keep cs l else pick keep cs l
  | _, _ => []

/-- The columns whose name is kept. -/
def Table.select {V : Type} (keep : Name → Bool) (t : Table V) : Table V :=
  ⟨t.cols.filter keep, t.rows.map fun r => (r.1, pick keep t.cols r.2)⟩

/-- `df[start:end]` on an increasing time index: the positions are found with `searchsorted` on the left of `start` and on
the right of `end`. An index that is not increasing is not modelled. csv.py 68. -/
def Table.slice {V : Type} (start stop : Int) (t : Table V) : Table V :=
  let lo := t.rows.findIdx fun r => decide (start ≤ r.1)
  let hi := t.rows.findIdx fun r => decide (stop < r.1)
  ⟨t.cols, (t.rows.drop lo).take (hi - lo)⟩

/-- `df.empty`. -/
def Table.empty {V : Type} (t : Table V) : Bool := t.cols.isEmpty || t.rows.isEmpty

/-- The requested stations; no list means all. csv.py 64-65. -/
def restrict {V : Type} (stations : Option (List Name)) (df : Table V) : Table V := match stations with
  | some l => df.select fun c => l.contains c
  | none => df

/-- One variable of `InputCSV.load`; `none` is the exception of an empty table. The times of the file are taken to be in the time
zone of the run. csv.py 52-74. -/
def loadVariable {V : Type} (start stop : Int) (stations : Option (List Name)) (file : Table V) : Option (Table V) :=
  let df : Table V := ⟨file.cols.map upper, file.rows⟩
  let df := restrict stations df
  let df := df.slice start stop
  if df.empty then none else some df

/-- `InputCSV.load` for all variables of the section; the first empty one ends the run. csv.py 51-74. -/
def load {V : Type} (start stop : Int) (stations : Option (List Name)) (files : List (String × Table V)) :
    Option (List (String × Table V)) :=
  files.mapM fun f => (loadVariable start stop stations f.2).map fun t => (f.1, t)

/-- The index of the station metadata. csv.py 43-49. -/
def metadataIndex (ids : List Name) : List Name := ids.map upper

/-- `CheckStation.type_func` on the `stations` entry of the configuration. utils.py 28-39; CoreConfig.ini 75-76. -/
def checkStations (cfg : Option (List Name)) : Option (List Name) := cfg.map fun l => l.map upper

/-! ### Selection in the framework -/

/-- The stations of the modules. -/
abbrev Stations := String → Option (List Name)

/-- One turn of the loop in `loadData`: the table of the variable is restricted to the stations of its module, and these
become the columns left. A variable without data has an empty table. model_framework.py 319-333. -/
def filterVariable {V : Type} (st : Stations) (module : String) (t : Table V) : Stations × Table V :=
  match st module with
  | some l =>
    let t' := t.select fun c => l.contains c
    (fun m => if m = module then some t'.cols else st m, t')
  | none => (fun m => if m = module then some t.cols else st m, t)

/-- `SMRF.loadData` over the variables (name, module, table). model_framework.py 319-333; the pairs are
`MODULE_VARIABLES`, input_data.py 34-42. -/
def filterAll {V : Type} (st : Stations) : List (String × String × Table V) → Stations × List (String × Table V)
  | [] => (st, [])
  | (v, m, t) :: l =>
    let r := filterVariable st m t
    let rest := filterAll r.1 l
    (rest.1, (v, r.2) :: rest.2)

/-- `MODULE_VARIABLES`. input_data.py 34-42. -/
def moduleVariables : List (String × String) :=
  [("air_temp", "air_temp"), ("vapor_pressure", "vapor_pressure"), ("precip", "precipitation"), ("wind_speed", "wind"),
    ("wind_direction", "wind"), ("cloud_factor", "cloud_factor"), ("thermal", "thermal")]

/-- `metadata.loc[self.stations]` in `_initialize`: the stations used, an unknown one is a `KeyError`.
image_data.py 156-161. -/
def initStations (stations : Option (List Name)) (index : List Name) : Option (List Name) :=
  match stations with
  | some l => if l.all fun s => index.contains s then some l else none
  | none => some index

/-- `data[self.stations]` of `_distribute` for one row: the value of each station, a missing column is a `KeyError`.
A name that occurs twice is not modelled (the first column counts). image_data.py 225-227. -/
def rowValues {V : Type} (cols : List Name) (row : List V) (stations : List Name) : Option (List V) :=
  stations.mapM fun s => row[cols.findIdx fun c => c == s]?

end Verif.Csv
