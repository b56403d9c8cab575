import Verif.Output

/-!
Model of what the section `[output]` of the configuration asks for: the variables that `smrf/framework/CoreConfig.ini` offers
against those that the modules of a run have, the choice of the writer (`initializeOutput` of
`smrf/framework/model_framework.py`, `__init__` of `smrf/output/output_hru.py`), and the steps at which a serial run writes with it.
The check of the configuration by inicheck is not modelled.
-/

namespace Verif.OutAsked

/-- The modules with their output variables. air_temp.py 31, albedo.py 36, cloud_factor.py 30, precipitation.py 64, soil_temp.py 28,
solar.py 114, thermal.py 165, vapor_pressure.py 42, wind/wind.py 46; the order of model_framework.py 255-293. -/
def catalogue : Output.Catalogue := [
  ("air_temp", ["air_temp"]),
  ("vapor_pressure", ["vapor_pressure", "dew_point", "precip_temp"]),
  ("wind", ["flatwind", "wind_speed", "wind_direction"]),
  ("precipitation", ["precip", "percent_snow", "snow_density", "storm_days", "storm_total", "last_storm_day"]),
  ("albedo", ["albedo_vis", "albedo_ir"]),
  ("cloud_factor", ["cloud_factor"]),
  ("solar", ["clear_ir_beam", "clear_ir_diffuse", "clear_vis_beam", "clear_vis_diffuse", "cloud_ir_beam", "cloud_ir_diffuse",
    "cloud_vis_beam", "cloud_vis_diffuse", "net_solar", "veg_ir_beam", "veg_ir_diffuse", "veg_vis_beam", "veg_vis_diffuse"]),
  ("thermal", ["thermal", "thermal_clear", "thermal_cloud", "thermal_veg"]),
  ("soil_temp", ["soil_temp"])]

/-- The options of `variables`. CoreConfig.ini 1145-1152. -/
def offered : List String := ["all", "air_temp", "albedo_vis", "albedo_ir", "precip", "percent_snow", "snow_density", "storm_days",
  "precip_temp", "clear_ir_beam", "clear_ir_diffuse", "clear_vis_beam", "clear_vis_diffuse", "cloud_factor", "cloud_ir_beam",
  "cloud_ir_diffuse", "cloud_vis_beam", "cloud_vis_diffuse", "net_solar", "veg_ir_beam", "veg_ir_diffuse", "veg_vis_beam",
  "veg_vis_diffuse", "thermal", "vapor_pressure", "dew_point", "flatwind", "wind_speed", "wind_direction", "thermal_clear",
  "thermal_veg", "thermal_cloud"]

/-- The default of `variables`. CoreConfig.ini 1142-1144. -/
def defaults : List String := ["thermal", "air_temp", "vapor_pressure", "wind_speed", "wind_direction", "net_solar", "precip",
  "percent_snow", "snow_density", "precip_temp"]

/-- The exceptions. -/
inductive Err where
  /-- 'Could not determine type of file for output' -/
  | fileType
  /-- `config['output_type']`, `config['hru_file']` -/
  | keyError
  /-- `ext` without a value -/
  | unbound
  /-- 'HRU file does not exist', or `np.loadtxt` without a file -/
  | noFile
  /-- `out_func.variable_dict` -/
  | attributeError
  /-- `output_count % 0` -/
  | zeroDivision
  deriving DecidableEq

/-- The section: `output_type` and `hru_file` may be missing; the flag of `hru_file` tells whether the file
is there and holds the map of the units. -/
structure Section where
  fileType : List Char
  outputType : Option (List Char)
  hruFile : Option Bool
  frequency : Nat

/-- The writers. -/
inductive Writer where
  | netcdf
  | hru
  deriving DecidableEq

/-- `output_hru.__init__` with `n` variables. output_hru.py 34-72. -/
def newHru (s : Section) (n : Nat) : Except Err Writer :=
  match s.outputType with
  | none => .error .keyError
  | some o =>
    if o = "csv".toList ∨ o = "prms".toList then
      match s.hruFile with
      | none => .error .keyError
      | some b => if b then .ok .hru else .error .noFile
    else if n = 0 then
      match s.hruFile with
      | none => .error .keyError
      | some b => if b then .ok .hru else .error .noFile
    else .error .unbound

/-- `initializeOutput`: the file type in lower case decides. model_framework.py 677-697. -/
def initOutput (s : Section) (n : Nat) : Except Err Writer :=
  if s.fileType.map Char.toLower = "netcdf".toList then .ok .netcdf
  else if s.fileType.map Char.toLower = "hru".toList then newHru s n
  else .error .fileType

/-- `output` for step `k`: whether the step is written. Only the netCDF writer has the attribute `variable_dict`
(output_netcdf.py 39; the other has `variable_list`, output_hru.py 61). The second condition, `output_count == len(date_time)`, is
never met: `output_count` is an index. model_framework.py 716-736. -/
def outputStep (w : Writer) (f n k : Nat) : Except Err Bool :=
  if f = 0 then .error .zeroDivision
  else if k % f = 0 ∨ k = n then
    match w with
    | .netcdf => .ok true
    | .hru => .error .attributeError
  else .ok false

/-- The steps from `k` on that a serial run over `n` steps writes, and the exception that ends it, if any. `m` steps are left.
model_framework.py 390-394. -/
def steps (w : Writer) (f n : Nat) : Nat → Nat → List Nat × Option Err
  | 0, _ => ([], none)
  | m + 1, k =>
    match outputStep w f n k with
    | .error e => ([], some e)
    | .ok b => ((if b then k :: (steps w f n m (k + 1)).1 else (steps w f n m (k + 1)).1), (steps w f n m (k + 1)).2)

/-- A serial run: the variables with files, the steps written, and the exception. Everything but the output is assumed to go well.
model_framework.py 663-697, 365-402, 704-749. -/
def run (s : Section) (requested : List String) (n : Nat) : List String × List Nat × Option Err :=
  let d := Output.variableDict catalogue "" requested
  match initOutput s d.length with
  | .error e => ([], [], some e)
  | .ok w => (d.map Prod.fst, (steps w s.frequency n n 0).1, (steps w s.frequency n n 0).2)

end Verif.OutAsked
