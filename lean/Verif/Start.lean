import Verif.Setup

/-!
Model of how a run starts and ends as a program: `scripts/run_smrf`, `handle_run_script_options` of `smrf/utils/utils.py`
(`Setup.choose`), `SMRF.__init__`, `run_smrf` and `can_i_run_smrf` of `smrf/framework/model_framework.py`, and the choice of the
loader in `smrf/data/input_data.py`. Checking of the configuration (inicheck), reading of dates and the phases of the run are
parameters; instants are integers.
-/

namespace Verif.Start

/-- The exceptions that end a run. -/
inductive Exc where
  | exception
  | keyError
  | valueError
  | attributeError
  | indexError
  /-- an exception of the phase with this number -/
  | phase (n : Nat)
  deriving DecidableEq

/-- How a call ends early: `sys.exit()`, which raises `SystemExit`, or another exception. -/
inductive Stop where
  | exit
  | raised (e : Exc)
  deriving DecidableEq

/-- The section `gridded`. CoreConfig.ini 112-137. -/
structure Gridded where
  dataType : String
  loadMethod : Option String

/-- A configuration after inicheck: number of errors found, the data sections, the dates of the albedo (`time_zone` not looked
at), the dates of the run. -/
structure Config where
  errors : Nat
  csv : Bool
  gridded : Option Gridded
  decayStart : Option Int
  decayEnd : Option Int
  start : Int
  stop : Int

/-- The argument of `SMRF`: a path of which it is known whether it is a file (then with its configuration), an instance of
`UserConfig`, or something else. model_framework.py 93-108. -/
inductive Arg where
  | path (isFile : Bool) (c : Config)
  | user (c : Config)
  | other

/-- What the constructor leaves in the file system. model_framework.py 119-120, 137-140. -/
inductive Effect where
  | makeDir
  | writeConfig
  deriving DecidableEq

/-- Attributes of the instance. model_framework.py 157-164. -/
structure State where
  config : Config
  gridded : Bool
  timestep : Bool

/-- The dates of the albedo: looked up if the first is there. model_framework.py 148-154. -/
def decayDates (c : Config) : Except Stop Unit :=
  match c.decayStart, c.decayEnd with
  | some _, none => .error (.raised .keyError)
  | _, _ => .ok ()

/-- The flags for gridded data. model_framework.py 157-164. -/
def flags (c : Config) : Except Stop (Bool × Bool) :=
  match c.gridded with
  | none => .ok (false, false)
  | some g =>
    if g.dataType = "hrrr_grib" then
      match g.loadMethod with
      | none => .error (.raised .keyError)
      | some m => .ok (true, m = "timestep")
    else .ok (true, false)

/-- The check of the dates. model_framework.py 166-170. -/
def future (c : Config) (gridded : Bool) (now : Int) : Except Stop Unit :=
  if (c.start > now ∧ gridded = false) ∨ (c.stop > now ∧ gridded = false) then .error (.raised .valueError) else .ok ()

/-- The constructor from the checked configuration on. model_framework.py 132-181. -/
def init (c : Config) (now : Int) : List Effect × Except Stop State :=
  if c.errors > 0 then ([.makeDir], .error .exit)
  else ([.makeDir, .writeConfig], do
    decayDates c
    let (g, t) ← flags c
    future c g now
    .ok ⟨c, g, t⟩)

/-- `SMRF.__init__`. Logging is left out. model_framework.py 87-181. -/
def smrf (a : Arg) (now : Int) : List Effect × Except Stop State :=
  match a with
  | .path true c => init c now
  | .path false _ => ([], .error (.raised .exception))
  | .user c => init c now
  | .other => ([], .error (.raised .exception))

/-- The loaders. -/
inductive Loader where
  | csv
  | hrrr
  | netcdf
  | wrf
  deriving DecidableEq

/-- `InputData.__determine_data_type`. input_data.py 85-114. -/
def determine (c : Config) : Except Stop Loader :=
  if c.csv = true then .ok .csv
  else match c.gridded with
    | some g =>
      if g.dataType = "hrrr_grib" then .ok .hrrr
      else if g.dataType = "netcdf" then .ok .netcdf
      else if g.dataType = "wrf" then .ok .wrf
      else .error (.raised .attributeError)
    | none => .error (.raised .attributeError)

/-- The phases of a run, as far as they are not modelled here: given the instance (and the loader), does the phase end without
an exception? Numbers of the phases: 0 topo, 1 distribution, 2 output, 3 data, 4 distribute, 5 post. -/
structure World where
  now : Int
  fine : Nat → State → Option Loader → Bool

/-- A phase. -/
def phase (w : World) (s : State) (l : Option Loader) (n : Nat) : Except Stop Unit :=
  if w.fine n s l = true then .ok () else .error (.raised (.phase n))

/-- `run_smrf`: effects of the constructor and the loader that was used, or how it ended. model_framework.py 774-804; the
loader is chosen in `loadData` (294-338). -/
def runSmrf (w : World) (a : Arg) : List Effect × Except Stop (State × Loader) :=
  let i := smrf a w.now
  (i.1, do
    let s ← i.2
    phase w s none 0
    phase w s none 1
    phase w s none 2
    let l ← determine s.config
    phase w s (some l) 3
    phase w s (some l) 4
    phase w s (some l) 5
    .ok (s, l))

/-- `can_i_run_smrf`: the branch of the exception raises it again before the `return False`. `SystemExit` is no `Exception`.
model_framework.py 807-820. -/
def canRun (w : World) (a : Arg) : Except Stop Bool :=
  match (runSmrf w a).2 with
  | .ok _ => .ok true
  | .error e => .error e

/-- The exit status of python: 0 after the last statement and after `sys.exit()` without argument, 1 after any other exception. -/
def status {α : Type} : Except Stop α → Nat
  | .ok _ => 0
  | .error .exit => 0
  | .error (.raised _) => 1

/-- The script: `run` of scripts/run_smrf 23-35 with `handle_run_script_options` (utils.py 82-112). `dir` and `isFile` as in
`Setup.choose`; `read` is the configuration in the file of a name (the empty name is the path itself). -/
def script (w : World) (dir : Option (List (List Char))) (isFile : List Char → Bool) (read : List Char → Config) :
    List Effect × Except Stop (State × Loader) :=
  match Setup.choose dir isFile with
  | .given => runSmrf w (.path true (read []))
  | .found f => runSmrf w (.path true (read f))
  | .several => ([], .error .exit)
  | .missing => ([], .error .exit)
  | .indexError => ([], .error (.raised .indexError))

end Verif.Start
