import Mathlib.Data.List.Basic

/-!
The log of a process: `SMRFLogger` (smrf/framework/logger.py) and the loggers that the modules ask for. The part of Python's `logging`
that matters is modelled from its documentation: a logger is made when first asked for by its name, has no level or handler of its own and
hands its records to the root logger; `dictConfig` without `disable_existing_loggers` disables every logger that exists and is not named in
its argument, and nothing enables it again. The text of a record is any string; formatting is not modelled.
-/

namespace Verif.Logs

/-- Where records go: the console, or the file of a path. -/
inductive Sink where
  | console
  | file (path : String)
deriving DecidableEq

/-- The number of the level with a name, after `.upper()` (logger.py 18), character by character; `none` for a name that Python does not
know. -/
def severity (name : String) : Option Nat :=
  let n := name.toList.map Char.toUpper
  if n = "DEBUG".toList then some 10
  else if n = "INFO".toList then some 20
  else if n = "WARNING".toList then some 30
  else if n = "ERROR".toList then some 40
  else if n = "CRITICAL".toList then some 50
  else none

/-- `log_level` and `log_file` of the section `system`, with the directory part of the path.
smrf/framework/logger.py 18-19, CoreConfig.ini 1199-1207. -/
structure Cfg where
  level : Option String
  file : Option (String × String)

/-- A record: the name of the logger, the level, the text. -/
structure Rec where
  logger : String
  level : Nat
  text : String
deriving DecidableEq

inductive Err where
  /-- `os.makedirs('')` -/
  | noFile
  /-- unknown level -/
  | value
deriving DecidableEq

/-- The loggers made so far, those disabled, level and handler of the root logger, and what every sink has received. -/
structure St where
  known : List String
  disabled : List String
  level : Nat
  sink : Sink
  out : Sink → List String

/-- A new process: the root logger's level is WARNING and the handler of last resort writes to the console. -/
def init (old : Sink → List String) : St := ⟨[], [], 30, .console, old⟩

/-- `SMRFLogger.__init__`. With a file only the handler of the file, opened for appending, is attached to the root logger. Without one
`coloredlogs.install` replaces the console handler by its own with the same level. smrf/framework/logger.py 16-60. -/
def setup (c : Cfg) (s : St) : Except Err St :=
  match c.file with
  | some (dir, path) =>
    if dir = "" then .error .noFile
    else match severity (c.level.getD "info") with
      | none => .error .value
      | some l => .ok { s with disabled := s.known ++ s.disabled, level := l, sink := .file path }
  | none => match severity (c.level.getD "info") with
      | none => .error .value
      | some l => .ok { s with disabled := s.known ++ s.disabled, level := l, sink := .console }

/-- `logging.getLogger(name)` as in the modules' constructors (e.g. smrf/distribute/image_data.py 56, model_framework.py 111) and a record
written with it. -/
def emit (r : Rec) (s : St) : St :=
  { s with
    known := if r.logger ∈ s.known then s.known else r.logger :: s.known
    out := if r.logger ∈ s.disabled ∨ r.level < s.level then s.out
      else fun k => if k = s.sink then s.out k ++ [r.text] else s.out k }

/-- What happens in a process: the constructor of `SMRF` without `external_logger` sets up the log (model_framework.py 108-113); the
modules write records. -/
inductive Op where
  | setup (c : Cfg)
  | emit (r : Rec)

def step (s : St) : Op → Except Err St
  | .setup c => setup c s
  | .emit r => .ok (emit r s)

/-- A process; an exception of the constructor ends it. -/
def run (s : St) : List Op → Except Err St
  | [] => .ok s
  | o :: os => match step s o with
    | .error e => .error e
    | .ok s' => run s' os

end Verif.Logs
