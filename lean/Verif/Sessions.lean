import Verif.Stamp

/-!
Several runs into the same output directory: `OutputNetcdf.__init__` opens a file that exists and creates one
that does not (smrf/output/output_netcdf.py 62-146), `output` writes records (148-188). One variable.
-/

namespace Verif.Sessions

/-- The attributes `units` ("hours since start date", as minutes on the clock) and `time_zone` of the time
variable and the coordinates `x`, `y`. output_netcdf.py 81-111, 142-143. -/
structure Header (Z G : Type) where
  start : ℤ
  zone : Z
  grid : G
deriving DecidableEq

/-- A file. -/
structure File (Z G R : Type) where
  head : Header Z G
  records : List (ℚ × R)

/-- A run: its start date, zone and grid, and the output steps with their images. A step is given by its minute
on the clock of the zone of the run (`date_time.replace(tzinfo=None)`, output_netcdf.py 167). -/
structure Session (Z G R : Type) where
  head : Header Z G
  steps : List (ℤ × R)

variable {Z G R : Type}

/-- `if os.path.isfile(...)`: a file that exists is opened as it is (only `last_modified`, the projection if it
is missing, and `SMRF_version` are written, not modelled), else a file is created. output_netcdf.py 64-146. -/
def openFile (f : Option (File Z G R)) (s : Session Z G R) : File Z G R :=
  match f with
  | some f => f
  | none => ⟨s.head, []⟩

/-- `OutputNetcdf.output`: the time, relative to the start date in the file, is stored first; then the image, for
which the package raises an exception if it does not have the shape of the variable (`fits`; the record is then
left with the time and, if it is new, fill values). The flag tells that the run goes on. output_netcdf.py 161-188. -/
def put (fits : G → G → Bool) (fill : R) (g : G) (f : File Z G R) (w : ℤ × R) : File Z G R × Bool :=
  if fits g f.head.grid then (⟨f.head, Stamp.writeSingle f.records (w.1 - f.head.start, w.2)⟩, true)
  else (⟨f.head, match Output.findTime (Stamp.rnd 24 (Stamp.hours (w.1 - f.head.start))) f.records with
    | some i => f.records.modify i fun r => (Stamp.stored (w.1 - f.head.start), r.2)
    | none => f.records ++ [(Stamp.stored (w.1 - f.head.start), fill)]⟩, false)

/-- The steps of a run up to the first exception. -/
def puts (fits : G → G → Bool) (fill : R) (g : G) (f : File Z G R) : List (ℤ × R) → File Z G R × Bool
  | [] => (f, true)
  | w :: ws => match put fits fill g f w with
    | (f', true) => puts fits fill g f' ws
    | (f', false) => (f', false)

/-- One run. -/
def session (fits : G → G → Bool) (fill : R) (f : Option (File Z G R)) (s : Session Z G R) : File Z G R × Bool :=
  puts fits fill s.head.grid (openFile f s) s.steps

/-- The file after a number of runs, whether or not they end normally. -/
def history (fits : G → G → Bool) (fill : R) (f : Option (File Z G R)) (ss : List (Session Z G R)) : Option (File Z G R) :=
  ss.foldl (fun f s => some (session fits fill f s).1) f

end Verif.Sessions
