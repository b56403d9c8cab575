import Verif.Queue

/-!
How a time step gets its input: `InputData.set_variables` (smrf/data/input_data.py 116-126), `DataFrame.loc[t]` in
the serial run (smrf/framework/model_framework.py 428-463), the data queues of the threaded run
(model_framework.py 533-550). Data that is loaded as the run goes on (HRRR, `timestep`) is in NcInput.
-/

namespace Verif.Feed

variable {R : Type}

/-- A data frame with a time index: instants (`tz_convert` changes the zone in which an instant is shown, not the
instant; input_data.py 125) and rows. -/
abbrev Frame (R : Type) := List (Int × R)

/-- `d[self.start_date:self.end_date]` on an index that does not decrease: from the first row not before `start` to
the last not after `stop`. Other indices are not modelled. input_data.py 126. -/
def window (start stop : Int) (d : Frame R) : Frame R :=
  let lo := d.findIdx fun r => decide (start ≤ r.1)
  let hi := d.findIdx fun r => decide (stop < r.1)
  (d.drop lo).take (hi - lo)

/-- `set_variables` for one variable: `getattr(self.load_class, variable, None)`; without data the attribute is not
set. input_data.py 120-126. -/
def setVariable (start stop : Int) (loaded : Option (Frame R)) : Option (Frame R) :=
  loaded.map (window start stop)

/-- What the serial run gets. -/
inductive Row (R : Type) where
  /-- one row -/
  | row (r : R)
  /-- a frame of the rows of the instant, if there are several -/
  | frame (rs : List R)
  /-- `KeyError`: the instant is not in the index -/
  | keyError
  /-- `AttributeError`: the variable was not loaded -/
  | attributeError
deriving DecidableEq

/-- `self.data.<variable>.loc[t]`. model_framework.py 428-463. -/
def loc (d : Option (Frame R)) (t : Int) : Row R :=
  match d with
  | none => .attributeError
  | some d => match (d.filter fun r => decide (r.1 = t)).map Prod.snd with
    | [] => .keyError
    | [r] => .row r
    | rs => .frame rs

/-- `create_data_queue` for one variable: an unbounded queue, filled row by row; without data the queue is empty.
model_framework.py 538-550. -/
def fill (timeout : Option Nat) (d : Option (Frame R)) : Queue.DQ Int R :=
  (d.getD []).foldl (fun q r => (Queue.step q (.putCall r.1 r.2 true none)).1) (Queue.DQ.new 0 timeout)

/-- `data_queue[...].get(date_time)` in a thread, `elapsed` seconds after the call. air_temp.py 104;
queue.py 68-131. -/
def get (q : Queue.DQ Int R) (t : Int) (elapsed : Nat) : Queue.Out R :=
  match (Queue.step q (.getCall t true none)).2 with
  | .waiting deadline => if elapsed = 0 then .waiting deadline else (Queue.step q (.getWake t deadline elapsed)).2
  | o => o

end Verif.Feed
