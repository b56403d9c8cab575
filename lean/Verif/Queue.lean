/-
Model of `smrf/utils/queue.py`, class `DateQueueThreading` (lines 16-194).

Every method body runs while holding the queue's mutex (`not_empty` and
`not_full` share it), so a whole evaluation of a loop test followed by the
action is one atomic event.  A blocking call is modelled as one `call` event
followed by any number of `wake` events (a return of `Condition.wait`); between
them other threads may perform arbitrary events.  Seconds are natural numbers
(simplification: the code uses floats); logging and `unfinished_tasks` are not
modelled.
-/

namespace Verif.Queue

/-- A Python dict as an insertion-ordered association list. -/
abbrev Dict (K V : Type) := List (K × V)

namespace Dict
variable {K V : Type} [DecidableEq K]

/-- `index in d` / `d[index]`. -/
def get? : Dict K V → K → Option V
  | [], _ => none
  | (k', v) :: d, k => if k' = k then some v else get? d k

/-- `d.update({k: v})`: overwrite in place, or append (queue.py 50). -/
def set : Dict K V → K → V → Dict K V
  | [], k, v => [(k, v)]
  | (k', v') :: d, k, v => if k' = k then (k', v) :: d else (k', v') :: set d k v

/-- `del d[k]` if `k` is present (queue.py 62-63). -/
def del : Dict K V → K → Dict K V
  | [], _ => []
  | (k', v') :: d, k => if k' = k then d else (k', v') :: del d k

/-- The keys, in insertion order. -/
def keys (d : Dict K V) : List K := d.map Prod.fst

end Dict

/-- State of a `DateQueueThreading` object: queue.py 26-45
(`self.queue`, `self.maxsize`, `self.timeout`). -/
structure DQ (K V : Type) where
  items : Dict K V
  maxsize : Int
  timeout : Option Nat

/-- `DateQueueThreading(maxsize, timeout)` (queue.py 26-42). -/
def DQ.new {K V : Type} (maxsize : Int) (timeout : Option Nat) : DQ K V :=
  ⟨[], maxsize, timeout⟩

/-- What the code does at one event of a call. -/
inductive Out (V : Type) where
  /-- `get` returned this item -/
  | value (v : V)
  /-- `get` fell out of `except Exception` and returned `None` (125-126) -/
  | returnedNone
  /-- the caller went (back) to `Condition.wait`, with this absolute deadline -/
  | waiting (deadline : Option Nat)
  /-- `sys.exit()` in the `finally` (130-131, 193-194) -/
  | exited
  /-- `put` stored the item and returned -/
  | stored
  /-- `put` swallowed `Full` (188-189) and returned without storing -/
  | dropped
  /-- `clean` returned -/
  | cleaned
  deriving DecidableEq

/-- One atomic event on a queue. `elapsed` is the time since the call began and
`deadline` the value captured in `endtime - start` when the call began. -/
inductive Ev (K V : Type) where
  | getCall (k : K) (block : Bool) (timeout : Option Nat)
  | getWake (k : K) (deadline : Option Nat) (elapsed : Nat)
  | putCall (k : K) (v : V) (block : Bool) (timeout : Option Nat)
  | putWake (k : K) (v : V) (deadline : Option Nat) (elapsed : Nat)
  | clean (k : K)

section
variable {K V : Type} [DecidableEq K]

/-- `self._qsize()` (queue.py 44-45). -/
def DQ.qsize (q : DQ K V) : Int := q.items.length

/-- The waiting loop of `get`: lines 100-102 (no timeout) and 105-118 (timeout),
then 120-123. -/
def getLoop (q : DQ K V) (k : K) (deadline : Option Nat) (elapsed : Nat) : Out V :=
  match q.items.get? k with
  | some v => .value v
  | none =>
    match deadline with
    | none => .waiting none
    | some d => if d ≤ elapsed then .exited else .waiting (some d)

/-- The non-blocking branch of `get`: 95-97 checks only that the queue is not
empty; 120 then raises `KeyError` for a missing date, swallowed at 125. -/
def getNonblock (q : DQ K V) (k : K) : Out V :=
  if q.qsize = 0 then .returnedNone
  else match q.items.get? k with
    | some v => .value v
    | none => .returnedNone

/-- Start of `get` (89-90): a timeout argument overwrites the queue's timeout. -/
def DQ.setTimeout (q : DQ K V) (timeout : Option Nat) : DQ K V :=
  match timeout with
  | none => q
  | some t => { q with timeout := some t }

/-- `_put` (48-50). -/
def DQ.store (q : DQ K V) (k : K) (v : V) : DQ K V := { q with items := q.items.set k v }

/-- The waiting loop of `put`: 155 and 163-183. -/
def putLoop (q : DQ K V) (k : K) (v : V) (deadline : Option Nat) (elapsed : Nat) :
    DQ K V × Out V :=
  if q.maxsize > 0 then
    if q.qsize = q.maxsize then
      match deadline with
      | none => (q, .waiting none)
      | some d => if d ≤ elapsed then (q, .exited) else (q, .waiting (some d))
    else (q.store k v, .stored)
  else (q.store k v, .stored)

/-- The non-blocking branch of `put`: 155, 159-161, 183. -/
def putNonblock (q : DQ K V) (k : K) (v : V) : DQ K V × Out V :=
  if q.maxsize > 0 then
    if q.qsize = q.maxsize then (q, .dropped) else (q.store k v, .stored)
  else (q.store k v, .stored)

/-- One atomic event: `get` (68-131), `put` (133-194; line 147 discards the
timeout argument), `clean` (56-66). -/
def step (q : DQ K V) : Ev K V → DQ K V × Out V
  | .getCall k block timeout =>
    let q' := q.setTimeout timeout
    if block then (q', getLoop q' k q'.timeout 0) else (q', getNonblock q' k)
  | .getWake k deadline elapsed => (q, getLoop q k deadline elapsed)
  | .putCall k v block _timeout =>
    if block then putLoop q k v q.timeout 0 else putNonblock q k v
  | .putWake k v deadline elapsed => putLoop q k v deadline elapsed
  | .clean k => ({ q with items := q.items.del k }, .cleaned)

/-- Run a history of events, oldest first, recording what each one did. -/
def run (q : DQ K V) : List (Ev K V) → DQ K V × List (Ev K V × Out V)
  | [] => (q, [])
  | e :: es =>
    let r := step q e
    let r' := run r.1 es
    (r'.1, (e, r.2) :: r'.2)

end
end Verif.Queue
