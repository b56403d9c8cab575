import Verif.Network

/-
The storm-day array of the precipitation module is one object: `distribute` updates it in place
(smrf/distribute/precipitation.py 395 and 447, smrf/envphys/storms.py 46-65 and 97-109) and the
thread puts a reference to it into the queue (precipitation.py 514). A reader therefore sees the
current contents of the array, not the contents at the time of the put.
-/

namespace Verif.Network
open Verif.Pipeline Verif.Queue

variable {Q V σ : Type} [DecidableEq Q]

/-- The value the thread is about to put to `q`, when it has already computed it: the in-place update
happens between the last read of a date and the first put. -/
def pending (q : Q) : Prog Q V σ → Option V
  | .put q' v p => if q' = q then some v else pending q p
  | _ => none

/-- Date and value of the last put to `q` in a history (newest first). -/
def lastPut (q : Q) : List (Act Q V) → Option (Nat × V)
  | [] => none
  | .put q' t v :: h => if q' = q then some (t, v) else lastPut q h
  | _ :: h => lastPut q h

/-- Current contents of the array that thread `m` keeps for variable `q` and puts by reference. -/
def cell {I : Type} (s : St I Q V σ) (m : I) (q : Q) : Option V :=
  match pending q (s.thr m).p with
  | some v => some v
  | none => (lastPut q (s.hist m)).map Prod.snd

/-- Executable scheduler: let thread `i` perform its next action, if it can. -/
def exec {I : Type} [DecidableEq I] (N : Net I Q V σ) (s : St I Q V σ) (i : I) :
    Option (St I Q V σ) :=
  match (s.thr i).p with
  | .ret x => if (s.thr i).t < N.steps then
      some { s with
        thr := fun j => if j = i then ⟨(s.thr i).t + 1, N.start i x ((s.thr i).t + 1)⟩ else s.thr j
        hist := fun j => if j = i then .next :: s.hist j else s.hist j }
    else none
  | .get q k => match (s.que q).items.get? (s.thr i).t with
    | none => none
    | some v => some { s with
        thr := fun j => if j = i then ⟨(s.thr i).t, k v⟩ else s.thr j
        hist := fun j => if j = i then .got q (s.thr i).t v :: s.hist j else s.hist j }
  | .put q v p =>
    if (s.que q).maxsize > 0 ∧ (s.que q).qsize = (s.que q).maxsize then none
    else some { s with
        thr := fun j => if j = i then ⟨(s.thr i).t, p⟩ else s.thr j
        que := fun q' => if q' = q then (s.que q).store (s.thr i).t v else s.que q'
        hist := fun j => if j = i then .put q (s.thr i).t v :: s.hist j else s.hist j }

/-- Run a list of thread choices. -/
def sched {I : Type} [DecidableEq I] (N : Net I Q V σ) :
    St I Q V σ → List I → Option (St I Q V σ)
  | s, [] => some s
  | s, i :: is => match exec N s i with
    | none => none
    | some s' => sched N s' is

end Verif.Network
