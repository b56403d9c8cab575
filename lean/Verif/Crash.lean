import Verif.Pipeline

/-
Model of a threaded run in which threads die: `smrf/framework/model_framework.py` 486-531
(`disttribute_data_threaded`: start all threads, join all threads, log), 533-632 (queues created with
`timeout=self.time_out`, plain `threading.Thread` objects) and `smrf/utils/queue.py` 68-194, 217-235.

An exception in a module's `distribute_thread` ends that thread only (`threading.Thread`; nobody looks
at it afterwards). A `get` or `put` that has waited for `time_out` calls `sys.exit()` in its `finally`
(queue.py 128-131, 191-194), which also ends that thread only. With `time_out` unset (the default) a
waiting call waits for ever (100-102, 163-166).

Simplifications: an exception may strike a thread between any two of its queue operations; how long a
computation takes is not modelled, so a waiting call may reach its time-out at any moment, and `elapsed`
in the queue model is arbitrary. The thread that loads HRRR data (553-558) is listed with the others
although the main thread does not join it; the interpreter waits for it when the process ends.
-/

namespace Verif.Crash
open Verif.Queue Verif.Pipeline

/-- How a thread stands. -/
inductive Fate where
  /-- in its `for` loop, or through with it -/
  | running
  /-- an exception has ended `run()` -/
  | raised
  /-- `sys.exit()` of a timed-out queue call has ended `run()` (queue.py 130-131, 193-194) -/
  | exited
  deriving DecidableEq

/-- State of the run: the state of threads and queues as in a run without accidents, and the fate of
each thread and of the cleaner. -/
structure CSt (I Q V σ : Type) where
  st : St I Q V σ
  fate : I → Fate
  clFate : Fate

section
variable {I Q V σ : Type} [DecidableEq I] [DecidableEq Q]

/-- All threads started (model_framework.py 523-525). -/
def start (N : Net I Q V σ) : CSt I Q V σ := ⟨N.initial, fun _ => .running, .running⟩

/-- The fates when thread `i` has met `f`. -/
def CSt.kill (c : CSt I Q V σ) (i : I) (f : Fate) : CSt I Q V σ :=
  { c with fate := fun j => if j = i then f else c.fate j }

/-- One step of the run with `time_out` = `T`; `R i t` tells at which dates `t` the code of thread `i`
may raise. -/
inductive CStep (N : Net I Q V σ) (T : Option Nat) (R : I → Nat → Prop) :
    CSt I Q V σ → CSt I Q V σ → Prop
  /-- a living thread performs one action -/
  | thread (c : CSt I Q V σ) (i : I) (a : Act Q V) (th' : Thr Q V σ) (que' : Q → DQ Nat V)
      (hf : c.fate i = .running) (hl : LStep N i (c.st.thr i) a th') (he : effect c.st.que a que') :
      CStep N T R c { c with st := { c.st with
        thr := fun j => if j = i then th' else c.st.thr j
        que := que'
        hist := fun j => if j = i then a :: c.st.hist j else c.st.hist j } }
  /-- the living cleaner performs one action: a step of the run in which no thread has acted -/
  | cleaner (c : CSt I Q V σ) (s' : St I Q V σ) (hf : c.clFate = .running)
      (hs : Step N c.st s') (hh : s'.hist = c.st.hist) : CStep N T R c { c with st := s' }
  /-- the code of a living thread raises at the date it is working on -/
  | raise (c : CSt I Q V σ) (i : I) (hf : c.fate i = .running)
      (ht : (c.st.thr i).t < N.steps) (hr : R i (c.st.thr i).t) : CStep N T R c (c.kill i .raised)
  /-- a waiting `get` times out (queue.py 105-118, 130-131) -/
  | outGet (c : CSt I Q V σ) (i : I) (d e : Nat) (q : Q) (k : V → Prog Q V σ) (hT : T = some d)
      (hf : c.fate i = .running) (hp : (c.st.thr i).p = .get q k)
      (hx : (Queue.step (c.st.que q) (.getWake (c.st.thr i).t (some d) e)).2 = .exited) :
      CStep N T R c (c.kill i .exited)
  /-- a waiting `put` times out (queue.py 169-182, 193-194) -/
  | outPut (c : CSt I Q V σ) (i : I) (d e : Nat) (q : Q) (v : V) (p : Prog Q V σ) (hT : T = some d)
      (hf : c.fate i = .running) (hp : (c.st.thr i).p = .put q v p)
      (hx : (Queue.step (c.st.que q) (.putWake (c.st.thr i).t v (some d) e)).2 = .exited) :
      CStep N T R c (c.kill i .exited)
  /-- a waiting `get` of the cleaner times out (queue.py 227-228, 130-131) -/
  | outClean (c : CSt I Q V σ) (d e n : Nat) (q : Q) (hT : T = some d) (hf : c.clFate = .running)
      (ht : c.st.clT < N.steps) (hp : c.st.clPhase = .getting n) (hq : N.watched[n]? = some q)
      (hx : (Queue.step (c.st.que q) (.getWake c.st.clT (some d) e)).2 = .exited) :
      CStep N T R c { c with clFate := .exited }

/-- Continuations of a run. -/
inductive CSteps (N : Net I Q V σ) (T : Option Nat) (R : I → Nat → Prop) :
    CSt I Q V σ → CSt I Q V σ → Prop
  | refl (c : CSt I Q V σ) : CSteps N T R c c
  | tail {c c' c'' : CSt I Q V σ} : CSteps N T R c c' → CStep N T R c' c'' → CSteps N T R c c''

/-- The states of a run, with the number of steps taken. -/
inductive CReachIn (N : Net I Q V σ) (T : Option Nat) (R : I → Nat → Prop) :
    Nat → CSt I Q V σ → Prop
  | init : CReachIn N T R 0 (start N)
  | step {n : Nat} {c c' : CSt I Q V σ} : CReachIn N T R n c → CStep N T R c c' →
      CReachIn N T R (n + 1) c'

/-- The states of a run. -/
def CReach (N : Net I Q V σ) (T : Option Nat) (R : I → Nat → Prop) (c : CSt I Q V σ) : Prop :=
  CSteps N T R (start N) c

/-- What the main thread does (model_framework.py 527-531): it waits in one of the `join`s until every
thread is over — through with its dates or dead — and then returns normally. -/
inductive Main where
  | waiting
  | returned
  | raised
  deriving DecidableEq

/-- Every `join` returns. -/
def Joined (N : Net I Q V σ) (c : CSt I Q V σ) : Prop :=
  (∀ i, c.fate i ≠ .running ∨ (c.st.thr i).t = N.steps) ∧
    (c.clFate ≠ .running ∨ c.st.clT = N.steps)

open Classical in
/-- State of the main thread; `Thread.join` does not pass on the exception that ended the thread. -/
noncomputable def main (N : Net I Q V σ) (c : CSt I Q V σ) : Main :=
  if Joined N c then .returned else .waiting

/-- The serial run over the same modules (model_framework.py 365-402): the first module call that
raises ends the run with that exception. -/
def serialMain (order : List I) (raises : I → Nat → Bool) (n : Nat) : Main :=
  if (List.range n).any (fun t => order.any fun i => raises i t) then .raised else .returned

end
end Verif.Crash
