import Verif.Queue

/-
Model of a threaded run: `smrf/framework/model_framework.py` 486-632
(`disttribute_data_threaded`, `create_data_queue`, `create_distributed_threads`),
`smrf/utils/queue.py` 197-297 (`QueueCleaner`, `QueueOutput`) and the
`distribute_thread` loops of the modules.

Simplifications: dates are replaced by their index in the list of dates (the
list has no repetition, see C19); queues have no timeout (a run in which a
timeout fires is aborted by `sys.exit`, see C05); module computations are
arbitrary deterministic functions of the thread's own state and the values it
has read.
-/

namespace Verif.Pipeline
open Verif.Queue

/-- What one thread does for one date: a finite interaction with the queues.
`get q k` is `queue[q].get(date_time)` with continuation `k` (which may branch on
the value read, e.g. `shade_thread`, solar/model.py 24-41), `put q v p` is
`queue[q].put([date_time, v])`, `ret s` ends the date with thread-local state
`s` (the attributes of the distribute object). -/
inductive Prog (Q V σ : Type) where
  | ret (s : σ)
  | get (q : Q) (k : V → Prog Q V σ)
  | put (q : Q) (v : V) (p : Prog Q V σ)

/-- A network of threads. `body i s t` is the body of `for date_time in
self.date_time` of thread `i` (e.g. air_temp.py 88-106) in state `s`; `init i` is
the state after `initialize`; `watched` are the keys of `smrf_queue`, on which the
cleaner runs (queue.py 227, 232); `cap q` is the queue's `maxsize`
(model_framework.py 590-594, `queue_max_values`, or 0 for the data queues 539);
`steps` is the number of dates. -/
structure Net (I Q V σ : Type) where
  body : I → σ → Nat → Prog Q V σ
  init : I → σ
  watched : List Q
  cap : Q → Int
  steps : Nat

/-- A thread is working on date number `t` with residual program `p`. -/
structure Thr (Q V σ : Type) where
  t : Nat
  p : Prog Q V σ

/-- Position of the cleaner at date `t` (queue.py 223-233): `getting n` — the
first `n` queues have been found to hold `t`; `cleaning n` — the first `n`
queues have been cleaned of `t`. -/
inductive Phase where
  | getting (n : Nat)
  | cleaning (n : Nat)
  deriving DecidableEq

/-- One action of one thread, as recorded in the ghost history. -/
inductive Act (Q V : Type) where
  | got (q : Q) (t : Nat) (v : V)
  | put (q : Q) (t : Nat) (v : V)
  | next

/-- Global state. `hist` and `gone` are ghost components recording what has
happened (newest first); no rule looks at them. -/
structure St (I Q V σ : Type) where
  thr : I → Thr Q V σ
  que : Q → DQ Nat V
  clT : Nat
  clPhase : Phase
  hist : I → List (Act Q V)
  gone : List (Q × Nat)

section
variable {I Q V σ : Type} [DecidableEq I] [DecidableEq Q]

/-- The residual program when a thread arrives at date `t` in state `s`; after
the last date the `for` loop ends. -/
def Net.start (N : Net I Q V σ) (i : I) (s : σ) (t : Nat) : Prog Q V σ :=
  if t < N.steps then N.body i s t else .ret s

/-- Initial state: all queues empty, all threads before the first date, cleaner
at the first date (model_framework.py 590-594, 523-525). -/
def Net.initial (N : Net I Q V σ) : St I Q V σ where
  thr i := ⟨0, N.start i (N.init i) 0⟩
  que q := DQ.new (N.cap q) none
  clT := 0
  clPhase := .getting 0
  hist _ := []
  gone := []

/-- Local transition of one thread. -/
inductive LStep (N : Net I Q V σ) (i : I) : Thr Q V σ → Act Q V → Thr Q V σ → Prop
  | got (t : Nat) (q : Q) (k : V → Prog Q V σ) (v : V) :
      LStep N i ⟨t, .get q k⟩ (.got q t v) ⟨t, k v⟩
  | put (t : Nat) (q : Q) (v : V) (p : Prog Q V σ) :
      LStep N i ⟨t, .put q v p⟩ (.put q t v) ⟨t, p⟩
  | next (t : Nat) (s : σ) (h : t < N.steps) :
      LStep N i ⟨t, .ret s⟩ .next ⟨t + 1, N.start i s (t + 1)⟩

/-- Effect of a thread action on the queues; `none` when the action has to wait.
Uses the queue model of `Verif.Queue`. -/
def effect (que : Q → DQ Nat V) : Act Q V → (Q → DQ Nat V) → Prop
  | .got q t v, que' => (Queue.step (que q) (.getWake t none 0)).2 = .value v ∧ que' = que
  | .put q t v, que' => (Queue.step (que q) (.putWake t v none 0)).2 = .stored ∧
      que' = fun q' => if q' = q then (Queue.step (que q) (.putWake t v none 0)).1 else que q'
  | .next, que' => que' = que

/-- One step of the whole system: any thread or the cleaner moves. -/
inductive Step (N : Net I Q V σ) : St I Q V σ → St I Q V σ → Prop
  /-- thread `i` performs one action -/
  | thread (s : St I Q V σ) (i : I) (a : Act Q V) (th' : Thr Q V σ) (que' : Q → DQ Nat V)
      (hl : LStep N i (s.thr i) a th') (he : effect s.que a que') :
      Step N s { s with
        thr := fun j => if j = i then th' else s.thr j
        que := que'
        hist := fun j => if j = i then a :: s.hist j else s.hist j }
  /-- cleaner: `self.queues[v].get(t)` (queue.py 227-228) -/
  | clGet (s : St I Q V σ) (n : Nat) (q : Q) (v : V) (ht : s.clT < N.steps)
      (hp : s.clPhase = .getting n) (hq : N.watched[n]? = some q)
      (hv : (Queue.step (s.que q) (.getWake s.clT none 0)).2 = .value v) :
      Step N s { s with clPhase := .getting (n + 1) }
  /-- cleaner: first loop over, second begins (queue.py 232) -/
  | clTurn (s : St I Q V σ) (n : Nat) (ht : s.clT < N.steps)
      (hp : s.clPhase = .getting n) (hq : N.watched[n]? = none) :
      Step N s { s with clPhase := .cleaning 0 }
  /-- cleaner: `self.queues[v].clean(t)` (queue.py 233) -/
  | clClean (s : St I Q V σ) (n : Nat) (q : Q) (ht : s.clT < N.steps)
      (hp : s.clPhase = .cleaning n) (hq : N.watched[n]? = some q) :
      Step N s { s with
        clPhase := .cleaning (n + 1)
        que := fun q' => if q' = q then (Queue.step (s.que q) (.clean s.clT)).1 else s.que q'
        gone := (q, s.clT) :: s.gone }
  /-- cleaner: next date (queue.py 223) -/
  | clNext (s : St I Q V σ) (n : Nat) (ht : s.clT < N.steps)
      (hp : s.clPhase = .cleaning n) (hq : N.watched[n]? = none) :
      Step N s { s with clT := s.clT + 1, clPhase := .getting 0 }

/-- Reachability by any schedule. -/
inductive Reach (N : Net I Q V σ) : St I Q V σ → Prop
  | init : Reach N N.initial
  | step {s s' : St I Q V σ} : Reach N s → Step N s s' → Reach N s'

/-- All threads and the cleaner have finished (`join` returns,
model_framework.py 528-529). -/
def Finished (N : Net I Q V σ) (s : St I Q V σ) : Prop :=
  (∀ i, (s.thr i).t = N.steps) ∧ s.clT = N.steps

/-- The values published so far for variable `q` at date `t`. -/
def Published (s : St I Q V σ) (q : Q) (t : Nat) (v : V) : Prop :=
  ∃ i, Act.put q t v ∈ s.hist i

end
end Verif.Pipeline
