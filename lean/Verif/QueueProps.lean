import Mathlib.Data.List.Induction
import Verif.QueueLemmas

/-!
Properties C01-C05 of the date queue.

Specification vocabulary (independent of the dictionary used by the model):
`lastWrite` reads only the record of what callers did and how each call ended.
-/

namespace Verif.Queue
variable {K V : Type} [DecidableEq K]

/-- Specification.  The record of events is given newest first.  The value a
date should have is that of the newest completed put for it, unless a clean of
that date is newer. -/
def lastWrite : List (Ev K V × Out V) → K → Option V
  | [], _ => none
  | (.putCall k' v _ _, .stored) :: h, k => if k = k' then some v else lastWrite h k
  | (.putWake k' v _ _, .stored) :: h, k => if k = k' then some v else lastWrite h k
  | (.clean k', _) :: h, k => if k = k' then none else lastWrite h k
  | _ :: h, k => lastWrite h k

/-- Specification: `put k v` completed somewhere in the record. -/
def WasPut (h : List (Ev K V × Out V)) (k : K) (v : V) : Prop :=
  (∃ b t, (Ev.putCall k v b t, Out.stored) ∈ h) ∨ (∃ d e, (Ev.putWake k v d e, Out.stored) ∈ h)

/-- Specification: what a blocking reader of date `k` would see right now
(`none` = it would have to wait). -/
def sees (q : DQ K V) (k : K) : Option V :=
  match (step q (.getWake k none 0)).2 with
  | .value v => some v
  | _ => none

/-! ### Helper lemmas -/

theorem sees_eq (q : DQ K V) (k : K) : sees q k = q.items.get? k := by
  simp only [sees, step, getLoop]
  cases q.items.get? k <;> simp

theorem run_append (q : DQ K V) (es fs : List (Ev K V)) :
    run q (es ++ fs) =
      ((run (run q es).1 fs).1, (run q es).2 ++ (run (run q es).1 fs).2) := by
  induction es generalizing q with
  | nil => simp [run]
  | cons e es ih => simp [run, ih]

theorem run_invariant (m : Int) (t : Option Nat) (es : List (Ev K V)) :
    let r := run (DQ.new m t : DQ K V) es
    r.1.items.keys.Nodup ∧ r.1.maxsize = m ∧ (m > 0 → r.1.qsize ≤ m) ∧
    ∀ k, r.1.items.get? k = lastWrite r.2.reverse k := by
  induction es using List.reverseRecOn with
  | nil => simp [run, DQ.new, DQ.qsize, Dict.keys, Dict.get?, lastWrite]; omega
  | append_singleton es e ih =>
    simp only [run_append, run, List.append_nil, List.reverse_append, List.reverse_cons,
      List.reverse_nil, List.nil_append, List.cons_append] at ih ⊢
    obtain ⟨hn, hm, hs, hl⟩ := ih
    generalize run (DQ.new m t : DQ K V) es = r at *
    obtain ⟨q, tr⟩ := r
    simp only at *
    obtain ⟨h1, h2⟩ := step_items q e
    have hput : ∀ k v, (step q e).1.items = q.items.set k v →
        ¬ (q.maxsize > 0 ∧ q.qsize = q.maxsize) →
        (step q e).1.items.keys.Nodup ∧ (m > 0 → (step q e).1.qsize ≤ m) ∧
        ∀ k', (step q e).1.items.get? k' = if k' = k then some v else lastWrite tr.reverse k' := by
      intro k v hi hf
      refine ⟨by rw [hi]; exact Dict.nodup_set _ hn _ _, ?_, ?_⟩
      · intro hm0
        have hs := hs hm0
        have : (step q e).1.qsize ≤ q.qsize + 1 := by
          simp only [DQ.qsize, hi, Dict.length_set]
          split <;> omega
        have : ¬ q.qsize = m := by
          intro h; exact hf ⟨by omega, by omega⟩
        omega
      · intro k'; rw [hi, Dict.get?_set, hl]
    have hsame : (step q e).1.items = q.items →
        (step q e).1.items.keys.Nodup ∧ (m > 0 → (step q e).1.qsize ≤ m) ∧
        ∀ k', (step q e).1.items.get? k' = lastWrite tr.reverse k' := by
      intro hi
      refine ⟨by rw [hi]; exact hn, ?_, by intro k'; rw [hi, hl]⟩
      simpa [DQ.qsize, hi] using hs
    refine ⟨?_, by rw [h1, hm], ?_⟩
    · cases e with
      | clean k => simp only at h2; rw [h2]; exact Dict.nodup_del _ hn _
      | getCall k b t => exact (hsame h2).1
      | getWake k b t => exact (hsame h2).1
      | putCall k v b t =>
        generalize (step q (.putCall k v b t)).2 = o at *
        cases o <;> first
          | exact (hsame h2).1
          | exact (hput k v h2.1 h2.2).1
      | putWake k v b t =>
        generalize (step q (.putWake k v b t)).2 = o at *
        cases o <;> first
          | exact (hsame h2).1
          | exact (hput k v h2.1 h2.2).1
    · cases e with
      | clean k =>
        simp only at h2
        refine ⟨?_, ?_⟩
        · intro hm0
          have := hs hm0
          have h3 := Dict.length_del_le q.items k
          simp only [DQ.qsize, h2] at *
          omega
        · intro k'
          rw [h2, Dict.get?_del _ hn, hl, lastWrite]
      | getCall k b t => simpa [lastWrite] using (hsame h2).2
      | getWake k b t => simpa [lastWrite] using (hsame h2).2
      | putCall k v b t =>
        generalize (step q (.putCall k v b t)).2 = o at *
        cases o <;> first
          | (simpa [lastWrite] using (hsame h2).2)
          | (simpa [lastWrite] using (hput k v h2.1 h2.2).2)
      | putWake k v b t =>
        generalize (step q (.putWake k v b t)).2 = o at *
        cases o <;> first
          | (simpa [lastWrite] using (hsame h2).2)
          | (simpa [lastWrite] using (hput k v h2.1 h2.2).2)

theorem lastWrite_wasPut (h : List (Ev K V × Out V)) (k : K) (v : V)
    (hv : lastWrite h k = some v) : WasPut h k v := by
  induction h with
  | nil => simp [lastWrite] at hv
  | cons p h ih =>
    have lift : WasPut h k v → WasPut (p :: h) k v := by
      rintro (⟨b, t, hm⟩ | ⟨b, t, hm⟩)
      · exact .inl ⟨b, t, by simp [hm]⟩
      · exact .inr ⟨b, t, by simp [hm]⟩
    unfold lastWrite at hv
    split at hv
    · simp at *
    · rename_i heq; cases heq
      split at hv
      · cases hv; subst_vars; exact .inl ⟨_, _, List.mem_cons_self⟩
      · exact lift (ih hv)
    · rename_i heq; cases heq
      split at hv
      · cases hv; subst_vars; exact .inr ⟨_, _, List.mem_cons_self⟩
      · exact lift (ih hv)
    · rename_i heq; cases heq
      split at hv
      · cases hv
      · exact lift (ih hv)
    · rename_i heq; cases heq
      exact lift (ih hv)

/-! ### C01 -/

/-- **C01.** After any history `es` of events on a fresh queue, a reader of date
`k` (a blocking `get`, or any later wake-up of one) obtains `v` exactly when `v`
is the value of the newest completed put for `k` with no newer clean; it keeps
waiting (or times out) exactly when there is no such put. -/
theorem C01_get_returns_last_put (maxsize : Int) (timeout : Option Nat)
    (es : List (Ev K V)) (k : K) :
    let r := run (DQ.new maxsize timeout) es
    (∀ v, (∀ t, (step r.1 (.getCall k true t)).2 = .value v ↔ lastWrite r.2.reverse k = some v) ∧
      (∀ d e, (step r.1 (.getWake k d e)).2 = .value v ↔ lastWrite r.2.reverse k = some v)) ∧
    (∀ d e, ((∃ d', (step r.1 (.getWake k d e)).2 = .waiting d') ∨
        (step r.1 (.getWake k d e)).2 = .exited) ↔ lastWrite r.2.reverse k = none) := by
  have h := (run_invariant maxsize timeout es).2.2.2 k
  simp only at h ⊢
  rw [← h]
  generalize (run (DQ.new maxsize timeout : DQ K V) es).1 = q
  refine ⟨fun v => ⟨fun t => ?_, fun d e => ?_⟩, fun d e => ?_⟩
  · simp only [step, getLoop, setTimeout_items, if_true]
    cases hq : q.items.get? k with
    | some w => simp
    | none =>
      simp only [reduceCtorEq, iff_false]
      split
      · simp
      · split <;> simp
  · simp only [step, getLoop]
    cases hq : q.items.get? k with
    | some w => simp
    | none =>
      simp only [reduceCtorEq, iff_false]
      split
      · simp
      · split <;> simp
  · simp only [step, getLoop]
    cases hq : q.items.get? k with
    | some w => simp
    | none =>
      cases d with
      | none => simp
      | some d => by_cases hd : d ≤ e <;> simp [hd]

/-- Non-trivial instance: two dates, an overwrite and a clean. -/
example :
    let r := run (DQ.new 3 none : DQ Nat String)
      [.putCall 1 "a" true none, .putCall 2 "b" true none, .putCall 1 "c" true none, .clean 2]
    (step r.1 (.getCall 1 true none)).2 = .value "c" ∧
    (step r.1 (.getWake 2 none 0)).2 = .waiting none := by decide

/-! ### C02 -/

/-- **C02.** A queue created with capacity `n > 0` never holds more than `n`
dates; a queue with capacity `≤ 0` accepts every put at once. -/
theorem C02_bounded (maxsize : Int) (timeout : Option Nat) (es : List (Ev K V)) :
    let q := (run (DQ.new maxsize timeout) es).1
    q.items.keys.Nodup ∧
    (0 < maxsize → (q.items.keys.length : Int) ≤ maxsize) ∧
    (maxsize ≤ 0 → ∀ k v b t d e, (step q (.putCall k v b t)).2 = .stored ∧
        (step q (.putWake k v d e)).2 = .stored) := by
  obtain ⟨hn, hm, hs, -⟩ := run_invariant maxsize timeout es
  simp only at *
  refine ⟨hn, ?_, ?_⟩
  · intro h
    have := hs h
    simpa [DQ.qsize, Dict.keys] using this
  · intro h k v b t d e
    simp only [step, putLoop, putNonblock, hm]
    have : ¬ maxsize > 0 := by omega
    simp only [this, if_false]
    cases b <;> simp

/-- A full queue of capacity 2: the third put waits, and the bound is attained. -/
example :
    let r := run (DQ.new 2 none : DQ Nat String)
      [.putCall 1 "a" true none, .putCall 2 "b" true none, .putCall 3 "c" true none]
    r.1.items.keys.length = 2 ∧ (r.2.map Prod.snd) = [.stored, .stored, .waiting none] := by decide

/-! ### C03 -/

/-- Specification: event is (part of) a `get`. -/
def IsGet : Ev K V → Prop
  | .getCall .. => True
  | .getWake .. => True
  | _ => False

/-- Specification: the date a put event is about. -/
def PutDate : Ev K V → K → Prop
  | .putCall k _ _ _, k' => k = k'
  | .putWake k _ _ _, k' => k = k'
  | _, _ => False

/-- **C03.** In every reachable state: a get changes what no reader sees; a
clean of `k` removes exactly date `k`; cleaning an absent date changes nothing;
a put for `k` changes no other date. -/
theorem C03_frame (maxsize : Int) (timeout : Option Nat) (es : List (Ev K V)) :
    let q := (run (DQ.new maxsize timeout) es).1
    (∀ e, IsGet e → ∀ k, sees (step q e).1 k = sees q k) ∧
    (∀ k, sees (step q (.clean k)).1 k = none ∧
      (∀ k', k' ≠ k → sees (step q (.clean k)).1 k' = sees q k')) ∧
    (∀ k, sees q k = none → ∀ k', sees (step q (.clean k)).1 k' = sees q k') ∧
    (∀ e k, PutDate e k → ∀ k', k' ≠ k → sees (step q e).1 k' = sees q k') := by
  obtain ⟨hn, -, -, -⟩ := run_invariant maxsize timeout es
  simp only at *
  generalize (run (DQ.new maxsize timeout : DQ K V) es).1 = q at *
  simp only [sees_eq]
  refine ⟨?_, ?_, ?_, ?_⟩
  · intro e he k
    have h := (step_items q e).2
    cases e <;> simp only [IsGet] at he <;> simp only at h <;> rw [h]
  · intro k
    have h := (step_items q (.clean k)).2
    simp only at h
    refine ⟨by rw [h, Dict.get?_del _ hn]; simp, fun k' hk => by
      rw [h, Dict.get?_del _ hn]; simp [hk]⟩
  · intro k hk k'
    have h := (step_items q (.clean k)).2
    simp only at h
    rw [h, Dict.get?_del _ hn]
    split
    · subst_vars; exact hk.symm
    · rfl
  · intro e k hp k' hk
    have h := (step_items q e).2
    cases e with
    | putCall a v b t =>
      simp only [PutDate] at hp; subst hp
      generalize (step q (.putCall a v b t)).2 = o at h
      cases o <;> simp only at h <;> first
        | rw [h]
        | (rw [h.1, Dict.get?_set]; simp [hk])
    | putWake a v b t =>
      simp only [PutDate] at hp; subst hp
      generalize (step q (.putWake a v b t)).2 = o at h
      cases o <;> simp only at h <;> first
        | rw [h]
        | (rw [h.1, Dict.get?_set]; simp [hk])
    | _ => simp only [PutDate] at hp

example :
    let q := (run (DQ.new 0 none : DQ Nat String)
      [.putCall 1 "a" true none, .putCall 2 "b" true none]).1
    sees q 1 = some "a" ∧ sees (step q (.clean 1)).1 1 = none ∧
    sees (step q (.clean 1)).1 2 = some "b" ∧
    sees (step q (.getCall 1 true none)).1 1 = some "a" := by decide

/-! ### C04 -/

/-- How a caller perceives the end of a call: a get that returned `None` and a
put that was dropped both look like a normal return. -/
def SilentFailure (o : Out V) : Prop := o = .returnedNone ∨ o = .dropped

/-- **C04 (full claim, false).** No call ends in a silent failure. -/
def C04_full : Prop :=
  ∀ (maxsize : Int) (timeout : Option Nat) (es : List (Ev Nat Nat)) (e : Ev Nat Nat),
    ¬ SilentFailure (step (run (DQ.new maxsize timeout) es).1 e).2

/-- A non-blocking get for a missing date of a non-empty queue returns `None`. -/
theorem C04_get_nonblock_fails : ¬ C04_full := by
  intro h
  exact h 0 none [.putCall 1 7 true none] (.getCall 2 false none) (.inl (by decide))

/-- A non-blocking put on a full queue loses the value without telling. -/
theorem C04_put_nonblock_fails : ¬ C04_full := by
  intro h
  exact h 1 none [.putCall 1 7 true none] (.putCall 2 8 false none) (.inr (by decide))

/-- **C04, non-blocking calls, what holds.** A non-blocking get returns the value of its date exactly when
the queue holds one, and otherwise `None`; a non-blocking put makes its value visible exactly when the queue
is not full, and otherwise leaves the queue as it was. Missing: a failure is not told to the caller. -/
theorem C04_nonblock_partial (q : DQ K V) (k : K) (v : V) (d : Option Nat) :
    (∀ w, sees q k = some w → (step q (.getCall k false d)).2 = .value w) ∧
    (sees q k = none → (step q (.getCall k false d)).2 = .returnedNone) ∧
    (¬ (q.maxsize > 0 ∧ q.qsize = q.maxsize) →
      (step q (.putCall k v false d)).2 = .stored ∧ sees (step q (.putCall k v false d)).1 k = some v) ∧
    (q.maxsize > 0 ∧ q.qsize = q.maxsize → step q (.putCall k v false d) = (q, .dropped)) := by
  refine ⟨?_, ?_, ?_, ?_⟩
  · intro w hw
    rw [sees_eq] at hw
    have hit : q.items ≠ [] := by
      intro h; rw [h] at hw; simp [Dict.get?] at hw
    simp [step, getNonblock, setTimeout_items, DQ.qsize, hw, hit]
  · intro hw
    rw [sees_eq] at hw
    simp [step, getNonblock, setTimeout_items, hw]
  · intro h
    rcases putNonblock_cases q k v with ⟨h1, -⟩ | ⟨h1, h2, -⟩
    · simp [step, h1, sees_eq, DQ.store, Dict.get?_set]
    · exact absurd ⟨h1, h2⟩ h
  · intro h
    rcases putNonblock_cases q k v with ⟨-, h1⟩ | ⟨-, -, h1⟩
    · exact absurd h h1
    · simp [step, h1]

example : (step (⟨[(1, 7)], 1, none⟩ : DQ Nat Nat) (.getCall 1 false none)).2 = .value 7 ∧
    (step (⟨[(1, 7)], 1, none⟩ : DQ Nat Nat) (.putCall 2 8 false none)).2 = .dropped := by
  decide

/-- Specification: the event belongs to a blocking call (a wake-up is always part
of a blocking call). -/
def Blocking : Ev K V → Prop
  | .getCall _ b _ => b = true
  | .putCall _ _ b _ => b = true
  | _ => True

/-- **C04, blocking calls.** In every reachable state a blocking call never fails
silently: a get that returns gives a value some completed put stored for that
very date; a put that returns has made its value visible.  What is missing with
respect to the full claim: calls with `block=False`. -/
theorem C04_blocking_partial (maxsize : Int) (timeout : Option Nat) (es : List (Ev K V))
    (e : Ev K V) (hb : Blocking e) :
    let r := run (DQ.new maxsize timeout) es
    ¬ SilentFailure (step r.1 e).2 ∧
    (∀ k v, (step r.1 e).2 = .value v →
      (∃ b t, e = .getCall k b t) ∨ (∃ d el, e = .getWake k d el) → WasPut r.2 k v) ∧
    (∀ k v, (∃ b t, e = .putCall k v b t) ∨ (∃ d el, e = .putWake k v d el) →
      (step r.1 e).2 = .stored ∧ sees (step r.1 e).1 k = some v ∨
      (step r.1 e).2 = .exited ∨ ∃ d, (step r.1 e).2 = .waiting d) := by
  have h := (run_invariant maxsize timeout es).2.2.2
  simp only at h ⊢
  generalize hr : run (DQ.new maxsize timeout : DQ K V) es = r at *
  obtain ⟨q, tr⟩ := r
  simp only at h ⊢
  have hwas : ∀ k v, q.items.get? k = some v → WasPut tr k v := by
    intro k v hk
    rw [h] at hk
    have := lastWrite_wasPut _ _ _ hk
    simpa [WasPut] using this
  have hgl : ∀ (q' : DQ K V) k d el v, q'.items = q.items → getLoop q' k d el = .value v →
      q.items.get? k = some v := by
    intro q' k d el v hi hv
    unfold getLoop at hv
    rw [hi] at hv
    split at hv
    · simp_all
    · split at hv
      · cases hv
      · split at hv <;> cases hv
  have hsil : ∀ (q' : DQ K V) k d el, ¬ SilentFailure (getLoop q' k d el) := by
    intro q' k d el
    unfold getLoop SilentFailure
    split
    · simp
    · split
      · simp
      · split <;> simp
  have hput : ∀ k v d el, ¬ SilentFailure (putLoop q k v d el).2 ∧
      ((putLoop q k v d el).2 = .stored ∧ sees (putLoop q k v d el).1 k = some v ∨
      (putLoop q k v d el).2 = .exited ∨ ∃ d', (putLoop q k v d el).2 = .waiting d') := by
    intro k v d el
    rcases putLoop_cases q k v d el with ⟨h1, -⟩ | ⟨-, -, -, h3⟩
    · rw [h1]; simp [SilentFailure, sees_eq, DQ.store, Dict.get?_set]
    · rcases h3 with h3 | ⟨d', h3⟩ <;> rw [h3] <;> simp [SilentFailure]
  cases e with
  | getCall k b t =>
    simp only [Blocking] at hb; subst hb
    simp only [step, if_true]
    refine ⟨hsil _ _ _ _, ?_, ?_⟩
    · intro k' v hv hk'
      have : k' = k := by
        rcases hk' with ⟨b, t, hk'⟩ | ⟨b, t, hk'⟩ <;> cases hk'; rfl
      subst this
      exact hwas _ _ (hgl _ _ _ _ _ (setTimeout_items _ _) hv)
    · intro k' v hk'
      rcases hk' with ⟨b, t, hk'⟩ | ⟨b, t, hk'⟩ <;> cases hk'
  | getWake k d el =>
    simp only [step]
    refine ⟨hsil _ _ _ _, ?_, ?_⟩
    · intro k' v hv hk'
      have : k' = k := by
        rcases hk' with ⟨b, t, hk'⟩ | ⟨b, t, hk'⟩ <;> cases hk'; rfl
      subst this
      exact hwas _ _ (hgl _ _ _ _ _ rfl hv)
    · intro k' v hk'
      rcases hk' with ⟨b, t, hk'⟩ | ⟨b, t, hk'⟩ <;> cases hk'
  | putCall k v b t =>
    simp only [Blocking] at hb; subst hb
    simp only [step, if_true]
    refine ⟨(hput k v _ _).1, ?_, ?_⟩
    · intro k' v' _ hk'
      rcases hk' with ⟨b, t, hk'⟩ | ⟨b, t, hk'⟩ <;> cases hk'
    · intro k' v' hk'
      rcases hk' with ⟨b, t, hk'⟩ | ⟨b, t, hk'⟩ <;> cases hk'
      exact (hput _ _ _ _).2
  | putWake k v d el =>
    simp only [step]
    refine ⟨(hput k v _ _).1, ?_, ?_⟩
    · intro k' v' _ hk'
      rcases hk' with ⟨b, t, hk'⟩ | ⟨b, t, hk'⟩ <;> cases hk'
    · intro k' v' hk'
      rcases hk' with ⟨b, t, hk'⟩ | ⟨b, t, hk'⟩ <;> cases hk'
      exact (hput _ _ _ _).2
  | clean k =>
    simp only [step]
    refine ⟨by simp [SilentFailure], by simp, ?_⟩
    intro k' v' hk'
    rcases hk' with ⟨b, t, hk'⟩ | ⟨b, t, hk'⟩ <;> cases hk'

example : Blocking (.getCall 1 true (some 5) : Ev Nat Nat) ∧
    (step (run (DQ.new 1 none : DQ Nat Nat) [.putCall 1 7 true none]).1
      (.getCall 1 true (some 5))).2 = .value 7 := ⟨rfl, by decide⟩

/-! ### C05 -/

/-- **C05 (full claim, first half, false).** A call never changes the timeout
later calls will use. -/
def C05_local : Prop :=
  ∀ (q : DQ Nat Nat) (e : Ev Nat Nat), (step q e).1.timeout = q.timeout

/-- **C05 (full claim, second half, false).** The deadline a call waits for is
the one given to that call, when one is given. -/
def C05_honoured : Prop :=
  ∀ (q : DQ Nat Nat) (e : Ev Nat Nat) (t : Nat) (d : Option Nat),
    (∃ k, e = .getCall k true (some t)) ∨ (∃ k v, e = .putCall k v true (some t)) →
    (step q e).2 = .waiting d → d = some t

/-- `get(..., timeout=5)` on a queue without timeout leaves timeout 5 behind. -/
theorem C05_local_fails : ¬ C05_local := by
  intro h
  have := h (DQ.new 0 none) (.getCall 1 true (some 5))
  revert this; decide

/-- `put(..., timeout=5)` on a full queue without timeout waits forever. -/
theorem C05_honoured_fails : ¬ C05_honoured := by
  intro h
  have := h ⟨[(1, 1)], 1, none⟩ (.putCall 2 2 true (some 5)) 5 none (.inr ⟨2, 2, rfl⟩) (by decide)
  cases this

/-- Specification: the event passes no timeout argument to `get`. -/
def NoGetTimeout : Ev K V → Prop
  | .getCall _ _ (some _) => False
  | _ => True

/-- **C05, provable part.** (1) A history without `get(timeout=...)` leaves the
queue's timeout as configured.  (2) A `get` with a timeout waits for that
deadline.  (3) A wake-up at or after its deadline never waits again: the call
returns or exits.  (4) Without a deadline a call never exits.  Missing: the
locality of a get timeout and any effect of a put timeout. -/
theorem C05_timeout_partial :
    (∀ (q : DQ K V) (es : List (Ev K V)), (∀ e ∈ es, NoGetTimeout e) →
      (run q es).1.timeout = q.timeout) ∧
    (∀ (q : DQ K V) k t d, (step q (.getCall k true (some t))).2 = .waiting d → d = some t) ∧
    (∀ (q : DQ K V) k v d el d', d ≤ el →
      (step q (.getWake k (some d) el)).2 ≠ .waiting d' ∧
      (step q (.putWake k v (some d) el)).2 ≠ .waiting d') ∧
    (∀ (q : DQ K V) k v el,
      (step q (.getWake k none el)).2 ≠ .exited ∧ (step q (.putWake k v none el)).2 ≠ .exited) := by
  refine ⟨?_, ?_, ?_, ?_⟩
  · intro q es
    induction es generalizing q with
    | nil => simp [run]
    | cons e es ih =>
      intro h
      have h1 := ih (step q e).1 (fun e' he' => h e' (by simp [he']))
      simp only [run]
      rw [h1]
      have h2 := h e (by simp)
      cases e with
      | getCall k b t =>
        cases t with
        | some t => simp [NoGetTimeout] at h2
        | none => cases b <;> simp [step, DQ.setTimeout]
      | getWake => simp [step]
      | putCall k v b t =>
        cases b
        · simp only [step, Bool.false_eq_true, if_false]
          rcases putNonblock_cases q k v with ⟨h, -⟩ | ⟨-, -, h⟩ <;> rw [h]; rfl
        · simp only [step, if_true]
          rcases putLoop_cases q k v q.timeout 0 with ⟨h, -⟩ | ⟨-, -, h, -⟩ <;> rw [h]; rfl
      | putWake k v d el =>
        simp only [step]
        rcases putLoop_cases q k v d el with ⟨h, -⟩ | ⟨-, -, h, -⟩ <;> rw [h]; rfl
      | clean => simp [step]
  · intro q k t d h
    simp only [step, DQ.setTimeout, getLoop, if_true] at h
    split at h
    · cases h
    · split at h <;> cases h; rfl
  · intro q k v d el d' hd
    simp only [step, getLoop, putLoop, hd, if_true]
    refine ⟨?_, ?_⟩
    · split <;> simp
    · split
      · split <;> simp
      · simp
  · intro q k v el
    simp only [step, getLoop, putLoop]
    refine ⟨?_, ?_⟩
    · split <;> simp
    · split
      · split <;> simp
      · simp

example : (step (DQ.new 0 (some 9) : DQ Nat Nat) (.getCall 1 true (some 5))).2 = .waiting (some 5) ∧
    (step (DQ.new 0 (some 9) : DQ Nat Nat) (.getWake 1 (some 5) 5)).2 = .exited ∧
    (step (DQ.new 0 (some 9) : DQ Nat Nat) (.getWake 1 (some 5) 4)).2 = .waiting (some 5) := by
  decide

end Verif.Queue
