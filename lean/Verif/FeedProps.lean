import Verif.Feed
import Verif.QueueLemmas
import Mathlib.Tactic.Linarith
import Mathlib.Data.List.TakeDrop

/-!
C130: each time step uses the input of its own date.
-/

namespace Verif.Feed

variable {R : Type}

/-! ### Specification -/

/-- The index does not decrease. -/
def Sorted (d : Frame R) : Prop := d.Pairwise fun a b => a.1 ≤ b.1

/-- The index increases. -/
def Increasing (d : Frame R) : Prop := d.Pairwise fun a b => a.1 < b.1

/-- Of the loaded rows, `r` is the only one with the date `t`, and `t` is in the period of the run. -/
def Only (start stop : Int) (d : Frame R) (t : Int) (r : R) : Prop :=
  start ≤ t ∧ t ≤ stop ∧ ∃ l₁ l₂, d = l₁ ++ (t, r) :: l₂ ∧ ∀ q ∈ l₁ ++ l₂, q.1 ≠ t

/-- No loaded row has the date `t`, or `t` is not in the period of the run. -/
def Absent (start stop : Int) (d : Frame R) (t : Int) : Prop := ¬ (start ≤ t ∧ t ≤ stop) ∨ ∀ q ∈ d, q.1 ≠ t

/-! ### Lemmas -/

theorem window_eq (start stop : Int) (d : Frame R) (hs : Sorted d) :
    window start stop d = d.filter fun r => decide (start ≤ r.1 ∧ r.1 ≤ stop) := by
  unfold window
  simp only
  induction d with
  | nil => rfl
  | cons a d ih =>
    rw [Sorted, List.pairwise_cons] at hs
    have ih := ih hs.2
    rw [List.findIdx_cons, List.findIdx_cons, List.filter_cons]
    by_cases h1 : start ≤ a.1
    · simp only [h1, decide_true, cond_true, List.drop_zero, Nat.sub_zero, true_and]
      by_cases h2 : stop < a.1
      · have h2' : ¬ a.1 ≤ stop := by omega
        simp only [h2, h2', decide_true, decide_false, cond_true, List.take_zero, Bool.false_eq_true, if_false]
        symm
        rw [List.filter_eq_nil_iff]
        intro q hq
        have := hs.1 q hq
        simp only [decide_eq_true_iff]
        omega
      · have h2' : a.1 ≤ stop := by omega
        have h0 : d.findIdx (fun r => decide (start ≤ r.1)) = 0 := by
          cases d with
          | nil => rfl
          | cons b d =>
            have := hs.1 b (by simp)
            rw [List.findIdx_cons]
            have : start ≤ b.1 := by omega
            simp [this]
        rw [h0, List.drop_zero, Nat.sub_zero] at ih
        simp only [h2, h2', decide_true, decide_false, cond_false, List.take_succ_cons, if_true]
        rw [ih]
    · by_cases h2 : stop < a.1
      · simp only [h1, h2, decide_true, decide_false, cond_true, cond_false, false_and, Bool.false_eq_true, if_false, Nat.zero_sub,
          List.take_zero]
        symm
        rw [List.filter_eq_nil_iff]
        intro q hq
        have := hs.1 q hq
        simp only [decide_eq_true_iff]
        omega
      · simp only [h1, h2, decide_false, cond_false, false_and, Bool.false_eq_true, if_false, List.drop_succ_cons, Nat.add_sub_add_right]
        exact ih

theorem mem_window (start stop : Int) (d : Frame R) (hs : Sorted d) (t : Int) :
    (window start stop d).filter (fun r => decide (r.1 = t)) =
      if start ≤ t ∧ t ≤ stop then d.filter (fun r => decide (r.1 = t)) else [] := by
  rw [window_eq start stop d hs, List.filter_filter]
  split
  · apply List.filter_congr
    intro q _
    by_cases h : q.1 = t
    · subst h; simp [*]
    · simp [h]
  · rename_i hn
    rw [List.filter_eq_nil_iff]
    intro q _
    by_cases h : q.1 = t
    · subst h; simp [hn]
    · simp [h]

/-- Only one row of the date is left by the filter. -/
theorem only_filter (d : Frame R) (t : Int) (r : R) :
    d.filter (fun q => decide (q.1 = t)) = [(t, r)] ↔ ∃ l₁ l₂, d = l₁ ++ (t, r) :: l₂ ∧ ∀ q ∈ l₁ ++ l₂, q.1 ≠ t := by
  constructor
  · intro h
    rw [List.filter_eq_cons_iff] at h
    obtain ⟨l₁, l₂, e, h1, -, h2⟩ := h
    refine ⟨l₁, l₂, e, fun q hq => ?_⟩
    rcases List.mem_append.1 hq with hq | hq
    · simpa using h1 q hq
    · simpa using List.filter_eq_nil_iff.1 h2 q hq
  · rintro ⟨l₁, l₂, rfl, h⟩
    rw [List.filter_append, List.filter_cons, if_pos (by simp), List.filter_eq_nil_iff.2, List.filter_eq_nil_iff.2]
    · rfl
    · intro q hq; simpa using h q (by simp [hq])
    · intro q hq; simpa using h q (by simp [hq])

/-- The last row of a date. -/
def lastOf (d : Frame R) (t : Int) : Option R := (d.filter fun r => decide (r.1 = t)).getLast?.map Prod.snd

theorem fill_items (timeout : Option Nat) (d : Frame R) :
    (fill timeout (some d)).timeout = timeout ∧ ∀ t, (fill timeout (some d)).items.get? t = lastOf d t := by
  have key : ∀ (d : Frame R) (q : Queue.DQ Int R), q.maxsize = 0 →
      let q' := d.foldl (fun q r => (Queue.step q (.putCall r.1 r.2 true none)).1) q
      q'.timeout = q.timeout ∧ ∀ t, q'.items.get? t = (lastOf d t).or (q.items.get? t) := by
    intro d
    induction d with
    | nil => intro q _; exact ⟨rfl, fun t => rfl⟩
    | cons a d ih =>
      intro q hq
      have e : (Queue.step q (.putCall a.1 a.2 true none)).1 = q.store a.1 a.2 := by
        simp [Queue.step, Queue.putLoop, hq]
      rw [List.foldl_cons, e]
      obtain ⟨h1, h2⟩ := ih (q.store a.1 a.2) hq
      refine ⟨h1, fun t => ?_⟩
      rw [h2 t]
      unfold Queue.DQ.store
      simp only
      rw [Queue.Dict.get?_set]
      unfold lastOf
      rw [List.filter_cons]
      by_cases h : a.1 = t
      · rw [if_pos h.symm, if_pos (by simp [h])]
        cases d.filter (fun r => decide (r.1 = t)) with
        | nil => rfl
        | cons b l =>
          rw [List.getLast?_cons_cons, List.getLast?_cons]
          rfl
      · rw [if_neg (Ne.symm h), if_neg (by simp [h])]
  obtain ⟨h1, h2⟩ := key d (Queue.DQ.new 0 timeout) rfl
  refine ⟨h1, fun t => ?_⟩
  rw [show (fill timeout (some d)).items.get? t = _ from h2 t]
  cases lastOf d t <;> rfl

/-- The outcome of a call of `get`. -/
def answer (timeout : Option Nat) (elapsed : Nat) : Option R → Queue.Out R
  | some v => .value v
  | none => match timeout with
    | none => .waiting none
    | some s => if s ≤ elapsed then .exited else .waiting (some s)

theorem get_eq (q : Queue.DQ Int R) (t : Int) (elapsed : Nat) : get q t elapsed = answer q.timeout elapsed (q.items.get? t) := by
  unfold get answer
  simp only [Queue.step, Queue.DQ.setTimeout, Queue.getLoop, if_true]
  cases q.items.get? t with
  | some v => rfl
  | none =>
    cases q.timeout with
    | none => by_cases h : elapsed = 0 <;> simp [h]
    | some s =>
      by_cases hs : s = 0
      · simp [hs]
      · simp only [show ¬ s ≤ 0 by omega, if_false]
        by_cases h : elapsed = 0
        · simp [h, show ¬ s ≤ 0 by omega]
        · simp [h]

/-! ### What is true -/

/-- Serial: a step gets a row exactly if it is the only one loaded with the date of the step (in the period of the
run); a date without row ends the run with an exception, and so does a variable that was not loaded. -/
theorem C130_serial (start stop : Int) (d : Frame R) (hs : Sorted d) (t : Int) :
    (∀ r, loc (setVariable start stop (some d)) t = .row r ↔ Only start stop d t r) ∧
    (loc (setVariable start stop (some d)) t = .keyError ↔ Absent start stop d t) ∧
    loc (setVariable start stop (none : Option (Frame R))) t = .attributeError := by
  have e : loc (setVariable start stop (some d)) t =
      match (if start ≤ t ∧ t ≤ stop then d.filter (fun r => decide (r.1 = t)) else []).map Prod.snd with
      | [] => .keyError
      | [r] => .row r
      | rs => .frame rs := by
    rw [← mem_window start stop d hs t]
    rfl
  refine ⟨fun r => ?_, ?_, rfl⟩
  · rw [e]
    unfold Only
    by_cases hp : start ≤ t ∧ t ≤ stop
    · rw [if_pos hp, ← only_filter]
      simp only [hp.1, hp.2, true_and]
      cases hd : d.filter (fun r => decide (r.1 = t)) with
      | nil => simp
      | cons a l =>
        have ha : a.1 = t := by
          have : a ∈ d.filter (fun r => decide (r.1 = t)) := by rw [hd]; simp
          simpa using (List.mem_filter.1 this).2
        cases l with
        | nil =>
          obtain ⟨x, y⟩ := a
          simp only at ha
          subst ha
          simp
        | cons b l => simp
    · rw [if_neg hp]
      simp only [List.map_nil]
      constructor
      · intro h; cases h
      · rintro ⟨h1, h2, -⟩; exact absurd ⟨h1, h2⟩ hp
  · rw [e]
    unfold Absent
    by_cases hp : start ≤ t ∧ t ≤ stop
    · rw [if_pos hp]
      simp only [hp, and_self, not_true, false_or]
      have : (∀ q ∈ d, q.1 ≠ t) ↔ d.filter (fun r => decide (r.1 = t)) = [] := by
        rw [List.filter_eq_nil_iff]; simp
      rw [this]
      cases d.filter (fun r => decide (r.1 = t)) with
      | nil => simp
      | cons a l => cases l <;> simp
    · rw [if_neg hp]
      simp [hp]

/-- Threaded: with dates that increase, a step gets at once, however long it waits, the row of its date, and never
another one; with a time-out a date without row, or a variable that was not loaded, ends the run. -/
theorem C130_threaded_partial (start stop : Int) (d : Frame R) (hs : Increasing d) (timeout : Option Nat) (t : Int) (elapsed : Nat) :
    (∀ r, get (fill timeout (setVariable start stop (some d))) t elapsed = .value r ↔ Only start stop d t r) ∧
    (∀ s, timeout = some s → s ≤ elapsed → (get (fill timeout (setVariable start stop (some d))) t elapsed = .exited ↔ Absent start stop d t) ∧
      get (fill timeout (setVariable start stop (none : Option (Frame R)))) t elapsed = .exited) := by
  have hs' : Sorted d := hs.imp fun h => le_of_lt h
  obtain ⟨h1, h2⟩ := fill_items timeout (window start stop d)
  have hcases : ∀ l : Frame R, l = d.filter (fun r => decide (r.1 = t)) → l = [] ∨ ∃ r, l = [(t, r)] := by
    intro l hl
    match l, hl with
    | [], _ => exact .inl rfl
    | [a], hl =>
      have : a ∈ d.filter (fun r => decide (r.1 = t)) := by rw [← hl]; simp
      have : a.1 = t := by simpa using (List.mem_filter.1 this).2
      exact .inr ⟨a.2, by rw [← this]⟩
    | a :: b :: l, hl =>
      have hp : (a :: b :: l).Pairwise fun a b => a.1 < b.1 := by rw [hl]; exact hs.filter _
      have h1 : ∀ q ∈ a :: b :: l, q.1 = t := fun q hq => by
        rw [hl] at hq; simpa using (List.mem_filter.1 hq).2
      have := (List.pairwise_cons.1 hp).1 b (by simp)
      rw [h1 a (by simp), h1 b (by simp)] at this
      exact absurd this (lt_irrefl _)
  have e : get (fill timeout (setVariable start stop (some d))) t elapsed = answer timeout elapsed (lastOf (window start stop d) t) := by
    have hset : setVariable start stop (some d) = some (window start stop d) := rfl
    rw [hset, get_eq, h1, h2]
  have hlast : ∀ r, lastOf (window start stop d) t = some r ↔ Only start stop d t r := by
    intro r
    unfold lastOf Only
    rw [mem_window start stop d hs' t]
    by_cases hp : start ≤ t ∧ t ≤ stop
    · rw [if_pos hp, ← only_filter]
      simp only [hp.1, hp.2, true_and]
      rcases hcases _ rfl with h | ⟨r', h⟩
      · rw [h]; simp
      · rw [h]; simp
    · rw [if_neg hp]
      constructor
      · intro h; cases h
      · rintro ⟨a, b, -⟩; exact absurd ⟨a, b⟩ hp
  refine ⟨fun r => ?_, fun s hts hse => ⟨?_, ?_⟩⟩
  · rw [← hlast r, e]
    cases lastOf (window start stop d) t with
    | some v => simp [answer]
    | none =>
      cases timeout with
      | none => simp [answer]
      | some s => by_cases h : s ≤ elapsed <;> simp [answer, h]
  · rw [e, ← (C130_serial start stop d hs' t).2.1]
    have hloc : loc (setVariable start stop (some d)) t = .keyError ↔ lastOf (window start stop d) t = none := by
      unfold loc setVariable lastOf
      simp only [Option.map_some]
      cases (window start stop d).filter (fun r => decide (r.1 = t)) with
      | nil => simp
      | cons a l => cases l <;> simp [List.getLast?_cons]
    rw [hloc]
    cases lastOf (window start stop d) t with
    | some v => simp [answer]
    | none => subst hts; simp [answer, hse]
  · rw [get_eq]
    subst hts
    simp [answer, setVariable, fill, Queue.DQ.new, Queue.Dict.get?, hse]

/-- The full claim: in the threaded run, too, a step gets the row of its date, or the run ends some time after the
call, whatever was loaded. -/
def C130_full : Prop := ∀ (timeout : Option Nat) (start stop : Int) (d : Option (Frame Nat)) (t : Int),
  (∃ r, loc (setVariable start stop d) t = .row r ∧ ∀ elapsed, get (fill timeout (setVariable start stop d)) t elapsed = .value r) ∨
  ((∀ r, loc (setVariable start stop d) t ≠ .row r) ∧
    ∃ wait, ∀ elapsed, wait ≤ elapsed → get (fill timeout (setVariable start stop d)) t elapsed = .exited)

/-- Without a time-out, which is the default, a date without row, or a variable that was not loaded, makes the
threaded run wait for ever, where the serial run ends with an exception. -/
theorem C130_hang_fails (start stop : Int) (d : Frame R) (hs : Sorted d) (t : Int) (ha : Absent start stop d t) (elapsed : Nat) :
    get (fill none (setVariable start stop (some d))) t elapsed = .waiting none ∧
    get (fill none (setVariable start stop (none : Option (Frame R)))) t elapsed = .waiting none := by
  obtain ⟨h1, h2⟩ := fill_items none (window start stop d)
  constructor
  · have hset : setVariable start stop (some d) = some (window start stop d) := rfl
    rw [hset, get_eq, h1, h2]
    have : lastOf (window start stop d) t = none := by
      have := (C130_serial start stop d hs t).2.1.2 ha
      unfold loc setVariable at this
      simp only [Option.map_some] at this
      unfold lastOf
      cases hd : (window start stop d).filter (fun r => decide (r.1 = t)) with
      | nil => rfl
      | cons a l =>
        rw [hd] at this
        cases l <;> cases this
    rw [this]
    rfl
  · rw [get_eq]
    rfl

/-- A date with several rows: the serial run hands a frame of all of them to the distribution, the threaded run
the last row. -/
theorem C130_duplicate_fails (start stop : Int) (d : Frame R) (hs : Sorted d) (t : Int) (hp : start ≤ t ∧ t ≤ stop)
    (l₁ l₂ l₃ : Frame R) (r r' : R) (hd : d = l₁ ++ (t, r) :: l₂ ++ (t, r') :: l₃) (hl : ∀ q ∈ l₃, q.1 ≠ t) (timeout : Option Nat)
    (elapsed : Nat) :
    (∃ rs, loc (setVariable start stop (some d)) t = .frame rs ∧ 2 ≤ rs.length ∧ r ∈ rs ∧ r' ∈ rs) ∧
    get (fill timeout (setVariable start stop (some d))) t elapsed = .value r' := by
  have hf : (window start stop d).filter (fun q => decide (q.1 = t)) =
      l₁.filter (fun q => decide (q.1 = t)) ++ (t, r) :: l₂.filter (fun q => decide (q.1 = t)) ++ [(t, r')] := by
    rw [mem_window start stop d hs t, if_pos hp, hd, List.filter_append, List.filter_append, List.filter_cons, if_pos (by simp),
      List.filter_cons, if_pos (by simp),
      show l₃.filter (fun q => decide (q.1 = t)) = [] from List.filter_eq_nil_iff.2 fun q hq => by simpa using hl q hq]
  constructor
  · refine ⟨((window start stop d).filter (fun q => decide (q.1 = t))).map Prod.snd, ?_, ?_, ?_, ?_⟩
    · unfold loc setVariable
      simp only [Option.map_some]
      rw [hf]
      cases l₁.filter (fun q => decide (q.1 = t)) with
      | nil =>
        cases l₂.filter (fun q => decide (q.1 = t)) with
        | nil => rfl
        | cons a l => rfl
      | cons a l =>
        cases l with
        | nil => rfl
        | cons b l => rfl
    · rw [hf]; simp; omega
    · rw [hf]; simp
    · rw [hf]; simp
  · obtain ⟨h1, h2⟩ := fill_items timeout (window start stop d)
    have hset : setVariable start stop (some d) = some (window start stop d) := rfl
    rw [hset, get_eq, h2]
    unfold lastOf
    rw [hf, List.getLast?_append]
    rfl

theorem C130_fails : ¬ C130_full := by
  intro h
  rcases h none 0 10 (some [(0, 5), (7, 6)]) 3 with ⟨r, hr, -⟩ | ⟨-, w, hw⟩
  · have : loc (setVariable 0 10 (some [((0 : Int), 5), (7, 6)])) 3 = .keyError := by decide
    rw [this] at hr
    cases hr
  · have := (C130_hang_fails 0 10 [((0 : Int), 5), (7, 6)] (by unfold Sorted; decide) 3 (.inr (by decide)) w).1
    rw [hw w le_rfl] at this
    cases this

/-- Hourly rows, with a gap at 2 and a row after the run; and the doubled hour of another file. -/
example : let d : Frame Char := [(-1, 'z'), (0, 'a'), (1, 'b'), (3, 'd'), (9, 'e')]
    Increasing d ∧ Only 0 3 d 1 'b' ∧ Absent 0 3 d 2 ∧ Absent 0 3 d 9 ∧
    loc (setVariable 0 3 (some d)) 3 = .row 'd' ∧ get (fill (some 60) (setVariable 0 3 (some d))) 2 59 = .waiting (some 60) ∧
    get (fill (some 60) (setVariable 0 3 (some d))) 2 60 = .exited ∧
    loc (setVariable 0 3 (some [((0 : Int), 'a'), (1, 'b'), (1, 'c')])) 1 = .frame ['b', 'c'] := by
  refine ⟨by unfold Increasing; decide, ⟨by decide, by decide, [(-1, 'z'), (0, 'a')], [(3, 'd'), (9, 'e')], rfl, by decide⟩,
    .inr (by decide), .inl (by decide), by decide, by decide, by decide, by decide⟩

end Verif.Feed
