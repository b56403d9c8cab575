import Verif.Queue

/-! Helper lemmas about the association-list dictionary and `step`. -/

namespace Verif.Queue
variable {K V : Type} [DecidableEq K]

namespace Dict

theorem get?_eq_none_iff (d : Dict K V) (k : K) : d.get? k = none ↔ k ∉ d.keys := by
  induction d with
  | nil => simp [get?, keys]
  | cons p d ih =>
    obtain ⟨k', v⟩ := p
    simp only [get?, keys, List.map_cons, List.mem_cons, not_or] at *
    split
    · simp_all
    · rename_i h; simp [ih, Ne.symm h, eq_comm]

theorem get?_set (d : Dict K V) (k k' : K) (v : V) :
    (d.set k v).get? k' = if k' = k then some v else d.get? k' := by
  induction d with
  | nil => simp [set, get?, eq_comm]
  | cons p d ih =>
    obtain ⟨a, w⟩ := p
    simp only [set]
    split
    · subst_vars
      simp only [get?]
      by_cases h : k' = a
      · subst h; simp
      · simp [h, Ne.symm h]
    · simp only [get?, ih]
      rename_i h
      by_cases h2 : a = k'
      · subst h2; simp [h]
      · simp [h2]

theorem keys_set (d : Dict K V) (k : K) (v : V) :
    (d.set k v).keys = if k ∈ d.keys then d.keys else d.keys ++ [k] := by
  induction d with
  | nil => simp [set, keys]
  | cons p d ih =>
    obtain ⟨a, w⟩ := p
    simp only [set]
    split
    · subst_vars; simp [keys]
    · rename_i h
      simp only [keys, List.map_cons] at *
      rw [ih]
      simp only [List.mem_cons, Ne.symm h, eq_comm, false_or]
      split <;> simp_all

theorem keys_del_sublist (d : Dict K V) (k : K) : (d.del k).keys.Sublist d.keys := by
  induction d with
  | nil => simp [del, keys]
  | cons p d ih =>
    obtain ⟨a, w⟩ := p
    simp only [del]
    split
    · simp [keys]
    · simp only [keys, List.map_cons] at *
      exact ih.cons_cons a

theorem get?_del (d : Dict K V) (hd : d.keys.Nodup) (k k' : K) :
    (d.del k).get? k' = if k' = k then none else d.get? k' := by
  induction d with
  | nil => simp [del, get?]
  | cons p d ih =>
    obtain ⟨a, w⟩ := p
    simp only [keys, List.map_cons, List.nodup_cons] at hd
    simp only [del]
    split
    · subst_vars
      by_cases h : k' = a
      · subst h
        simpa [get?_eq_none_iff, keys] using hd.1
      · simp [h, get?, Ne.symm h]
    · rename_i h
      simp only [get?]
      rw [ih hd.2]
      by_cases h2 : a = k'
      · subst h2; simp [h]
      · simp [h2]

theorem nodup_set (d : Dict K V) (hd : d.keys.Nodup) (k : K) (v : V) :
    (d.set k v).keys.Nodup := by
  rw [keys_set]
  split
  · exact hd
  · rename_i h
    rw [List.nodup_append]
    refine ⟨hd, by simp, ?_⟩
    intro a ha b hb
    simp at hb; subst hb
    exact fun e => h (e ▸ ha)

theorem nodup_del (d : Dict K V) (hd : d.keys.Nodup) (k : K) : (d.del k).keys.Nodup :=
  hd.sublist (keys_del_sublist d k)

theorem length_set (d : Dict K V) (k : K) (v : V) :
    (d.set k v).length = if k ∈ d.keys then d.length else d.length + 1 := by
  have h := congrArg List.length (keys_set d k v)
  simp only [keys, List.length_map] at h
  rw [h]
  by_cases hk : k ∈ List.map Prod.fst d <;> simp [hk, keys]

theorem length_del_le (d : Dict K V) (k : K) : (d.del k).length ≤ d.length := by
  have := (keys_del_sublist d k).length_le
  simpa [keys] using this

end Dict

/-- `putLoop` and `putNonblock` either leave the queue alone or store. -/
theorem putLoop_cases (q : DQ K V) (k : K) (v : V) (dl : Option Nat) (el : Nat) :
    (putLoop q k v dl el = (q.store k v, .stored) ∧ ¬ (q.maxsize > 0 ∧ q.qsize = q.maxsize)) ∨
    (q.maxsize > 0 ∧ q.qsize = q.maxsize ∧ (putLoop q k v dl el).1 = q ∧
      ((putLoop q k v dl el).2 = .exited ∨ ∃ d, (putLoop q k v dl el).2 = .waiting d)) := by
  unfold putLoop
  split
  · split
    · right
      refine ⟨‹_›, ‹_›, ?_⟩
      split
      · simp
      · split <;> simp
    · left; simp_all
  · left; refine ⟨rfl, ?_⟩; omega

theorem putNonblock_cases (q : DQ K V) (k : K) (v : V) :
    (putNonblock q k v = (q.store k v, .stored) ∧ ¬ (q.maxsize > 0 ∧ q.qsize = q.maxsize)) ∨
    (q.maxsize > 0 ∧ q.qsize = q.maxsize ∧ putNonblock q k v = (q, .dropped)) := by
  unfold putNonblock
  split
  · split <;> simp_all
  · left; refine ⟨rfl, ?_⟩; omega

omit [DecidableEq K] in
@[simp] theorem setTimeout_items (q : DQ K V) (t : Option Nat) :
    (q.setTimeout t).items = q.items := by
  cases t <;> rfl

omit [DecidableEq K] in
@[simp] theorem setTimeout_maxsize (q : DQ K V) (t : Option Nat) :
    (q.setTimeout t).maxsize = q.maxsize := by
  cases t <;> rfl

theorem getLoop_not_stored (q : DQ K V) (k : K) (dl : Option Nat) (el : Nat) :
    getLoop q k dl el ≠ .stored ∧ getLoop q k dl el ≠ .cleaned := by
  unfold getLoop
  split
  · simp
  · split
    · simp
    · split <;> simp

theorem getNonblock_not_stored (q : DQ K V) (k : K) :
    getNonblock q k ≠ .stored ∧ getNonblock q k ≠ .cleaned := by
  unfold getNonblock
  split
  · simp
  · split <;> simp

/-- Summary of the effect of one event on the items. -/
theorem step_items (q : DQ K V) (e : Ev K V) :
    (step q e).1.maxsize = q.maxsize ∧
    match e, (step q e).2 with
    | .putCall k v _ _, .stored => (step q e).1.items = q.items.set k v ∧
        ¬ (q.maxsize > 0 ∧ q.qsize = q.maxsize)
    | .putWake k v _ _, .stored => (step q e).1.items = q.items.set k v ∧
        ¬ (q.maxsize > 0 ∧ q.qsize = q.maxsize)
    | .clean k, _ => (step q e).1.items = q.items.del k
    | _, _ => (step q e).1.items = q.items := by
  cases e with
  | getCall k b t =>
    simp only [step]
    cases b <;> simp
  | getWake k dl el => simp [step]
  | putCall k v b t =>
    simp only [step]
    cases b
    · simp only [Bool.false_eq_true, if_false]
      rcases putNonblock_cases q k v with ⟨h, h'⟩ | ⟨h1, h2, h⟩
      · rw [h]; simpa [DQ.store] using h'
      · rw [h]; simp
    · simp only [if_true]
      rcases putLoop_cases q k v q.timeout 0 with ⟨h, h'⟩ | ⟨h1, h2, h, h4⟩
      · rw [h]; simpa [DQ.store] using h'
      · rw [h]
        rcases h4 with h4 | ⟨d, h4⟩ <;> rw [h4] <;> simp
  | putWake k v dl el =>
    simp only [step]
    rcases putLoop_cases q k v dl el with ⟨h, h'⟩ | ⟨h1, h2, h, h4⟩
    · rw [h]; simpa [DQ.store] using h'
    · rw [h]
      rcases h4 with h4 | ⟨d, h4⟩ <;> rw [h4] <;> simp
  | clean k => simp [step]

end Verif.Queue
