import Verif.Zone
import Verif.OutputProps
import Verif.CalendarProps
import Mathlib.Tactic.Linarith

/-! Lemmas on zones. -/

namespace Verif.Zone

open Verif.Calendar

theorem offset_mem (z : Tz) (t : Int) : z.offset t ∈ z.first :: z.changes.map Change.offset := by
  unfold Tz.offset
  cases h : z.last t with
  | none => simp
  | some c =>
    have : c ∈ z.changes := by
      unfold Tz.last at h
      exact (List.mem_filter.1 (List.mem_of_getLast? h)).1
    simp only [List.mem_cons, List.mem_map]
    exact Or.inr ⟨c, this, rfl⟩

theorem mem_instants (z : Tz) (n t : Int) : t ∈ z.instants n ↔ z.wall t = n := by
  unfold Tz.instants
  simp only [List.mem_filter, List.mem_map, List.mem_dedup, decide_eq_true_eq]
  constructor
  · exact fun h => h.2
  · intro h
    refine ⟨⟨z.offset t, offset_mem z t, ?_⟩, h⟩
    unfold Tz.wall at h
    omega

theorem nodup_instants (z : Tz) (n : Int) : (z.instants n).Nodup := by
  unfold Tz.instants
  apply List.Nodup.filter
  apply List.Nodup.map
  · intro a b h
    have : n - a = n - b := h
    omega
  · exact List.nodup_dedup _

theorem index_ok (z : Tz) (rows l : List Int) (h : index z rows = .ok l) : List.Forall₂ (fun n t => z.localize n = .ok t) rows l := by
  induction rows generalizing l with
  | nil => simp only [index] at h; cases h; exact .nil
  | cons n rows ih =>
    simp only [index] at h
    cases h1 : z.localize n with
    | error e => rw [h1] at h; cases h
    | ok t =>
      rw [h1] at h
      cases h2 : index z rows with
      | error e => rw [h2] at h; cases h
      | ok l' =>
        rw [h2] at h
        cases h
        exact .cons h1 (ih l' h2)

theorem index_of (z : Tz) (rows : List Int) (h : ∀ n ∈ rows, ∃ t, z.localize n = .ok t) : ∃ l, index z rows = .ok l := by
  induction rows with
  | nil => exact ⟨[], rfl⟩
  | cons n rows ih =>
    obtain ⟨t, h1⟩ := h n (by simp)
    obtain ⟨l, h2⟩ := ih fun m hm => h m (by simp [hm])
    exact ⟨t :: l, by simp [index, h1, h2]⟩

/-- The instants of the clock are those of the steps of a run. -/
theorem steps_ok {z : Tz} {start stop : Int} {step : Nat} {l : List Int} (h : steps z start stop step = .ok l) :
    ∃ a b, z.localize start = .ok a ∧ z.localize stop = .ok b ∧ dateRange a b (step * 60) = some l := by
  unfold steps at h
  cases h1 : z.localize start with
  | error e => rw [h1] at h; cases h
  | ok a =>
    cases h2 : z.localize stop with
    | error e => rw [h1, h2] at h; cases h
    | ok b =>
      rw [h1, h2] at h
      refine ⟨a, b, rfl, rfl, ?_⟩
      cases h3 : dateRange a b (step * 60) with
      | none => simp only [h3] at h; cases h
      | some l' => simp only [h3] at h; cases h; rfl

theorem waterDayAt_ok {db : String → Option Int} {w : DT} {o : Int} {nm : String} :
    (∃ r, waterDayAt db w o nm = .ok r) ↔ db nm ≠ none := by
  unfold waterDayAt
  cases db nm with
  | none => simp
  | some p => simp

end Verif.Zone
