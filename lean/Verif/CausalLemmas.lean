import Verif.RunFilesProps
import Verif.PipelineProps
import Verif.StormRunProps
import Verif.NcInputProps
import Verif.GridProps

/-! Helper lemmas for C137: what a loop over the time steps does with the first part of its input. -/

namespace Verif.Causal

section storms
open Verif.Storms
variable {K : Type} [LinearOrder K] [AddCommMonoid K]

/-- All storms of a state of the loop. -/
def all (st : Track Nat K) : List (Storm Nat K) := st.closed ++ st.cur.toList

/-- What a step at row `N` does to the finished and the open storm. -/
theorem step_cases (thr : K) (n N : Nat) (st : Track Nat K) (row : List (Option K)) (hst : ∀ s, st.cur = some s → s.stop < N) :
    (st.cur = none ∧ (trackStep thr n st N row).closed = st.closed ∧ (trackStep thr n st N row).cur = none) ∨
    (∃ s1, st.cur = none ∧ (trackStep thr n st N row).closed = st.closed ∧ (trackStep thr n st N row).cur = some s1 ∧
      s1.start = N ∧ s1.stop = N) ∨
    (∃ s1, st.cur = none ∧ (trackStep thr n st N row).closed = st.closed ++ [s1] ∧ (trackStep thr n st N row).cur = none ∧
      s1.start = N) ∨
    (∃ s s1, st.cur = some s ∧ (trackStep thr n st N row).closed = st.closed ∧ (trackStep thr n st N row).cur = some s1 ∧
      s1.start = s.start ∧ s1.stop = N) ∨
    (∃ s s1, st.cur = some s ∧ (trackStep thr n st N row).closed = st.closed ++ [s1] ∧ (trackStep thr n st N row).cur = none ∧
      s1.start = s.start ∧ s.stop ≤ s1.stop) := by
  obtain ⟨cl, cur, cnt⟩ := st
  unfold trackStep trackRow
  cases cur with
  | none =>
    by_cases hw : wetRow thr row = true
    · by_cases hn : n ≤ 0
      · refine .inr (.inr (.inl ⟨⟨N, N, List.zipWith addN (row.map fun _ => some 0) row⟩, rfl, ?_, ?_, rfl⟩)) <;>
          simp [hw, trackClose, hn]
      · refine .inr (.inl ⟨⟨N, N, List.zipWith addN (row.map fun _ => some 0) row⟩, rfl, ?_, ?_, rfl, rfl⟩) <;>
          simp [hw, trackClose, hn]
    · exact .inl ⟨rfl, by simp [hw, trackClose], by simp [hw, trackClose]⟩
  | some s =>
    have hs : s.stop < N := hst s rfl
    by_cases hw : wetRow thr row = true
    · by_cases hn : n ≤ 0
      · refine .inr (.inr (.inr (.inr ⟨s, { s with stop := N, mass := List.zipWith addN s.mass row }, rfl, ?_, ?_, rfl, hs.le⟩))) <;>
          simp [hw, trackClose, hn]
      · refine .inr (.inr (.inr (.inl ⟨s, { s with stop := N, mass := List.zipWith addN s.mass row }, rfl, ?_, ?_, rfl, rfl⟩))) <;>
          simp [hw, trackClose, hn]
    · by_cases hc : cnt < n
      · by_cases hn : n ≤ cnt + 1
        · refine .inr (.inr (.inr (.inr ⟨s, { s with stop := N }, rfl, ?_, ?_, rfl, hs.le⟩))) <;>
            simp [hw, trackClose, hc, hn]
        · refine .inr (.inr (.inr (.inl ⟨s, { s with stop := N }, rfl, ?_, ?_, rfl, rfl⟩))) <;>
            simp [hw, trackClose, hc, hn]
      · refine .inr (.inr (.inr (.inr ⟨s, s, rfl, ?_, ?_, rfl, le_rfl⟩))) <;>
          simp [hw, trackClose, hc, not_lt.1 hc]

/-- The storms of a state survive in every later state. -/
structure Ext (N : Nat) (st st' : Track Nat K) : Prop where
  none : st.cur = none → ∃ new, all st' = st.closed ++ new ∧ ∀ s ∈ new, N ≤ s.start
  some : ∀ s, st.cur = some s → ∃ s' new, all st' = st.closed ++ s' :: new ∧ s'.start = s.start ∧ s.stop ≤ s'.stop ∧
    ∀ u ∈ new, N ≤ u.start

theorem loop_ext (thr : K) (n : Nat) (b : List (List (Option K))) : ∀ (N : Nat) (st : Track Nat K),
    (∀ s, st.cur = some s → s.stop < N) → Ext N st (trackLoop thr n st (label N b)) := by
  induction b with
  | nil =>
    intro N st hst
    refine ⟨fun h => ⟨[], by simp [all, label, trackLoop, h], by simp⟩, fun s h => ⟨s, [], ?_, rfl, le_rfl, by simp⟩⟩
    simp [all, label, trackLoop, h]
  | cons row b ih =>
    intro N st hst
    simp only [label, trackLoop]
    rcases step_cases thr n N st row hst with ⟨h1, h2, h3⟩ | ⟨s1, h1, h2, h3, h4, h5⟩ | ⟨s1, h1, h2, h3, h4⟩ |
        ⟨s, s1, h1, h2, h3, h4, h5⟩ | ⟨s, s1, h1, h2, h3, h4, h5⟩
    · have e := ih (N + 1) (trackStep thr n st N row) (by rw [h3]; intro s hs; cases hs)
      obtain ⟨new, e1, e2⟩ := e.none h3
      refine ⟨fun _ => ⟨new, by rw [e1, h2], fun s hs => by have := e2 s hs; omega⟩, fun s hs => ?_⟩
      rw [h1] at hs; cases hs
    · have e := ih (N + 1) (trackStep thr n st N row) (by rw [h3]; intro s hs; cases hs; omega)
      obtain ⟨s', new, e1, e2, e3, e4⟩ := e.some s1 h3
      refine ⟨fun _ => ⟨s' :: new, by rw [e1, h2], fun s hs => ?_⟩, fun s hs => ?_⟩
      · rcases List.mem_cons.1 hs with rfl | hs
        · omega
        · have := e4 s hs; omega
      · rw [h1] at hs; cases hs
    · have e := ih (N + 1) (trackStep thr n st N row) (by rw [h3]; intro s hs; cases hs)
      obtain ⟨new, e1, e2⟩ := e.none h3
      refine ⟨fun _ => ⟨s1 :: new, by rw [e1, h2]; simp, fun s hs => ?_⟩, fun s hs => ?_⟩
      · rcases List.mem_cons.1 hs with rfl | hs
        · omega
        · have := e2 s hs; omega
      · rw [h1] at hs; cases hs
    · have e := ih (N + 1) (trackStep thr n st N row) (by rw [h3]; intro s hs; cases hs; omega)
      obtain ⟨s', new, e1, e2, e3, e4⟩ := e.some s1 h3
      have hlt := hst s h1
      refine ⟨fun h => (by rw [h1] at h; cases h), fun u hu => ?_⟩
      rw [h1] at hu; cases hu
      exact ⟨s', new, by rw [e1, h2], by omega, by omega, fun u hu => by have := e4 u hu; omega⟩
    · have e := ih (N + 1) (trackStep thr n st N row) (by rw [h3]; intro s hs; cases hs)
      obtain ⟨new, e1, e2⟩ := e.none h3
      refine ⟨fun h => (by rw [h1] at h; cases h), fun u hu => ?_⟩
      rw [h1] at hu; cases hu
      exact ⟨s1, new, by rw [e1, h2]; simp, h4, h5, fun u hu => by have := e2 u hu; omega⟩

/-- The open storm reaches to the last row. -/
theorem open_stop (thr : K) (n : Nat) (a : List (List (Option K))) : ∀ (N : Nat) (st : Track Nat K),
    (∀ s, st.cur = some s → s.stop + 1 = N) →
      ∀ s, (trackLoop thr n st (label N a)).cur = some s → s.stop + 1 = N + a.length := by
  induction a with
  | nil => intro N st hst; simpa [label, trackLoop] using hst
  | cons row a ih =>
    intro N st hst s hs
    simp only [label, trackLoop] at hs
    have := ih (N + 1) (trackStep thr n st N row) (by
      intro s hs
      rcases step_cases thr n N st row (fun s hs => by have := hst s hs; omega) with ⟨h1, h2, h3⟩ | ⟨s1, h1, h2, h3, h4, h5⟩ |
        ⟨s1, h1, h2, h3, h4⟩ | ⟨s, s1, h1, h2, h3, h4, h5⟩ | ⟨s, s1, h1, h2, h3, h4, h5⟩ <;>
      · rw [h3] at hs; cases hs <;> omega) s hs
    simp only [List.length_cons]
    omega

omit [LinearOrder K] [AddCommMonoid K] in
theorem label_append (a b : List (List (Option K))) : ∀ N, label N (a ++ b) = label N a ++ label (N + a.length) b := by
  induction a with
  | nil => intro N; simp [label]
  | cons r a ih =>
    intro N
    simp only [List.cons_append, label, ih, List.length_cons]
    rw [show N + 1 + a.length = N + (a.length + 1) by omega]

theorem loop_append (thr : K) (n : Nat) (a b : List (Nat × List (Option K))) : ∀ st : Track Nat K,
    trackLoop thr n st (a ++ b) = trackLoop thr n (trackLoop thr n st a) b := by
  induction a with
  | nil => intro st; rfl
  | cons p a ih => intro st; obtain ⟨t, row⟩ := p; simp only [List.cons_append, trackLoop, ih]

/-- The storms of a longer record. -/
theorem storms_append (thr : K) (n : Nat) (a b : List (List (Option K))) :
    ∃ cl cur cur' new, storms thr n a = cl ++ cur ∧ storms thr n (a ++ b) = cl ++ cur' ++ new ∧
      (∀ s ∈ new, a.length ≤ s.start) ∧
      ((cur = [] ∧ cur' = []) ∨ ∃ s s', cur = [s] ∧ cur' = [s'] ∧ s'.start = s.start ∧ s.stop ≤ s'.stop ∧ s.stop + 1 = a.length) := by
  set st := trackLoop thr n (⟨[], none, 0⟩ : Track Nat K) (label 0 a) with hdef
  have h1 : storms thr n a = all st := rfl
  have h2 : storms thr n (a ++ b) = all (trackLoop thr n st (label a.length b)) := by
    have : label 0 (a ++ b) = label 0 a ++ label a.length b := by rw [label_append]; simp
    unfold storms trackingByStation
    simp only
    rw [this, loop_append]
    rfl
  have ho := open_stop thr n a 0 ⟨[], none, 0⟩ (by intro s hs; cases hs)
  have he := loop_ext thr n b a.length st (fun s hs => by have := ho s hs; omega)
  cases hc : st.cur with
  | none =>
    obtain ⟨new, e1, e2⟩ := he.none hc
    exact ⟨st.closed, [], [], new, by rw [h1]; simp [all, hc], by rw [h2, e1]; simp, e2, .inl ⟨rfl, rfl⟩⟩
  | some s =>
    obtain ⟨s', new, e1, e2, e3, e4⟩ := he.some s hc
    exact ⟨st.closed, [s], [s'], new, by rw [h1]; simp [all, hc], by rw [h2, e1]; simp, e4,
      .inr ⟨s, s', rfl, rfl, e2, e3, by have := ho s hc; omega⟩⟩

end storms

section clip
open Verif.Storms
variable {K : Type} [Field K] [LinearOrder K]

/-- A row lies in a storm of the longer record exactly when it lies in a storm of the shorter. -/
theorem any_append (thr : K) (n : Nat) (a b : List (List (Option K))) (i : Nat) (hi : i < a.length) :
    (storms thr n (a ++ b)).any (fun s => decide (s.start ≤ i) && decide (i ≤ s.stop)) =
      (storms thr n a).any (fun s => decide (s.start ≤ i) && decide (i ≤ s.stop)) := by
  obtain ⟨cl, cur, cur', new, h1, h2, h3, h4⟩ := storms_append thr n a b
  have hnew : new.any (fun s => decide (s.start ≤ i) && decide (i ≤ s.stop)) = false := by
    rw [List.any_eq_false]
    intro s hs
    have := h3 s hs
    simp; omega
  rw [h1, h2, List.any_append, List.any_append, List.any_append, hnew, Bool.or_false]
  rcases h4 with ⟨rfl, rfl⟩ | ⟨s, s', rfl, rfl, e1, e2, e3⟩
  · rfl
  · have h5 : i ≤ s.stop := by omega
    have h6 : i ≤ s'.stop := by omega
    simp [e1, h5, h6]

theorem outside_append (thr : K) (n : Nat) (a b : List (List (Option K))) (i : Nat) (hi : i < a.length) :
    Outside (storms thr n (a ++ b)) i ↔ Outside (storms thr n a) i := by
  have key : ∀ L : List (Storm Nat K), Outside L i ↔ L.any (fun s => decide (s.start ≤ i) && decide (i ≤ s.stop)) = false := by
    intro L
    rw [List.any_eq_false]
    constructor
    · intro h s hs
      have := h s hs
      simpa using this
    · intro h s hs
      have := h s hs
      simpa using this
  rw [key, key, any_append thr n a b i hi]

/-- Columns without precipitation outside the storms lose nothing. -/
theorem total_clip_eq (sts : List (Storm Nat K)) (tbl : List (List (Option K))) (k : Nat)
    (h : ∀ i x, Outside sts i → at' tbl i k = some (some x) → x = 0) : columnSum (clip sts tbl) k = columnSum tbl k := by
  have key : ∀ (tbl : List (List (Option K))) (f : Nat → List (Option K) → List (Option K)),
      (∀ i row, tbl[i]? = some row → f i row = row ∨ (f i row = row.map (fun _ => some 0) ∧ ∀ x, row[k]? = some (some x) → x = 0)) →
      columnSum (tbl.mapIdx f) k = columnSum tbl k := by
    intro tbl
    induction tbl with
    | nil => intro f _; rfl
    | cons row tbl ih =>
      intro f hf
      have hi := ih (fun i => f (i + 1)) (fun i r hr => hf (i + 1) r (by simpa using hr))
      unfold columnSum at hi ⊢
      rw [List.mapIdx_cons]
      rcases hf 0 row rfl with h0 | ⟨h0, hz⟩
      · rw [h0, List.filterMap_cons, List.filterMap_cons]
        cases (row[k]?).join with
        | none => exact hi
        | some x => simp only [List.sum_cons, hi]
      · rw [h0, List.filterMap_cons, List.filterMap_cons, List.getElem?_map]
        cases hr : row[k]? with
        | none => exact hi
        | some c =>
          cases c with
          | none => simpa using hi
          | some x => simp [hi, hz x hr]
  refine key tbl _ fun i row hr => ?_
  rcases clipRow_cases sts i row with hc | hc
  · exact .inl hc.1
  · exact .inr ⟨hc.1, fun x hx => h i x hc.2 (by simp [at', hr, hx])⟩

end clip

end Verif.Causal
