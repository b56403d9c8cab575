import Verif.StormsBasin
import Mathlib.Algebra.Order.Field.Rat
import Mathlib.Algebra.Order.BigOperators.Group.Finset
import Mathlib.Tactic.NormNum
import Mathlib.Tactic.Ring
import Mathlib.Tactic.LinearCombination
import Mathlib.Tactic.FieldSimp
import Mathlib.Data.List.Induction

/-! C23 - C28: storms. -/

namespace Verif.Storms

/-! ### C23, C24 -/

section
variable {K : Type} [LinearOrder K] [AddCommMonoid K]

/-- The storms of a table whose time stamps are the row numbers. -/
def storms (thr : K) (n : Nat) (rows : List (List (Option K))) : List (Storm Nat K) :=
  (trackingByStation thr n (label 0 rows)).1

/-- Time stamps are only copied: with any stamps the result is the one over row numbers with the
stamps put in. (All further theorems speak of row numbers.) -/
theorem C23_timestamps {T : Type} (thr : K) (n : Nat) (rows : List (List (Option K))) (f : Nat → T) :
    (trackingByStation thr n ((label 0 rows).map fun p => (f p.1, p.2))).1 =
      (storms thr n rows).map fun s => ⟨f s.start, f s.stop, s.mass⟩ := by
  have h := trackLoop_mapTime f thr n (label 0 rows) ⟨[], none, 0⟩
  have e : (⟨[], none, 0⟩ : Track Nat K).mapTime f = ⟨[], none, 0⟩ := rfl
  rw [e] at h
  unfold storms trackingByStation
  simp only
  rw [h]
  generalize trackLoop thr n _ _ = st
  obtain ⟨cl, cur, cnt⟩ := st
  cases cur <;> simp [Track.mapTime, Storm.mapTime]

/-- The storms are in time order, do not overlap, lie within the record and start at a step above
the threshold. -/
theorem C23_ordered_disjoint (thr : K) (n width : Nat) (rows : List (List (Option K)))
    (hrect : ∀ row ∈ rows, row.length = width) :
    (storms thr n rows).Pairwise (fun s t => s.stop < t.start) ∧
    ∀ s ∈ storms thr n rows, s.start ≤ s.stop ∧ s.stop < rows.length ∧ WetAt thr rows s.start := by
  have h := track_inv thr n rows width hrect
  refine ⟨h.order, fun s hs => ⟨(h.good s hs).ord, ?_, (h.good s hs).wet⟩⟩
  rcases List.mem_append.1 hs with hs | hs
  · exact h.bound s hs
  · rw [Option.mem_toList] at hs
    have := (h.openS s hs).1
    omega

omit [LinearOrder K] [AddCommMonoid K] in
theorem unique_of_pairwise (L : List (Storm Nat K)) (h : L.Pairwise fun s t => s.stop < t.start)
    (i : Nat) (s t : Storm Nat K) (hs : s ∈ L) (ht : t ∈ L) (h1 : s.Has i) (h2 : t.Has i) : s = t := by
  induction L with
  | nil => cases hs
  | cons a L ih =>
    rw [List.pairwise_cons] at h
    rw [Storm.Has] at h1 h2
    rcases List.mem_cons.1 hs with rfl | hs' <;> rcases List.mem_cons.1 ht with rfl | ht'
    · rfl
    · have := h.1 t ht'; omega
    · have := h.1 s hs'; omega
    · exact ih h.2 hs' ht'

/-- Every step above the threshold lies in exactly one storm. -/
theorem C23_cover (thr : K) (n width : Nat) (rows : List (List (Option K)))
    (hrect : ∀ row ∈ rows, row.length = width) (i : Nat) (hi : WetAt thr rows i) :
    ∃ s ∈ storms thr n rows, (s.start ≤ i ∧ i ≤ s.stop) ∧
      ∀ t ∈ storms thr n rows, (t.start ≤ i ∧ i ≤ t.stop) → t = s := by
  have h := track_inv thr n rows width hrect
  have hlt : i < rows.length := by
    obtain ⟨row, x, hr, -⟩ := hi
    rcases Nat.lt_or_ge i rows.length with h | h
    · exact h
    · rw [List.getElem?_eq_none h] at hr; cases hr
  obtain ⟨s, hs, hh⟩ := h.cover i hlt hi
  refine ⟨s, hs, hh, fun t ht htt => ?_⟩
  exact unique_of_pairwise _ h.order i t s ht hs htt hh

/-- The recorded mass of a storm at a station is the sum of that station's values at the steps of
the storm above the threshold (NaN if one of them is NaN). -/
theorem C23_mass (thr : K) (n width : Nat) (rows : List (List (Option K)))
    (hrect : ∀ row ∈ rows, row.length = width) (s : Storm Nat K) (hs : s ∈ storms thr n rows)
    (k : Nat) (hk : k < width) :
    s.mass[k]? = some (sumN (wetValues thr rows k s.start s.stop)) :=
  ((track_inv thr n rows width hrect).good s hs).mass k hk

/-- The count is the number of storms. -/
theorem C23_count (thr : K) (n : Nat) (rows : List (List (Option K))) :
    (trackingByStation thr n (label 0 rows)).2 = (storms thr n rows).length := rfl

/-- No storm is reported exactly when no step is above the threshold. -/
theorem C23_none_iff (thr : K) (n width : Nat) (rows : List (List (Option K)))
    (hrect : ∀ row ∈ rows, row.length = width) :
    storms thr n rows = [] ↔ ∀ i, ¬ WetAt thr rows i := by
  constructor
  · intro h i hi
    obtain ⟨s, hs, -⟩ := C23_cover thr n width rows hrect i hi
    rw [h] at hs; cases hs
  · intro h
    rw [List.eq_nil_iff_forall_not_mem]
    intro s hs
    exact h _ ((C23_ordered_disjoint thr n width rows hrect).2 s hs).2.2

/-- Two steps above the threshold belong to the same storm exactly when there is no spell of `n`
steps at or below the threshold between them. -/
theorem C24_same_storm_iff (thr : K) (n width : Nat) (rows : List (List (Option K)))
    (hrect : ∀ row ∈ rows, row.length = width) (i j : Nat) (hij : i < j)
    (hi : WetAt thr rows i) (hj : WetAt thr rows j) :
    (∃ s ∈ storms thr n rows, (s.start ≤ i ∧ i ≤ s.stop) ∧ s.start ≤ j ∧ j ≤ s.stop) ↔
      ¬ ∃ k, i < k ∧ k + n ≤ j ∧ ∀ m, k ≤ m → m < k + n → ¬ WetAt thr rows m := by
  have h := track_inv thr n rows width hrect
  have hlt : j < rows.length := by
    obtain ⟨row, x, hr, -⟩ := hj
    rcases Nat.lt_or_ge j rows.length with h | h
    · exact h
    · rw [List.getElem?_eq_none h] at hr; cases hr
  exact h.same i j hij hlt hi hj

/-- A storm ends `n` steps after its last step above the threshold, or earlier only because the
record ends; after the last step above the threshold nothing in the storm is above it. -/
theorem C24_end (thr : K) (n width : Nat) (rows : List (List (Option K)))
    (hrect : ∀ row ∈ rows, row.length = width) (s : Storm Nat K) (hs : s ∈ storms thr n rows) :
    ∃ p, s.start ≤ p ∧ p ≤ s.stop ∧ WetAt thr rows p ∧
      (∀ m, p < m → m ≤ s.stop → ¬ WetAt thr rows m) ∧
      (s.stop = p + n ∨ (s.stop < p + n ∧ s.stop + 1 = rows.length)) := by
  have h := track_inv thr n rows width hrect
  rcases List.mem_append.1 hs with hs | hs
  · obtain ⟨p, h1, h2, h3, h4⟩ := h.ends s hs
    exact ⟨p, h2, by omega, h3, h4, .inl h1.symm⟩
  · rw [Option.mem_toList] at hs
    obtain ⟨h1, h2, p, h3, h4, h5, h6⟩ := h.openS s hs
    refine ⟨p, h4, by omega, h5, fun m hm1 hm2 => h6 m hm1 (by omega), ?_⟩
    rcases Nat.lt_or_ge s.stop (p + n) with h' | h'
    · exact .inr ⟨h', h1⟩
    · exact .inl (by omega)

end

/-- Two stations, eight hours, limit two dry steps: a two-hour gap ends the first storm. -/
def demoRows : List (List (Option ℚ)) :=
  [[some 0, some 1], [some 0, some 0], [some 3, none], [some 0, some 0], [some 0, some 0],
   [some 0, some 0], [some 2, some 2], [some 0, some 0]]

example : storms (1 / 2) 2 demoRows =
    [⟨0, 4, [some 3, none]⟩, ⟨6, 7, [some 2, some 2]⟩] := by decide +kernel

example : ∀ row ∈ demoRows, row.length = 2 := by decide

example : WetAt (1 / 2) demoRows 2 := ⟨_, 3, rfl, by simp, by norm_num⟩

/-! ### C25 -/

section
variable {K : Type} [Field K] [LinearOrder K] [IsStrictOrderedRing K]

/-- Row `i` is in none of the storms. -/
def Outside (sts : List (Storm Nat K)) (i : Nat) : Prop := ∀ s ∈ sts, ¬ (s.start ≤ i ∧ i ≤ s.stop)

/-- Total of a station over a table, NaN skipped. -/
def total (tbl : List (List (Option K))) (k : Nat) : K :=
  (tbl.map fun row => match row[k]? with | some (some x) => x | _ => 0).sum

/-- Cell of a table. -/
def at' (tbl : List (List (Option K))) (i k : Nat) : Option (Option K) := (tbl[i]?).bind (·[k]?)

/-- All measurements are at least zero. -/
def Nonneg (tbl : List (List (Option K))) : Prop := ∀ row ∈ tbl, ∀ x, some x ∈ row → 0 ≤ x

omit [LinearOrder K] [IsStrictOrderedRing K] in
theorem columnSum_eq_total (tbl : List (List (Option K))) (k : Nat) :
    columnSum tbl k = total tbl k := by
  induction tbl with
  | nil => rfl
  | cons row tbl ih =>
    unfold columnSum total at *
    rw [List.filterMap_cons, List.map_cons, List.sum_cons]
    cases h : row[k]? with
    | none => simp [ih]
    | some c =>
      cases c with
      | none => simp [ih]
      | some x => simp [ih]

omit [LinearOrder K] [IsStrictOrderedRing K] in
theorem total_correct (sts : List Nat) (c : Nat → K) (tbl : List (List (Option K))) (k : Nat)
    (hk : k ∈ sts) : total (tbl.map (correctRow sts c)) k = total tbl k * c k := by
  induction tbl with
  | nil => simp [total]
  | cons row tbl ih =>
    unfold total at *
    simp only [List.map_cons, List.sum_cons, ih, add_mul]
    congr 1
    unfold correctRow
    rw [List.getElem?_mapIdx]
    cases row[k]? with
    | none => simp
    | some x => cases x <;> simp [hk]

omit [IsStrictOrderedRing K] in
theorem clipRow_cases (sts : List (Storm Nat K)) (i : Nat) (row : List (Option K)) :
    (clipRow sts i row = row ∧ ¬ Outside sts i) ∨
    (clipRow sts i row = row.map (fun _ => some 0) ∧ Outside sts i) := by
  unfold clipRow
  split
  · rename_i h
    left
    refine ⟨rfl, fun ho => ?_⟩
    rw [List.any_eq_true] at h
    obtain ⟨s, hs, hh⟩ := h
    simp at hh
    exact ho s hs hh
  · rename_i h
    right
    refine ⟨rfl, fun s hs hh => h ?_⟩
    rw [List.any_eq_true]
    exact ⟨s, hs, by simp [hh]⟩

theorem total_mapIdx_le (k : Nat) (tbl : List (List (Option K))) (hn : Nonneg tbl)
    (f : Nat → List (Option K) → List (Option K))
    (hf : ∀ i row, f i row = row ∨ f i row = row.map (fun _ => some 0)) :
    0 ≤ total (tbl.mapIdx f) k ∧ total (tbl.mapIdx f) k ≤ total tbl k := by
  induction tbl generalizing f with
  | nil => simp [total]
  | cons row tbl ih =>
    obtain ⟨h1, h2⟩ := ih (fun r hr => hn r (List.mem_cons_of_mem _ hr)) (fun i => f (i + 1))
      (fun i => hf (i + 1))
    have hrow := hn row (List.mem_cons_self)
    rw [List.mapIdx_cons]
    unfold total at *
    simp only [List.map_cons, List.sum_cons]
    have hv : (0 : K) ≤ (match row[k]? with | some (some x) => x | _ => 0) := by
      split
      · rename_i x hx
        exact hrow x (List.mem_iff_getElem?.2 ⟨k, hx⟩)
      · exact le_refl _
    rcases hf 0 row with h0 | h0
    · rw [h0]
      constructor <;> linarith
    · rw [h0]
      have hz : (match (row.map fun _ => some (0 : K))[k]? with | some (some x) => x | _ => 0) = 0 := by
        rw [List.getElem?_map]
        cases row[k]? <;> simp
      rw [hz]
      constructor <;> linarith

theorem clip_le (sts : List (Storm Nat K)) (tbl : List (List (Option K))) (hn : Nonneg tbl) (k : Nat) :
    0 ≤ total (clip sts tbl) k ∧ total (clip sts tbl) k ≤ total tbl k :=
  total_mapIdx_le k tbl hn _ fun i row => by
    rcases clipRow_cases sts i row with h | h
    · exact .inl h.1
    · exact .inr h.1

omit [IsStrictOrderedRing K] in
/-- `total (clip …)` is positive when a storm row has a positive value and none is negative. -/
theorem at_clip (sts : List (Storm Nat K)) (tbl : List (List (Option K))) (i k : Nat) :
    at' (clip sts tbl) i k = (at' tbl i k).map fun x =>
      @ite _ (Outside sts i) (Classical.propDecidable _) (some 0) x := by
  unfold at' clip
  rw [List.getElem?_mapIdx]
  cases hi : tbl[i]? with
  | none => simp
  | some row =>
    simp only [Option.map_some, Option.bind_some]
    rcases clipRow_cases sts i row with h | h
    · rw [h.1]
      simp only [if_neg h.2]
      cases row[k]? <;> rfl
    · rw [h.1, List.getElem?_map]
      simp only [if_pos h.2]

theorem total_pos (tbl : List (List (Option K))) (hn : Nonneg tbl) (i k : Nat) (x : K) (hx : 0 < x)
    (h : at' tbl i k = some (some x)) : 0 < total tbl k := by
  induction tbl generalizing i with
  | nil => simp [at'] at h
  | cons row tbl ih =>
    have hn' : Nonneg tbl := fun r hr => hn r (List.mem_cons_of_mem _ hr)
    have hnn : 0 ≤ total tbl k := by
      have := clip_le [] tbl hn' k
      linarith
    have hv : (0 : K) ≤ (match row[k]? with | some (some x) => x | _ => 0) := by
      split
      · rename_i y hy
        exact hn row List.mem_cons_self y (List.mem_iff_getElem?.2 ⟨k, hy⟩)
      · exact le_refl _
    unfold total at *
    simp only [List.map_cons, List.sum_cons]
    cases i with
    | zero =>
      simp [at'] at h
      rw [h] at hv ⊢
      linarith
    | succ i =>
      have := ih hn' i (by simpa [at'] using h)
      linarith

theorem nonneg_clip (sts : List (Storm Nat K)) (tbl : List (List (Option K))) (hn : Nonneg tbl) :
    Nonneg (clip sts tbl) := by
  intro row hrow x hx
  obtain ⟨i, hi⟩ := List.mem_iff_getElem?.1 hrow
  obtain ⟨k, hk⟩ := List.mem_iff_getElem?.1 hx
  have h1 : at' (clip sts tbl) i k = some (some x) := by simp [at', hi, hk]
  rw [at_clip] at h1
  cases h2 : at' tbl i k with
  | none => rw [h2] at h1; cases h1
  | some c =>
    rw [h2] at h1
    simp only [Option.map_some, Option.some.injEq] at h1
    split at h1
    · cases h1; exact le_refl _
    · subst h1
      unfold at' at h2
      cases h3 : tbl[i]? with
      | none => rw [h3] at h2; cases h2
      | some r =>
        rw [h3] at h2
        exact hn r (List.mem_iff_getElem?.2 ⟨i, h3⟩) x (List.mem_iff_getElem?.2 ⟨k, h2⟩)

omit [IsStrictOrderedRing K] in
theorem mem_stations (width : Nat) (stations : List Nat) (k : Nat)
    (hk : k ∈ stations ∨ (stations = [] ∧ k < width)) :
    k ∈ (if stations.length = 0 then List.range width else stations) := by
  rcases hk with hk | ⟨rfl, hk⟩
  · rw [if_neg]
    · exact hk
    · intro h; rw [List.length_eq_zero_iff] at h; subst h; cases hk
  · simpa using hk

/-- C25 as stated: nothing is left outside the storms and every station keeps its total. -/
def C25_full (K : Type) [Field K] [LinearOrder K] [IsStrictOrderedRing K] : Prop :=
  ∀ (thr : K) (n width : Nat) (tbl : List (List (Option K))), 0 ≤ thr →
    (∀ row ∈ tbl, row.length = width) → Nonneg tbl → ∀ k, k < width →
    (∀ i x, Outside (storms thr n tbl) i →
      at' (clipAndCorrect (storms thr n tbl) width [] tbl) i k = some (some x) → x = 0) ∧
    total (clipAndCorrect (storms thr n tbl) width [] tbl) k = total tbl k

/-- Nothing is left outside the storms: for every storm list, table and selected station. -/
theorem C25_outside_zero (sts : List (Storm Nat K)) (width : Nat) (stations : List Nat)
    (tbl : List (List (Option K))) (i k : Nat) (hk : k ∈ stations ∨ (stations = [] ∧ k < width))
    (ho : Outside sts i) (hcell : (at' tbl i k).isSome) :
    at' (clipAndCorrect sts width stations tbl) i k = some (some 0) := by
  have hk' := mem_stations width stations k hk
  have h1 := at_clip sts tbl i k
  unfold clipAndCorrect
  simp only
  generalize (if stations.length = 0 then List.range width else stations) = st at *
  unfold at' at *
  rw [List.getElem?_map]
  cases h2 : (clip sts tbl)[i]? with
  | none => rw [h2] at h1; cases h3 : (tbl[i]?).bind (·[k]?) with
    | none => rw [h3] at hcell; cases hcell
    | some c => rw [h3] at h1; simp at h1
  | some row =>
    rw [h2] at h1
    simp only [Option.map_some, Option.bind_some] at h1 ⊢
    unfold correctRow
    rw [List.getElem?_mapIdx, h1]
    cases h3 : (tbl[i]?).bind (·[k]?) with
    | none => rw [h3] at hcell; cases hcell
    | some c => simp [ho, hk']

/-- A station that was not asked for comes back without data, it is neither corrected nor kept. -/
theorem C25_unselected_nan (sts : List (Storm Nat K)) (width : Nat) (stations : List Nat)
    (tbl : List (List (Option K))) (i k : Nat) (hne : stations ≠ []) (hk : k ∉ stations)
    (x : Option K) (h : at' (clipAndCorrect sts width stations tbl) i k = some x) : x = none := by
  unfold clipAndCorrect at' at h
  simp only [List.length_eq_zero_iff, if_neg hne, List.getElem?_map] at h
  cases h2 : (clip sts tbl)[i]? with
  | none => rw [h2] at h; cases h
  | some row =>
    rw [h2] at h
    simp only [Option.map_some, Option.bind_some, correctRow, List.getElem?_mapIdx, if_neg hk] at h
    cases h3 : row[k]? with
    | none => rw [h3] at h; cases h
    | some c => rw [h3] at h; simpa using h.symm

/-- The total of a station after the correction is the original one exactly when the station had
no precipitation at all or had some during a storm. -/
theorem C25_total_iff (sts : List (Storm Nat K)) (width : Nat) (stations : List Nat)
    (tbl : List (List (Option K))) (hn : Nonneg tbl) (k : Nat)
    (hk : k ∈ stations ∨ (stations = [] ∧ k < width)) :
    total (clipAndCorrect sts width stations tbl) k = total tbl k ↔
      (total tbl k = 0 ∨ ∃ i x, ¬ Outside sts i ∧ at' tbl i k = some (some x) ∧ 0 < x) := by
  have hk' := mem_stations width stations k hk
  unfold clipAndCorrect
  simp only
  generalize (if stations.length = 0 then List.range width else stations) = st at *
  rw [total_correct st _ _ k hk']
  obtain ⟨h0, hle⟩ := clip_le sts tbl hn k
  have hpos : (∃ i x, ¬ Outside sts i ∧ at' tbl i k = some (some x) ∧ 0 < x) ↔
      total (clip sts tbl) k ≠ 0 := by
    constructor
    · rintro ⟨i, x, ho, hx, hp⟩
      have h1 : at' (clip sts tbl) i k = some (some x) := by rw [at_clip, hx]; simp [ho]
      exact ne_of_gt (total_pos _ (nonneg_clip sts tbl hn) i k x hp h1)
    · intro hne
      by_contra hno
      apply hne
      -- every cell of the clipped column is zero or NaN
      unfold total
      apply List.sum_eq_zero
      intro v hv
      obtain ⟨row, hrow, rfl⟩ := List.mem_map.1 hv
      obtain ⟨i, hi⟩ := List.mem_iff_getElem?.1 hrow
      cases hc : row[k]? with
      | none => rfl
      | some c =>
        cases c with
        | none => rfl
        | some x =>
          have h1 : at' (clip sts tbl) i k = some (some x) := by simp [at', hi, hc]
          have h1' := h1
          rw [at_clip] at h1
          cases h2 : at' tbl i k with
          | none => rw [h2] at h1; cases h1
          | some d =>
            rw [h2] at h1
            simp only [Option.map_some, Option.some.injEq] at h1
            split at h1
            · cases h1; rfl
            · rename_i ho
              subst h1
              have hx0 : 0 ≤ x := nonneg_clip sts tbl hn row hrow x (List.mem_iff_getElem?.2 ⟨k, hc⟩)
              rcases lt_or_eq_of_le hx0 with hx | hx
              · exact absurd ⟨i, x, ho, h2, hx⟩ hno
              · exact hx.symm
  rw [hpos]
  unfold correction
  simp only [columnSum_eq_total]
  by_cases ht : total tbl k = 0
  · have hc : total (clip sts tbl) k = 0 := le_antisymm (by rw [← ht]; exact hle) h0
    simp [ht, hc]
  · by_cases hc : total (clip sts tbl) k = 0
    · simp only [ht, hc, zero_mul, ne_eq, not_true, or_self, iff_false]
      exact fun h => ht h.symm
    · simp only [ht, hc, if_false, ne_eq, not_false_eq_true, or_true, iff_true]
      field_simp

/-- During storms the values are the measured ones times one factor per station, at least 1 if the
station is not wiped out. -/
theorem C25_proportional (sts : List (Storm Nat K)) (width : Nat) (stations : List Nat)
    (tbl : List (List (Option K))) (hn : Nonneg tbl) (k : Nat)
    (hk : k ∈ stations ∨ (stations = [] ∧ k < width)) :
    ∃ c : K, (∀ i x, ¬ Outside sts i → at' tbl i k = some (some x) →
        at' (clipAndCorrect sts width stations tbl) i k = some (some (x * c))) ∧
      ((∃ i x, ¬ Outside sts i ∧ at' tbl i k = some (some x) ∧ 0 < x) → 1 ≤ c) := by
  have hk' := mem_stations width stations k hk
  refine ⟨correction tbl (clip sts tbl) k, ?_, ?_⟩
  · intro i x ho hx
    have h1 : at' (clip sts tbl) i k = some (some x) := by rw [at_clip, hx]; simp [ho]
    unfold clipAndCorrect
    simp only
    generalize (if stations.length = 0 then List.range width else stations) = st at *
    unfold at' at h1 ⊢
    rw [List.getElem?_map]
    cases h2 : (clip sts tbl)[i]? with
    | none => rw [h2] at h1; cases h1
    | some row =>
      rw [h2] at h1
      simp only [Option.bind_some, Option.map_some] at h1 ⊢
      unfold correctRow
      rw [List.getElem?_mapIdx, h1]
      simp [hk']
  · rintro ⟨i, x, ho, hx, hp⟩
    have h1 : at' (clip sts tbl) i k = some (some x) := by rw [at_clip, hx]; simp [ho]
    have hpos := total_pos _ (nonneg_clip sts tbl hn) i k x hp h1
    obtain ⟨h0, hle⟩ := clip_le sts tbl hn k
    unfold correction
    simp only [columnSum_eq_total]
    rw [if_neg (ne_of_gt (lt_of_lt_of_le hpos hle)), if_neg (ne_of_gt hpos)]
    rw [le_div_iff₀ hpos, one_mul]
    exact hle

end

/-- A table where the second station only ever measures below the threshold, after the storm. -/
def drizzle : List (List (Option ℚ)) :=
  [[some 5, some 0], [some 0, some 0], [some 0, some (1 / 200)]]

/-- The full claim is false: the second station's precipitation is removed and not added back. -/
theorem C25_total_fails : ¬ C25_full ℚ := by
  intro h
  have hn : Nonneg drizzle := by
    intro row hrow x hx
    simp [drizzle] at hrow
    rcases hrow with rfl | rfl | rfl <;> simp at hx <;> rcases hx with rfl | rfl <;> norm_num
  have h1 := (h (1 / 100) 1 2 drizzle (by norm_num) (by decide) hn 1 (by omega)).2
  revert h1
  decide +kernel

/-- What holds of the full claim: totals are kept for every station with some precipitation during
a storm (or none at all). Missing: stations whose whole precipitation falls outside the storms. -/
theorem C25_conserved_partial {K : Type} [Field K] [LinearOrder K] [IsStrictOrderedRing K]
    (thr : K) (n width : Nat) (tbl : List (List (Option K))) (hthr : 0 ≤ thr)
    (hrect : ∀ row ∈ tbl, row.length = width) (hn : Nonneg tbl) (k : Nat) (hk : k < width)
    (i : Nat) (x : K) (hx : at' tbl i k = some (some x)) (hwet : thr < x) :
    total (clipAndCorrect (storms thr n tbl) width [] tbl) k = total tbl k := by
  rw [C25_total_iff _ _ _ _ hn k (.inr ⟨rfl, hk⟩)]
  right
  have hw : WetAt thr tbl i := by
    unfold at' at hx
    cases h : tbl[i]? with
    | none => rw [h] at hx; cases hx
    | some row =>
      rw [h] at hx
      exact ⟨row, x, h, List.mem_iff_getElem?.2 ⟨k, hx⟩, hwet⟩
  obtain ⟨s, hs, hh, -⟩ := C23_cover thr n width tbl hrect i hw
  exact ⟨i, x, fun ho => ho s hs hh, hx, lt_of_le_of_lt hthr hwet⟩

example : clipAndCorrect (storms (1 / 100) 1 drizzle) 2 [0] drizzle =
    [[some 5, none], [some 0, none], [some 0, none]] := by decide +kernel

example : clipAndCorrect (storms (1 / 100) 1 drizzle) 2 [] drizzle =
    [[some 5, some 0], [some 0, some 0], [some 0, some 0]] := by decide +kernel

example : at' drizzle 0 0 = some (some 5) ∧ (1 / 100 : ℚ) < 5 := by
  constructor
  · rfl
  · norm_num

/-! ### C26 -/

/-- The spans recorded by a run of calls at steps 0, 1, 2, ... starting with no storm. -/
def basinSpans (n c0 : Nat) (w : List Bool) : List (Span Nat) :=
  (basinLoop n ⟨[], c0, false⟩ (labelB 0 w)).lst

/-- Spans are in time order and disjoint; each starts and ends at a step above the threshold. -/
theorem C26_ordered_disjoint (n c0 : Nat) (w : List Bool) :
    (basinSpans n c0 w).Pairwise (fun s t => ∀ e, s.stop = some e → e < t.start) ∧
    ∀ s ∈ basinSpans n c0 w, ∃ e, s.stop = some e ∧ s.start ≤ e ∧ w[s.start]? = some true ∧
      w[e]? = some true := by
  have h := basin_inv w n c0
  refine ⟨h.order, fun s hs => ?_⟩
  obtain ⟨e, h1, h2, -, h4, h5⟩ := h.good s hs
  exact ⟨e, h1, h2, h4, h5⟩

/-- Every step above the threshold lies in a span. -/
theorem C26_cover (n c0 : Nat) (w : List Bool) (i : Nat) (hi : w[i]? = some true) :
    ∃ s ∈ basinSpans n c0 w, s.start ≤ i ∧ ∃ e, s.stop = some e ∧ i ≤ e := by
  refine (basin_inv w n c0).cover i ?_ hi
  rcases Nat.lt_or_ge i w.length with h | h
  · exact h
  · rw [List.getElem?_eq_none h] at hi; cases hi

/-- Two steps above the threshold are in one span exactly when no `n` consecutive dry steps lie
between them: a new storm starts only after the configured dry spell, and always then. -/
theorem C26_same_storm_iff (n c0 : Nat) (w : List Bool) (i j : Nat) (hij : i < j)
    (hi : w[i]? = some true) (hj : w[j]? = some true) :
    (∃ s ∈ basinSpans n c0 w, (s.start ≤ i ∧ ∃ e, s.stop = some e ∧ i ≤ e) ∧
      (s.start ≤ j ∧ ∃ e, s.stop = some e ∧ j ≤ e)) ↔
      ¬ ∃ k, i < k ∧ k + n ≤ j ∧ ∀ m, k ≤ m → m < k + n → ¬ w[m]? = some true := by
  refine (basin_inv w n c0).same i j hij ?_ hi hj
  rcases Nat.lt_or_ge j w.length with h | h
  · exact h
  · rw [List.getElem?_eq_none h] at hj; cases hj

/-- The test on the image: some cell is above the threshold and no cell is NaN. -/
theorem C26_image_test {K : Type} [LinearOrder K] (thr : K) (img : List (Option K)) :
    imageWet thr img = true ↔ (∀ c ∈ img, c ≠ none) ∧ ∃ x, some x ∈ img ∧ thr < x := by
  unfold imageWet
  rw [Bool.and_eq_true, wetRow_iff, List.all_eq_true]
  constructor
  · rintro ⟨h1, h2⟩
    exact ⟨(fun c hc e => by have := h1 c hc; rw [e] at this; cases this), h2⟩
  · rintro ⟨h1, h2⟩
    exact ⟨fun c hc => Option.isSome_iff_ne_none.2 (h1 c hc), h2⟩

example : basinSpans 2 0 [true, false, true, false, false, true] =
    [⟨0, some 2⟩, ⟨5, some 5⟩] := by decide

/-! ### C27 -/

section
variable {K : Type} [Field K] [LinearOrder K] [IsStrictOrderedRing K] {ι : Type} [Fintype ι]
open scoped BigOperators

/-- One step's images. -/
structure Images (ι K : Type) where
  precip : ι → K
  perc : ι → K

/-- A run of `time_since_storm`. -/
def runStorm (dt mass time thresh : K) (c : Clock ι K) (h : List (Images ι K)) : Clock ι K :=
  h.foldl (fun c s => timeSinceStorm s.precip s.perc dt mass time thresh c) c

/-- C27 as stated: after any history from a zero accumulation, one more step advances the clock by
the time step or resets it, and resets it exactly when it snows at the cell and the precipitation
accumulated since the last reset reaches the threshold. -/
def C27_full (K : Type) [Field K] [LinearOrder K] [IsStrictOrderedRing K] : Prop :=
  ∀ (dt mass time thresh : K) (c : Clock Unit K) (s : Images Unit K), 0 < dt → 0 < mass →
    (∀ i, 0 ≤ c.days i) → (∀ i, 0 ≤ c.precip i) → ∀ i,
    (timeSinceStorm s.precip s.perc dt mass time thresh c).days i =
      if thresh ≤ s.perc i ∧ mass ≤ c.precip i + s.precip i then 0 else c.days i + dt

/-- The clock advances by one *day* whatever the time step, or is reset. -/
theorem C27_step_partial (dt mass time thresh : K) (c : Clock ι K) (s : Images ι K) (i : ι) :
    (timeSinceStorm s.precip s.perc dt mass time thresh c).days i = c.days i + 1 ∨
    (timeSinceStorm s.precip s.perc dt mass time thresh c).days i = 0 := by
  unfold timeSinceStorm
  simp only
  split
  · exact .inl rfl
  · simp only
    generalize (if thresh ≤ s.perc i then s.precip i else _) = v
    split
    · exact .inr rfl
    · exact .inl rfl

/-- At a snowing cell the clock is reset exactly when the precipitation of this one step reaches
the threshold (nothing is accumulated), provided it snows at all in the domain. -/
theorem C27_snowing_cell_partial (dt mass time thresh : K) (c : Clock ι K) (s : Images ι K) (i : ι)
    (hd : 0 ≤ c.days i) (hperc : ∀ j, 0 ≤ s.perc j) (hth : 0 < thresh) (hs : thresh ≤ s.perc i) :
    (timeSinceStorm s.precip s.perc dt mass time thresh c).days i = 0 ↔ mass ≤ s.precip i := by
  have hsum : ∑ j, s.perc j ≠ 0 := by
    have : s.perc i ≤ ∑ j, s.perc j :=
      Finset.single_le_sum (fun j _ => hperc j) (Finset.mem_univ i)
    exact ne_of_gt (lt_of_lt_of_le hth (le_trans hs this))
  unfold timeSinceStorm
  simp only [if_neg hsum, if_pos hs]
  constructor
  · intro h
    by_contra hlt
    rw [if_neg hlt] at h
    linarith
  · intro h; rw [if_pos h]

/-- At a cell without snow, while it snows elsewhere, the storm total is kept for less than `time`
steps since the last reset and then forgotten; the clock is reset exactly while a kept total reaches
the threshold. -/
theorem C27_other_cell_partial (dt mass time thresh : K) (c : Clock ι K) (s : Images ι K) (i : ι)
    (hd : 0 ≤ c.days i) (hm : 0 < mass) (hsnow : ∑ j, s.perc j ≠ 0) (hs : s.perc i < thresh) :
    ((timeSinceStorm s.precip s.perc dt mass time thresh c).days i = 0 ↔
      c.days i + 1 < time ∧ mass ≤ c.precip i) ∧
    (timeSinceStorm s.precip s.perc dt mass time thresh c).precip i =
      if c.days i + 1 < time then c.precip i else 0 := by
  unfold timeSinceStorm
  simp only [if_neg hsnow, if_neg (not_le.2 hs)]
  by_cases ht : time ≤ c.days i + 1
  · have h1 : ¬ c.days i + 1 < time := not_lt.2 ht
    rw [if_neg h1]
    simp only [if_pos ht, if_neg (not_le.2 hm), h1, false_and, iff_false, and_true]
    linarith
  · have h1 : c.days i + 1 < time := not_le.1 ht
    rw [if_pos h1]
    simp only [if_neg ht, h1, true_and, and_true]
    constructor
    · intro h
      by_contra hlt
      rw [if_neg hlt] at h
      linarith
    · intro h; rw [if_pos h]

/-- A step without snow anywhere always advances the clock and forgets the storm. -/
theorem C27_no_snow (dt mass time thresh : K) (c : Clock ι K) (s : Images ι K)
    (h0 : ∀ j, s.perc j = 0) (i : ι) :
    (timeSinceStorm s.precip s.perc dt mass time thresh c).days i = c.days i + 1 ∧
    (timeSinceStorm s.precip s.perc dt mass time thresh c).precip i = 0 := by
  have hsum : ∑ j, s.perc j = 0 := Finset.sum_eq_zero fun j _ => h0 j
  unfold timeSinceStorm
  simp [hsum]

/-- After any history the clock is the number of steps since the last reset, or the initial value
plus the number of steps. -/
theorem C27_counts_steps (dt mass time thresh : K) (c : Clock ι K) (h : List (Images ι K)) (i : ι) :
    (runStorm dt mass time thresh c h).days i = c.days i + h.length ∨
    ∃ pre suf, h = pre ++ suf ∧ (runStorm dt mass time thresh c pre).days i = 0 ∧ pre ≠ [] ∧
      (runStorm dt mass time thresh c h).days i = suf.length := by
  induction h using List.reverseRecOn with
  | nil => left; simp [runStorm]
  | append_singleton h s ih =>
    have e : runStorm dt mass time thresh c (h ++ [s]) =
        timeSinceStorm s.precip s.perc dt mass time thresh (runStorm dt mass time thresh c h) := by
      simp [runStorm]
    rcases C27_step_partial dt mass time thresh (runStorm dt mass time thresh c h) s i with h1 | h1
    · rw [← e] at h1
      rcases ih with ih | ⟨pre, suf, rfl, h2, h3, h4⟩
      · left; rw [h1, ih]; push_cast [List.length_append, List.length_singleton]; ring
      · right
        refine ⟨pre, suf ++ [s], by simp, h2, h3, ?_⟩
        rw [h1, h4]; push_cast [List.length_append, List.length_singleton]; ring
    · rw [← e] at h1
      exact .inr ⟨h ++ [s], [], by simp, h1, by simp, by simpa using h1⟩

/-- Once a cell had a storm step, its clock stays at 0 while it snows anywhere in the domain, even
if nothing falls at the cell (time limit above one). -/
theorem C27_sticky_fails (dt mass time thresh : K) (htime : 1 < time) (c : Clock ι K) (i : ι)
    (h0 : c.days i = 0) (h1 : mass ≤ c.precip i) (hist : List (Images ι K))
    (hs : ∀ s ∈ hist, ∑ j, s.perc j ≠ 0 ∧ s.perc i < thresh) :
    (runStorm dt mass time thresh c hist).days i = 0 ∧
      mass ≤ (runStorm dt mass time thresh c hist).precip i := by
  induction hist using List.reverseRecOn with
  | nil => exact ⟨h0, h1⟩
  | append_singleton h s ih =>
    obtain ⟨ih1, ih2⟩ := ih fun s' hs' => hs s' (List.mem_append_left _ hs')
    obtain ⟨ha, hb⟩ := hs s (by simp)
    have e : runStorm dt mass time thresh c (h ++ [s]) =
        timeSinceStorm s.precip s.perc dt mass time thresh (runStorm dt mass time thresh c h) := by
      simp [runStorm]
    rw [e]
    unfold timeSinceStorm
    have hlt : ¬ (time ≤ (runStorm dt mass time thresh c h).days i + 1) := by
      rw [ih1, zero_add]; exact not_le.2 htime
    simp only [if_neg ha, if_neg (not_le.2 hb), if_neg hlt, if_pos ih2]
    exact ⟨trivial, ih2⟩

end

/-- The full claim is false: with hourly steps the clock advances a whole day per step. -/
theorem C27_time_step_fails : ¬ C27_full ℚ := by
  intro h
  have := h (1 / 24) 1 4 (1 / 2) ⟨fun _ => 0, fun _ => 0⟩ ⟨fun _ => 0, fun _ => 0⟩
    (by norm_num) (by norm_num) (fun _ => le_refl _) (fun _ => le_refl _) ()
  norm_num [timeSinceStorm] at this

/-- The full claim is also false with daily steps: precipitation is not accumulated over the storm.
Two steps of 0.6 with threshold 1 never reset the clock. -/
theorem C27_accumulation_fails :
    (runStorm (ι := Unit) (1 : ℚ) 1 4 (1 / 2) ⟨fun _ => 0, fun _ => 0⟩
      [⟨fun _ => 3 / 5, fun _ => 1⟩, ⟨fun _ => 3 / 5, fun _ => 1⟩]).days () = 2 := by
  norm_num [runStorm, timeSinceStorm]

/-- A snowing cell with a storm-sized step. -/
example : (timeSinceStorm (ι := Fin 2) (K := ℚ) (fun _ => 2) (fun i => if i = 0 then 1 else 0)
    (1 / 24) 1 4 (1 / 2) ⟨fun _ => 3, fun _ => 0⟩).days 0 = 0 :=
  (C27_snowing_cell_partial (1 / 24) 1 4 (1 / 2) ⟨fun _ => 3, fun _ => 0⟩
    ⟨fun _ => 2, fun i => if i = 0 then 1 else 0⟩ 0 (by norm_num)
    (by intro j; simp only; split <;> norm_num) (by norm_num) (by norm_num)).2 (by norm_num)

/-- A dry cell next to a snowing one, two days after a storm of 2. -/
example : (timeSinceStorm (ι := Fin 2) (K := ℚ) (fun _ => 0) (fun i => if i = 0 then 1 else 0)
    (1 / 24) 1 4 (1 / 2) ⟨fun _ => 2, fun _ => 2⟩).precip 1 = 2 := by
  have := (C27_other_cell_partial (1 / 24) 1 4 (1 / 2) (⟨fun _ => 2, fun _ => 2⟩ : Clock (Fin 2) ℚ)
    ⟨fun _ => 0, fun i => if i = 0 then 1 else 0⟩ 1 (by norm_num) (by norm_num)
    (by simp) (by norm_num)).2
  rw [this]; norm_num

/-! ### C28 -/

section
variable {K : Type} [Field K] [LinearOrder K] [IsStrictOrderedRing K] {ι : Type} [Fintype ι]

/-- One call of `time_since_storm_pixel`. -/
structure PixStep (ι K : Type) where
  precip : ι → K
  dpt : ι → K
  perc : ι → K
  storming : Bool

def runPixel (dt mass thresh : K) (days : ι → K) (h : List (PixStep ι K)) : ι → K :=
  h.foldl (fun d s => timeSinceStormPixel s.precip s.dpt s.perc s.storming dt mass thresh d) days

/-- The step counts as a storm at cell `i`. -/
def StormAt (mass thresh : K) (s : PixStep ι K) (i : ι) : Prop :=
  s.storming = true ∧ (∃ j, s.dpt j < 2) ∧ mass ≤ s.precip i ∧ thresh ≤ s.perc i

omit [IsStrictOrderedRing K] in
theorem runPixel_snoc (dt mass thresh : K) (days : ι → K) (h : List (PixStep ι K)) (s : PixStep ι K)
    (i : ι) : (StormAt mass thresh s i → runPixel dt mass thresh days (h ++ [s]) i = 0) ∧
      (¬ StormAt mass thresh s i →
        runPixel dt mass thresh days (h ++ [s]) i = runPixel dt mass thresh days h i + dt) := by
  have e : runPixel dt mass thresh days (h ++ [s]) =
      timeSinceStormPixel s.precip s.dpt s.perc s.storming dt mass thresh
        (runPixel dt mass thresh days h) := by simp [runPixel]
  rw [e]
  unfold timeSinceStormPixel StormAt
  simp only
  constructor
  · rintro ⟨h1, h2, h3, h4⟩
    rw [if_pos ⟨h1, h2⟩]; simp [h3, h4]
  · intro hn
    split
    · rename_i hc
      simp only
      rw [if_neg]
      exact fun h' => hn ⟨hc.1, hc.2, h'.1, h'.2⟩
    · rfl

/-- No storm at the cell so far: initial value plus elapsed time. -/
theorem C28_no_storm (dt mass thresh : K) (days : ι → K) (h : List (PixStep ι K)) (i : ι)
    (hn : ∀ s ∈ h, ¬ StormAt mass thresh s i) :
    runPixel dt mass thresh days h i = days i + h.length * dt := by
  induction h using List.reverseRecOn with
  | nil => simp [runPixel]
  | append_singleton h s ih =>
    rw [(runPixel_snoc dt mass thresh days h s i).2 (hn s (by simp)),
      ih fun s' hs' => hn s' (List.mem_append_left _ hs')]
    push_cast [List.length_append, List.length_singleton]; ring

/-- Otherwise: the time elapsed since the last storm step at the cell. -/
theorem C28_since_last_storm (dt mass thresh : K) (days : ι → K) (pre suf : List (PixStep ι K))
    (s : PixStep ι K) (i : ι) (hs : StormAt mass thresh s i)
    (hn : ∀ s' ∈ suf, ¬ StormAt mass thresh s' i) :
    runPixel dt mass thresh days (pre ++ s :: suf) i = suf.length * dt := by
  have e : runPixel dt mass thresh days (pre ++ s :: suf) =
      runPixel dt mass thresh (runPixel dt mass thresh days (pre ++ [s])) suf := by
    simp [runPixel]
  rw [e, C28_no_storm _ _ _ _ _ _ hn, (runPixel_snoc dt mass thresh days pre s i).1 hs, zero_add]

/-- The clock is never negative. -/
theorem C28_nonneg (dt mass thresh : K) (hdt : 0 ≤ dt) (days : ι → K) (hd : ∀ i, 0 ≤ days i)
    (h : List (PixStep ι K)) (i : ι) : 0 ≤ runPixel dt mass thresh days h i := by
  induction h using List.reverseRecOn with
  | nil => exact hd i
  | append_singleton h s ih =>
    by_cases hs : StormAt mass thresh s i
    · rw [(runPixel_snoc dt mass thresh days h s i).1 hs]
    · rw [(runPixel_snoc dt mass thresh days h s i).2 hs]; linarith

/-- Cells are independent apart from the domain-wide temperature test. -/
theorem C28_local (dt mass thresh : K) (days days' : ι → K) (i : ι) (hd : days i = days' i)
    (h h' : List (PixStep ι K))
    (hh : List.Forall₂ (fun s s' => s.precip i = s'.precip i ∧ s.perc i = s'.perc i ∧
      s.storming = s'.storming ∧ ((∃ j, s.dpt j < 2) ↔ ∃ j, s'.dpt j < 2)) h h') :
    runPixel dt mass thresh days h i = runPixel dt mass thresh days' h' i := by
  induction hh generalizing days days' with
  | nil => exact hd
  | @cons s s' h h' hss _ ih =>
    refine ih (days := timeSinceStormPixel s.precip s.dpt s.perc s.storming dt mass thresh days)
      (days' := timeSinceStormPixel s'.precip s'.dpt s'.perc s'.storming dt mass thresh days') ?_
    obtain ⟨h1, h2, h3, h4⟩ := hss
    have hiff : StormAt mass thresh s i ↔ StormAt mass thresh s' i := by
      unfold StormAt; rw [h1, h2, h3, h4]
    have a := runPixel_snoc dt mass thresh days [] s i
    have b := runPixel_snoc dt mass thresh days' [] s' i
    simp only [List.nil_append, runPixel, List.foldl_cons, List.foldl_nil] at a b
    by_cases hs : StormAt mass thresh s i
    · rw [a.1 hs, b.1 (hiff.1 hs)]
    · rw [a.2 hs, b.2 (fun h' => hs (hiff.2 h')), hd]

end

/-- Hourly steps, a storm at step 2 of 4: two hours since. -/
example : runPixel (ι := Unit) (1 / 24 : ℚ) 1 (1 / 2) (fun _ => 7)
    ([⟨fun _ => 0, fun _ => 0, fun _ => 1, false⟩] ++ ⟨fun _ => 2, fun _ => 0, fun _ => 1, true⟩ ::
      [⟨fun _ => 0, fun _ => 0, fun _ => 0, true⟩, ⟨fun _ => 5, fun _ => 3, fun _ => 1, true⟩]) () =
    2 * (1 / 24) := by
  refine C28_since_last_storm _ _ _ _ _ _ _ _ ⟨rfl, ⟨(), by norm_num⟩, by norm_num, by norm_num⟩ ?_
  intro s hs
  simp at hs
  rcases hs with rfl | rfl <;> norm_num [StormAt]

end Verif.Storms
