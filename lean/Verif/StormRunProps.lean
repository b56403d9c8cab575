import Verif.StormRun
import Verif.StormsProps
import Mathlib.Algebra.Order.BigOperators.Group.List

/-!
C110: storms during a run with the marks2017 model.
-/

namespace Verif.StormRun
open Verif.Precip Verif.Storms

/-- `time` lies in the storm. -/
def In (s : Storm Nat ℝ) (time : Nat) : Prop := s.start ≤ time ∧ time ≤ s.stop

theorem search_found (time : Nat) (l : List (Storm Nat ℝ)) (k0 : Nat) (f : Found)
    (hp : l.Pairwise fun s t => s.stop < t.start) (j : Nat) (s : Storm Nat ℝ) (hj : l[j]? = some s)
    (hin : In s time) : search time k0 f l = ⟨true, some (k0 + j), some s.start, some s⟩ := by
  induction l generalizing k0 f j with
  | nil => cases hj
  | cons h r ih =>
    cases j with
    | zero =>
      have : h = s := Option.some.inj hj
      subst this
      unfold search
      rw [if_pos (show h.start ≤ time ∧ time ≤ h.stop from hin)]
      rfl
    | succ j =>
      have hj' : r[j]? = some s := hj
      have hlt := (List.pairwise_cons.1 hp).1 s (List.mem_of_getElem? hj')
      unfold search
      rw [if_neg (fun h => by have := hin.1; omega), ih _ _ (List.pairwise_cons.1 hp).2 j hj']
      rw [show k0 + 1 + j = k0 + (j + 1) by omega]

theorem search_none (time : Nat) (l : List (Storm Nat ℝ)) (k0 : Nat) (f : Found) (h : ∀ s ∈ l, ¬ In s time) :
    (search time k0 f l).id = f.id ∧ (search time k0 f l).storm = f.storm ∧ (l ≠ [] → (search time k0 f l).storming = false) ∧
    (l ≠ [] → ∃ s ∈ l, (search time k0 f l).start = some s.start) := by
  induction l generalizing k0 f with
  | nil => exact ⟨rfl, rfl, fun h => absurd rfl h, fun h => absurd rfl h⟩
  | cons s r ih =>
    obtain ⟨h1, h2, h3, h4⟩ := ih (k0 + 1) { f with storming := false, start := some s.start }
      (fun t ht => h t (List.mem_cons_of_mem _ ht))
    have e : search time k0 f (s :: r) = search time (k0 + 1) { f with storming := false, start := some s.start } r := by
      rw [search, if_neg (show ¬ (s.start ≤ time ∧ time ≤ s.stop) from h s (by simp))]
    rw [e]
    refine ⟨h1, h2, fun _ => ?_, fun _ => ?_⟩
    · cases r with
      | nil => rfl
      | cons a r => exact h3 (by simp)
    · cases r with
      | nil => exact ⟨s, by simp, rfl⟩
      | cons a r =>
        obtain ⟨t, ht, he⟩ := h4 (by simp)
        exact ⟨t, List.mem_cons_of_mem _ ht, he⟩

/-- C110, the search: in a table of storms that follow each other, the storm of the time is found, with its number; outside all
storms the number is kept. -/
theorem C110_search (time : Nat) (l : List (Storm Nat ℝ)) (st : Bool) (id : Option Nat)
    (hp : l.Pairwise fun s t => s.stop < t.start) :
    (∀ (j : Nat) (s : Storm Nat ℝ), l[j]? = some s → In s time → search time 0 ⟨st, id, none, none⟩ l = ⟨true, some j, some s.start, some s⟩) ∧
    ((∀ s ∈ l, ¬ In s time) → l ≠ [] → (search time 0 ⟨st, id, none, none⟩ l).storming = false ∧
      (search time 0 ⟨st, id, none, none⟩ l).id = id) := by
  constructor
  · intro j s hj hin
    rw [search_found time l 0 _ hp j s hj hin, Nat.zero_add]
  · intro h hne
    obtain ⟨h1, -, h3, -⟩ := search_none time l 0 ⟨st, id, none, none⟩ h
    exact ⟨h3 hne, h1⟩

/-! ### The corrected table -/

/-- The correction for undercatch multiplies every value by a positive number (C33), or does nothing. -/
def Scales (adjust : Nat → List (Option ℝ) → List (Option ℝ)) : Prop :=
  ∀ i row, ∃ c : Nat → ℝ, (∀ k, 0 < c k) ∧ adjust i row = row.mapIdx fun k x => x.map (· * c k)

/-- The table used by the run. -/
noncomputable def corrected (thr : ℝ) (n width : Nat) (tbl : List (List (Option ℝ))) : List (List (Option ℝ)) :=
  clipAndCorrect (storms thr n tbl) width (List.range width) tbl

theorem corrected_row (thr : ℝ) (n width : Nat) (tbl : List (List (Option ℝ))) (i : Nat) :
    (tbl[i]? = none → (corrected thr n width tbl)[i]? = none) ∧
    ∀ r, tbl[i]? = some r → ∃ row, (corrected thr n width tbl)[i]? = some row ∧ row.length = r.length := by
  unfold corrected clipAndCorrect clip
  simp only [List.getElem?_map, List.getElem?_mapIdx]
  constructor
  · intro h; rw [h]; rfl
  · intro r h
    rw [h]
    refine ⟨_, rfl, ?_⟩
    simp only [correctRow, List.length_mapIdx, clipRow]
    split <;> simp

theorem rowSum_zero (row : List (Option ℝ)) (h : ∀ x, some x ∈ row → x = 0) : rowSum row = 0 := by
  unfold rowSum
  apply List.sum_eq_zero
  intro x hx
  obtain ⟨y, hy, hxy⟩ := List.mem_filterMap.1 hx
  exact h x (by rw [show some x = y from hxy.symm]; exact hy)

theorem rowSum_pos (row : List (Option ℝ)) (h : ∀ x, some x ∈ row → 0 ≤ x) (x : ℝ) (hx : some x ∈ row) (h0 : 0 < x) :
    0 < rowSum row := by
  unfold rowSum
  refine lt_of_lt_of_le h0 (List.single_le_sum ?_ x (List.mem_filterMap.2 ⟨some x, hx, rfl⟩))
  intro y hy
  obtain ⟨z, hz, hyz⟩ := List.mem_filterMap.1 hy
  exact h y (by rw [show some y = z from hyz.symm]; exact hz)

theorem wet_inside (thr : ℝ) (n width : Nat) (tbl : List (List (Option ℝ))) (hrect : ∀ row ∈ tbl, row.length = width)
    (adjust : Nat → List (Option ℝ) → List (Option ℝ)) (ha : Scales adjust) (i : Nat) (row : List (Option ℝ))
    (hr : (corrected thr n width tbl)[i]? = some row) (hs : 0 < rowSum (adjust i row)) :
    ∃ s ∈ storms thr n tbl, In s i := by
  by_contra hno
  have ho : Outside (storms thr n tbl) i := fun s hs hin => hno ⟨s, hs, hin⟩
  obtain ⟨c, -, he⟩ := ha i row
  have hz : ∀ x, some x ∈ row → x = 0 := by
    intro x hx
    obtain ⟨k, hk⟩ := List.mem_iff_getElem?.1 hx
    cases h0 : tbl[i]? with
    | none => rw [(corrected_row thr n width tbl i).1 h0] at hr; cases hr
    | some r =>
      obtain ⟨row', h1, h2⟩ := (corrected_row thr n width tbl i).2 r h0
      rw [hr] at h1
      have h1 := Option.some.inj h1
      subst h1
      have hlen : r.length = width := hrect r (List.mem_of_getElem? h0)
      have hkl : k < row.length := (List.getElem?_eq_some_iff.1 hk).1
      have hkw : k < width := by omega
      have hcell : (at' tbl i k).isSome := by
        unfold at'
        rw [h0]
        simp [h2 ▸ hkl]
      have := C25_outside_zero (storms thr n tbl) width (List.range width) tbl i k (.inl (by simpa using hkw)) ho hcell
      have h3 : at' (corrected thr n width tbl) i k = some (some x) := by
        unfold at'
        rw [hr]; exact hk
      unfold corrected at h3
      rw [this] at h3
      exact (Option.some.inj (Option.some.inj h3)).symm
  have : rowSum (adjust i row) = 0 := by
    apply rowSum_zero
    intro x hx
    rw [he] at hx
    obtain ⟨k, hk⟩ := List.mem_iff_getElem?.1 hx
    rw [List.getElem?_mapIdx] at hk
    obtain ⟨y, hy, hxy⟩ := Option.map_eq_some_iff.1 hk
    obtain ⟨z, hz1, hz2⟩ := Option.map_eq_some_iff.1 hxy
    subst hz1
    rw [hz z (List.mem_of_getElem? hy), zero_mul] at hz2
    exact hz2.symm
  rw [this] at hs
  exact lt_irrefl _ hs

theorem start_wet (thr : ℝ) (hthr : 0 ≤ thr) (n width : Nat) (tbl : List (List (Option ℝ)))
    (hrect : ∀ row ∈ tbl, row.length = width) (hn : Nonneg tbl)
    (adjust : Nat → List (Option ℝ) → List (Option ℝ)) (ha : Scales adjust) (s : Storm Nat ℝ) (hs : s ∈ storms thr n tbl) :
    ∃ row, (corrected thr n width tbl)[s.start]? = some row ∧ 0 < rowSum (adjust s.start row) := by
  obtain ⟨hse, -, r, x, hr, hx, hxt⟩ := (C23_ordered_disjoint thr n width tbl hrect).2 s hs
  obtain ⟨row, h1, h2⟩ := (corrected_row thr n width tbl s.start).2 r hr
  refine ⟨row, h1, ?_⟩
  have hlen : r.length = width := hrect r (List.mem_of_getElem? hr)
  have hno : ¬ Outside (storms thr n tbl) s.start := fun h => h s hs ⟨le_refl _, hse⟩
  -- every value of the row
  have hval : ∀ (k : Nat) (y : ℝ), r[k]? = some (some y) → ∃ c, row[k]? = some (some (y * c)) ∧ (0 < y → 1 ≤ c) := by
    intro k y hy
    have hkw : k < width := by have := (List.getElem?_eq_some_iff.1 hy).1; omega
    obtain ⟨c, g1, g2⟩ := C25_proportional (storms thr n tbl) width (List.range width) tbl hn k (.inl (by simpa using hkw))
    have hat : at' tbl s.start k = some (some y) := by unfold at'; rw [hr]; exact hy
    refine ⟨c, ?_, fun hy0 => g2 ⟨s.start, y, hno, hat, hy0⟩⟩
    have := g1 s.start y hno hat
    unfold at' at this
    have h1' : (clipAndCorrect (storms thr n tbl) width (List.range width) tbl)[s.start]? = some row := h1
    rw [h1'] at this
    exact this
  have hnan : ∀ k : Nat, r[k]? = some none → row[k]? ≠ none → row[k]? = some none := by
    intro k hk hne
    unfold corrected clipAndCorrect clip at h1
    simp only [List.getElem?_map, List.getElem?_mapIdx, hr, Option.map_some] at h1
    have h1 := Option.some.inj h1
    have hin : ((storms thr n tbl).any fun t => decide (t.start ≤ s.start) && decide (s.start ≤ t.stop)) = true := by
      rw [List.any_eq_true]
      exact ⟨s, hs, by simp [hse]⟩
    rw [← h1]
    unfold correctRow clipRow
    rw [if_pos hin, List.getElem?_mapIdx, hk]
    by_cases hkw : k ∈ List.range width <;> simp [hkw]
  have hrow : ∀ x, some x ∈ row → 0 ≤ x := by
    intro x hx
    obtain ⟨k, hk⟩ := List.mem_iff_getElem?.1 hx
    have hkl : k < r.length := by rw [← h2]; exact (List.getElem?_eq_some_iff.1 hk).1
    cases hrk : r[k]? with
    | none => rw [List.getElem?_eq_none_iff] at hrk; omega
    | some o =>
      cases o with
      | none => have := hnan k hrk (by rw [hk]; simp); rw [hk] at this; cases this
      | some y =>
        obtain ⟨c, g1, g2⟩ := hval k y hrk
        rw [hk] at g1
        have hxy : x = y * c := Option.some.inj (Option.some.inj g1)
        have hy0 : 0 ≤ y := hn r (List.mem_of_getElem? hr) y (List.mem_of_getElem? hrk)
        rcases hy0.lt_or_eq with h | h
        · rw [hxy]; exact mul_nonneg hy0 (by linarith [g2 h])
        · rw [hxy, ← h, zero_mul]
  obtain ⟨k, hk⟩ := List.mem_iff_getElem?.1 hx
  have hx0 : 0 < x := lt_of_le_of_lt hthr hxt
  obtain ⟨c, g1, g2⟩ := hval k x hk
  obtain ⟨a, ha0, hae⟩ := ha s.start row
  rw [hae]
  refine rowSum_pos _ ?_ (x * c * a k) ?_ (mul_pos (mul_pos hx0 (by linarith [g2 hx0])) (ha0 k))
  · intro y hy
    obtain ⟨j, hj⟩ := List.mem_iff_getElem?.1 hy
    rw [List.getElem?_mapIdx] at hj
    obtain ⟨o, ho, hoy⟩ := Option.map_eq_some_iff.1 hj
    obtain ⟨z, hz1, hz2⟩ := Option.map_eq_some_iff.1 hoy
    subst hz1
    rw [← hz2]
    exact mul_nonneg (hrow z (List.mem_of_getElem? ho)) (ha0 j).le
  · refine List.mem_iff_getElem?.2 ⟨k, ?_⟩
    rw [List.getElem?_mapIdx, g1]
    rfl

/-! ### The run -/

section
variable {ι : Type} [Fintype ι]

/-- A step in terms of the specification: no exception; with precipitation the storm of the time is entered; the total is
replaced in the first step of a storm if some cell is below two degrees. -/
theorem step_spec (cfg : PCfg) (env : SEnv ι) (thr : ℝ) (n width : Nat) (tbl : List (List (Option ℝ)))
    (hrect : ∀ row ∈ tbl, row.length = width) (adjust : Nat → List (Option ℝ) → List (Option ℝ)) (ha : Scales adjust)
    (i : Nat) (row : List (Option ℝ)) (hr : (corrected thr n width tbl)[i]? = some row) (temp : ι → ℝ) (s : SState ι) :
    ∃ s', stormStep cfg env (storms thr n tbl) i (adjust i row) temp s = .ok s' ∧
      (¬ 0 < rowSum (adjust i row) → s'.storming = s.storming ∧ s'.id = s.id ∧ s'.base.total = s.base.total) ∧
      (0 < rowSum (adjust i row) → s'.storming = true ∧ ∃ (k : Nat) (w : Storm Nat ℝ), s'.id = some k ∧
        (storms thr n tbl)[k]? = some w ∧ In w i ∧
        ((i = w.start ∧ ∃ c, temp c < 2) → s'.base.total = env.dist w.mass) ∧
        (¬ (i = w.start ∧ ∃ c, temp c < 2) → s'.base.total = s.base.total)) := by
  classical
  by_cases hs : 0 < rowSum (adjust i row)
  · obtain ⟨w, hw, hin⟩ := wet_inside thr n width tbl hrect adjust ha i row hr hs
    obtain ⟨k, hk⟩ := List.mem_iff_getElem?.1 hw
    have hsr := (C110_search i (storms thr n tbl) s.storming s.id (C23_ordered_disjoint thr n width tbl hrect).1).1 k w hk hin
    have htot : ∀ t, (marksStep cfg env.toP (adjust i row) true t temp s.base).total =
        if ∃ c, temp c < 2 then t.getD s.base.total else s.base.total := by
      intro t
      unfold marksStep
      rw [if_pos (show 0 < env.toP.sum (adjust i row) from hs)]
    unfold stormStep
    rw [if_pos hs, hsr]
    simp only
    by_cases he : i = w.start
    · rw [if_pos he]
      refine ⟨_, rfl, fun h => absurd hs h, fun _ => ⟨rfl, k, w, rfl, hk, hin, ?_, ?_⟩⟩
      · rintro ⟨-, hc⟩
        show (marksStep _ _ _ _ _ _ _).total = _
        rw [htot, if_pos hc]; rfl
      · intro h
        show (marksStep _ _ _ _ _ _ _).total = _
        rw [htot, if_neg fun hc => h ⟨he, hc⟩]
    · rw [if_neg he]
      refine ⟨_, rfl, fun h => absurd hs h, fun _ => ⟨rfl, k, w, rfl, hk, hin, fun h => absurd h.1 he, fun _ => ?_⟩⟩
      show (marksStep _ _ _ _ _ _ _).total = _
      rw [htot]
      split <;> rfl
  · unfold stormStep
    rw [if_neg hs]
    refine ⟨_, rfl, fun _ => ⟨rfl, rfl, ?_⟩, fun h => absurd h hs⟩
    show (marksStep _ _ _ _ _ _ _).total = _
    unfold marksStep
    rw [if_neg (show ¬ 0 < env.toP.sum (adjust i row) from hs)]

/-- C110: a run over the corrected data never stops with an exception; after a step with precipitation the state names the one
storm of that time and `storming` is set. -/
theorem C110_runs (cfg : PCfg) (env : SEnv ι) (thr : ℝ) (n width : Nat) (tbl : List (List (Option ℝ)))
    (hrect : ∀ row ∈ tbl, row.length = width) (adjust : Nat → List (Option ℝ) → List (Option ℝ)) (ha : Scales adjust)
    (temp : Nat → ι → ℝ) (s : SState ι) (i : Nat) (hi : i ≤ tbl.length) :
    ∃ s', before cfg env (storms thr n tbl) (corrected thr n width tbl) adjust temp s i = .ok s' ∧
      ∀ j row, i = j + 1 → (corrected thr n width tbl)[j]? = some row → 0 < rowSum (adjust j row) →
        s'.storming = true ∧ ∃ (k : Nat) (w : Storm Nat ℝ), s'.id = some k ∧ (storms thr n tbl)[k]? = some w ∧ In w j ∧
          ∀ w' ∈ storms thr n tbl, In w' j → w' = w := by
  induction i with
  | zero => exact ⟨s, rfl, fun j row h => by omega⟩
  | succ i ih =>
    obtain ⟨s1, h1, -⟩ := ih (by omega)
    obtain ⟨r, hr⟩ : ∃ r, tbl[i]? = some r := ⟨tbl[i], List.getElem?_eq_getElem (by omega)⟩
    obtain ⟨row, hrow, -⟩ := (corrected_row thr n width tbl i).2 r hr
    obtain ⟨s2, h2, -, h3⟩ := step_spec cfg env thr n width tbl hrect adjust ha i row hrow (temp i) s1
    refine ⟨s2, ?_, ?_⟩
    · unfold before
      rw [h1]; simp only
      rw [hrow]; exact h2
    · intro j row' hij hj hs
      have hij : j = i := by omega
      subst hij
      rw [hrow] at hj
      have hj := Option.some.inj hj
      subst hj
      obtain ⟨h4, k, w, h5, h6, h7, -⟩ := h3 hs
      refine ⟨h4, k, w, h5, h6, h7, fun w' hw' hin => ?_⟩
      have hw := List.mem_of_getElem? h6
      obtain ⟨hp, -⟩ := C23_ordered_disjoint thr n width tbl hrect
      by_contra hne
      obtain ⟨a, ha'⟩ := List.mem_iff_getElem?.1 hw'
      have hak : a ≠ k := by rintro rfl; rw [ha'] at h6; exact hne (Option.some.inj h6)
      have hpw := List.pairwise_iff_getElem.1 hp
      obtain ⟨la, ea⟩ := List.getElem?_eq_some_iff.1 ha'
      obtain ⟨lk, ek⟩ := List.getElem?_eq_some_iff.1 h6
      rcases Nat.lt_or_gt_of_ne hak with h | h
      · have := hpw a k la lk h
        rw [ea, ek] at this
        have := hin.2; have := h7.1; omega
      · have := hpw k a lk la h
        rw [ea, ek] at this
        have := hin.1; have := h7.2; omega

theorem before_succ (cfg : PCfg) (env : SEnv ι) (thr : ℝ) (n width : Nat) (tbl : List (List (Option ℝ)))
    (hrect : ∀ row ∈ tbl, row.length = width) (adjust : Nat → List (Option ℝ) → List (Option ℝ)) (ha : Scales adjust)
    (temp : Nat → ι → ℝ) (s : SState ι) (i : Nat) (hi : i < tbl.length) : ∃ s1 s2 row,
      before cfg env (storms thr n tbl) (corrected thr n width tbl) adjust temp s i = .ok s1 ∧
      before cfg env (storms thr n tbl) (corrected thr n width tbl) adjust temp s (i + 1) = .ok s2 ∧
      (corrected thr n width tbl)[i]? = some row ∧
      stormStep cfg env (storms thr n tbl) i (adjust i row) (temp i) s1 = .ok s2 := by
  obtain ⟨s1, h1, -⟩ := C110_runs cfg env thr n width tbl hrect adjust ha temp s i (by omega)
  obtain ⟨r, hr⟩ : ∃ r, tbl[i]? = some r := ⟨tbl[i], List.getElem?_eq_getElem (by omega)⟩
  obtain ⟨row, hrow, -⟩ := (corrected_row thr n width tbl i).2 r hr
  obtain ⟨s2, h2, -⟩ := step_spec cfg env thr n width tbl hrect adjust ha i row hrow (temp i) s1
  refine ⟨s1, s2, row, h1, ?_, hrow, h2⟩
  unfold before
  rw [h1]; simp only
  rw [hrow]; exact h2

theorem total_kept (cfg : PCfg) (env : SEnv ι) (thr : ℝ) (n width : Nat) (tbl : List (List (Option ℝ)))
    (hrect : ∀ row ∈ tbl, row.length = width) (adjust : Nat → List (Option ℝ) → List (Option ℝ)) (ha : Scales adjust)
    (temp : Nat → ι → ℝ) (s : SState ι) (i : Nat) (hi : i < tbl.length)
    (hno : ∀ w ∈ storms thr n tbl, ¬ (i = w.start ∧ ∃ c, temp i c < 2)) (s1 s2 : SState ι)
    (h1 : before cfg env (storms thr n tbl) (corrected thr n width tbl) adjust temp s i = .ok s1)
    (h2 : before cfg env (storms thr n tbl) (corrected thr n width tbl) adjust temp s (i + 1) = .ok s2) :
    s2.base.total = s1.base.total := by
  obtain ⟨s1', s2', row, g1, g2, g3, g4⟩ := before_succ cfg env thr n width tbl hrect adjust ha temp s i hi
  rw [h1] at g1; rw [h2] at g2
  have g1 := Except.ok.inj g1
  have g2 := Except.ok.inj g2
  subst g1 g2
  obtain ⟨s3, k1, k2, k3⟩ := step_spec cfg env thr n width tbl hrect adjust ha i row g3 (temp i) s1
  rw [g4] at k1
  have k1 := Except.ok.inj k1
  subst k1
  by_cases hs : 0 < rowSum (adjust i row)
  · obtain ⟨-, k, w, -, hk, -, -, h⟩ := k3 hs
    exact h (hno w (List.mem_of_getElem? hk))
  · exact (k2 hs).2.2

/-- The claim of C110 about the total: after every step of a storm the storm total is the distributed mass of that storm. -/
def C110_full (ι : Type) [Fintype ι] : Prop := ∀ (cfg : PCfg) (env : SEnv ι) (thr : ℝ) (n width : Nat) (tbl : List (List (Option ℝ)))
  (adjust : Nat → List (Option ℝ) → List (Option ℝ)) (temp : Nat → ι → ℝ) (s : SState ι), 0 ≤ thr →
  (∀ row ∈ tbl, row.length = width) → Nonneg tbl → Scales adjust → ∀ w ∈ storms thr n tbl, ∀ i, In w i →
  ∃ s', before cfg env (storms thr n tbl) (corrected thr n width tbl) adjust temp s (i + 1) = .ok s' ∧
    s'.base.total = env.dist w.mass

/-- C110, the total: proved for storms that start with some cell below two degrees. The mass is that of C23: the measured
values of the steps above the threshold. -/
theorem C110_partial (cfg : PCfg) (env : SEnv ι) (thr : ℝ) (n width : Nat) (tbl : List (List (Option ℝ)))
    (adjust : Nat → List (Option ℝ) → List (Option ℝ)) (temp : Nat → ι → ℝ) (s : SState ι) (hthr : 0 ≤ thr)
    (hrect : ∀ row ∈ tbl, row.length = width) (hn : Nonneg tbl) (ha : Scales adjust) (w : Storm Nat ℝ)
    (hw : w ∈ storms thr n tbl) (hcold : ∃ c, temp w.start c < 2) (i : Nat) (hi : In w i) :
    ∃ s', before cfg env (storms thr n tbl) (corrected thr n width tbl) adjust temp s (i + 1) = .ok s' ∧
      s'.base.total = env.dist w.mass := by
  obtain ⟨hp, hg⟩ := C23_ordered_disjoint thr n width tbl hrect
  obtain ⟨hse, hlt, -⟩ := hg w hw
  obtain ⟨hi1, hi2⟩ := hi
  -- uniqueness of the storm of a time
  have huniq : ∀ v ∈ storms thr n tbl, ∀ j, In v j → In w j → v = w := by
    intro v hv j h1 h2
    obtain ⟨a, ea⟩ := List.mem_iff_getElem?.1 hv
    obtain ⟨b, eb⟩ := List.mem_iff_getElem?.1 hw
    obtain ⟨la, ea'⟩ := List.getElem?_eq_some_iff.1 ea
    obtain ⟨lb, eb'⟩ := List.getElem?_eq_some_iff.1 eb
    rcases Nat.lt_trichotomy a b with h | h | h
    · have := List.pairwise_iff_getElem.1 hp a b la lb h
      rw [ea', eb'] at this
      have := h1.2; have := h2.1; omega
    · subst h; rw [ea] at eb; exact Option.some.inj eb
    · have := List.pairwise_iff_getElem.1 hp b a lb la h
      rw [ea', eb'] at this
      have := h1.1; have := h2.2; omega
  obtain ⟨d, rfl⟩ : ∃ d, i = w.start + d := ⟨i - w.start, by omega⟩
  clear hi1
  induction d with
  | zero =>
    obtain ⟨s1, s2, row, g1, g2, g3, g4⟩ := before_succ cfg env thr n width tbl hrect adjust ha temp s w.start (by omega)
    obtain ⟨row', r1, r2⟩ := start_wet thr hthr n width tbl hrect hn adjust ha w hw
    rw [g3] at r1
    have r1 := Option.some.inj r1
    subst r1
    obtain ⟨s3, k1, -, k3⟩ := step_spec cfg env thr n width tbl hrect adjust ha w.start row g3 (temp w.start) s1
    rw [g4] at k1
    have k1 := Except.ok.inj k1
    subst k1
    obtain ⟨-, k, v, -, hk, hin, h, -⟩ := k3 r2
    have := huniq v (List.mem_of_getElem? hk) w.start hin ⟨le_refl _, hse⟩
    subst this
    exact ⟨s2, g2, h ⟨rfl, hcold⟩⟩
  | succ d ih =>
    obtain ⟨s1, e1, e2⟩ := ih (by omega)
    obtain ⟨s2, e3, -⟩ := C110_runs cfg env thr n width tbl hrect adjust ha temp s (w.start + (d + 1) + 1) (by omega)
    refine ⟨s2, e3, ?_⟩
    rw [← e2]
    refine total_kept cfg env thr n width tbl hrect adjust ha temp s (w.start + (d + 1)) (by omega) ?_ s1 s2 e1 e3
    rintro v hv ⟨h, -⟩
    obtain ⟨hve, -⟩ := hg v hv
    have := huniq v hv (w.start + (d + 1)) ⟨by omega, by omega⟩ ⟨by omega, hi2⟩
    subst this
    omega

/-- C110 fails: a storm that starts with all cells at two degrees or more never gets its total; the state keeps the one of an
earlier storm, or zeros, even when it snows later in the storm. -/
theorem C110_warm_fails (cfg : PCfg) (env : SEnv ι) (thr : ℝ) (n width : Nat) (tbl : List (List (Option ℝ)))
    (adjust : Nat → List (Option ℝ) → List (Option ℝ)) (temp : Nat → ι → ℝ) (s : SState ι)
    (hrect : ∀ row ∈ tbl, row.length = width) (ha : Scales adjust) (w : Storm Nat ℝ)
    (hw : w ∈ storms thr n tbl) (hwarm : ∀ c, 2 ≤ temp w.start c) (i : Nat) (hi : In w i) :
    ∃ s0 s', before cfg env (storms thr n tbl) (corrected thr n width tbl) adjust temp s w.start = .ok s0 ∧
      before cfg env (storms thr n tbl) (corrected thr n width tbl) adjust temp s (i + 1) = .ok s' ∧
      s'.base.total = s0.base.total := by
  obtain ⟨hp, hg⟩ := C23_ordered_disjoint thr n width tbl hrect
  obtain ⟨hse, hlt, -⟩ := hg w hw
  obtain ⟨hi1, hi2⟩ := hi
  have huniq : ∀ v ∈ storms thr n tbl, ∀ j, In v j → In w j → v = w := by
    intro v hv j h1 h2
    obtain ⟨a, ea⟩ := List.mem_iff_getElem?.1 hv
    obtain ⟨b, eb⟩ := List.mem_iff_getElem?.1 hw
    obtain ⟨la, ea'⟩ := List.getElem?_eq_some_iff.1 ea
    obtain ⟨lb, eb'⟩ := List.getElem?_eq_some_iff.1 eb
    rcases Nat.lt_trichotomy a b with h | h | h
    · have := List.pairwise_iff_getElem.1 hp a b la lb h
      rw [ea', eb'] at this
      have := h1.2; have := h2.1; omega
    · subst h; rw [ea] at eb; exact Option.some.inj eb
    · have := List.pairwise_iff_getElem.1 hp b a lb la h
      rw [ea', eb'] at this
      have := h1.1; have := h2.2; omega
  obtain ⟨s0, e0, -⟩ := C110_runs cfg env thr n width tbl hrect adjust ha temp s w.start (by omega)
  have step : ∀ j, In w j → ∀ v ∈ storms thr n tbl, ¬ (j = v.start ∧ ∃ c, temp j c < 2) := by
    rintro j hj v hv ⟨h, c, hc⟩
    have := huniq v hv j ⟨by omega, by have := (hg v hv).1; omega⟩ hj
    subst this
    subst h
    exact absurd hc (not_lt.2 (hwarm c))
  obtain ⟨d, rfl⟩ : ∃ d, i = w.start + d := ⟨i - w.start, by omega⟩
  clear hi1
  induction d with
  | zero =>
    obtain ⟨s1, e1, -⟩ := C110_runs cfg env thr n width tbl hrect adjust ha temp s (w.start + 1) (by omega)
    exact ⟨s0, s1, e0, e1, total_kept cfg env thr n width tbl hrect adjust ha temp s w.start (by omega)
      (step _ ⟨le_refl _, hse⟩) s0 s1 e0 e1⟩
  | succ d ih =>
    obtain ⟨s0', s1, e1, e2, e3⟩ := ih (by omega)
    obtain ⟨s2, e4, -⟩ := C110_runs cfg env thr n width tbl hrect adjust ha temp s (w.start + (d + 1) + 1) (by omega)
    refine ⟨s0', s2, e1, e4, ?_⟩
    rw [← e3]
    exact total_kept cfg env thr n width tbl hrect adjust ha temp s (w.start + (d + 1)) (by omega)
      (step _ ⟨by omega, hi2⟩) s1 s2 e2 e4
end

/-! ### Witnesses -/

/-- One storm at one station: the middle step is below the threshold. -/
noncomputable def gauge : List (List (Option ℝ)) := [[some 1], [some (1 / 4)], [some 1]]

theorem gauge_storms : storms (1 / 2 : ℝ) 2 gauge = [⟨0, 2, [some 2]⟩] := by
  simp [storms, trackingByStation, label, gauge, trackLoop, trackStep, trackRow, trackClose, wetRow, rowMax]
  norm_num [addN]

theorem gauge_rect : ∀ row ∈ gauge, row.length = 1 := by
  simp [gauge]

theorem gauge_nonneg : Nonneg gauge := by
  intro row h x hx
  simp [gauge] at h
  rcases h with rfl | rfl | rfl <;> simp at hx <;> subst hx <;> norm_num

theorem same_scales : Scales fun _ row => row := by
  intro i row
  refine ⟨fun _ => 1, fun _ => by norm_num, ?_⟩
  apply List.ext_getElem?
  intro k
  rw [List.getElem?_mapIdx]
  cases row[k]? with
  | none => rfl
  | some x => cases x <;> simp

/-- One cell, the distribution is the value of the first station. -/
def first : SEnv Unit := ⟨fun d _ => match d with | some x :: _ => x | _ => 0, fun t _ => (t, t)⟩

/-- The start of a run. -/
def cold0 : SState Unit := ⟨⟨fun _ => 0, fun _ => 0, fun _ => 0, fun _ => 0, fun _ => 0⟩, false, some 0⟩

/-- C110 fails in the full form: a storm that starts with rain. -/
theorem C110_fails : ¬ C110_full Unit := by
  intro h
  have hmem : (⟨0, 2, [some 2]⟩ : Storm Nat ℝ) ∈ storms (1 / 2 : ℝ) 2 gauge := by rw [gauge_storms]; simp
  obtain ⟨s1, h1, h2⟩ := h ⟨false, true, false, false, 60, 1 / 2, 6⟩ first (1 / 2) 2 1 gauge (fun _ row => row)
    (fun i _ => if i = 0 then 5 else -5) cold0 (by norm_num) gauge_rect gauge_nonneg same_scales _ hmem 2 ⟨by simp, by simp⟩
  obtain ⟨s0, s2, h3, h4, h5⟩ := C110_warm_fails ⟨false, true, false, false, 60, 1 / 2, 6⟩ first (1 / 2) 2 1 gauge (fun _ row => row)
    (fun i _ => if i = 0 then 5 else -5) cold0 gauge_rect same_scales _ hmem (by intro c; norm_num) 2 ⟨by simp, by simp⟩
  rw [h1] at h4
  have h4 := Except.ok.inj h4
  subst h4
  have h3 : Except.ok cold0 = Except.ok s0 := h3
  have h3 := Except.ok.inj h3
  subst h3
  rw [h2] at h5
  have := congrFun h5 ()
  simp [first, cold0] at this

/-- C110 fails for the meaning of the total: the precipitation that is distributed during the storm adds up to more than the
total that is distributed for it, because the total leaves out the steps below the threshold. -/
theorem C110_mass_fails : corrected (1 / 2) 2 1 gauge = gauge ∧
    (∃ w ∈ storms (1 / 2 : ℝ) 2 gauge, w.start = 0 ∧ w.stop = 2 ∧ w.mass = [some 2]) ∧ total gauge 0 = 9 / 4 := by
  refine ⟨?_, ⟨_, by rw [gauge_storms]; exact List.mem_singleton.2 rfl, rfl, rfl, rfl⟩, ?_⟩
  · unfold corrected
    rw [gauge_storms]
    simp [clipAndCorrect, clip, clipRow, gauge, correctRow, correction, columnSum]
    norm_num
  · simp [total, gauge]
    norm_num

/-- The same storm, cold at its start: the total is there after every step. -/
example : ∃ s', before ⟨false, true, false, false, 60, 1 / 2, 6⟩ first (storms (1 / 2 : ℝ) 2 gauge) (corrected (1 / 2) 2 1 gauge)
    (fun _ row => row) (fun _ _ => -5) cold0 3 = .ok s' ∧ s'.base.total () = 2 := by
  have hmem : (⟨0, 2, [some 2]⟩ : Storm Nat ℝ) ∈ storms (1 / 2 : ℝ) 2 gauge := by rw [gauge_storms]; simp
  obtain ⟨s', h1, h2⟩ := C110_partial ⟨false, true, false, false, 60, 1 / 2, 6⟩ first (1 / 2) 2 1 gauge (fun _ row => row)
    (fun _ _ => -5) cold0 (by norm_num) gauge_rect gauge_nonneg same_scales _ hmem ⟨(), by norm_num⟩ 2 ⟨by simp, by simp⟩
  exact ⟨s', h1, by rw [h2]; rfl⟩

end Verif.StormRun
