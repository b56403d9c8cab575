import Verif.StormsProps

/-!
Which steps belong to a storm (C169). No new model.
-/

namespace Verif.Storms

section
variable {K : Type} [Field K] [LinearOrder K] [IsStrictOrderedRing K]

/-- Step `i` lies in a storm of the table. -/
def Storming (sts : List (Storm Nat K)) (i : Nat) : Prop := ∃ s ∈ sts, s.start ≤ i ∧ i ≤ s.stop

theorem wet_lt {thr : K} {rows : List (List (Option K))} {i : Nat} (h : WetAt thr rows i) : i < rows.length := by
  obtain ⟨row, x, hr, -⟩ := h
  rcases Nat.lt_or_ge i rows.length with h | h
  · exact h
  · rw [List.getElem?_eq_none h] at hr; cases hr

/-- A step belongs to a storm exactly if it or one of the `n` steps before it had precipitation above the threshold. -/
theorem C169_station (thr : K) (n width : Nat) (rows : List (List (Option K))) (hrect : ∀ row ∈ rows, row.length = width) (i : Nat) :
    Storming (storms thr n rows) i ↔ i < rows.length ∧ ∃ p, WetAt thr rows p ∧ p ≤ i ∧ i ≤ p + n := by
  classical
  constructor
  · rintro ⟨s, hs, h1, h2⟩
    obtain ⟨-, hb⟩ := C23_ordered_disjoint thr n width rows hrect
    obtain ⟨-, hlen, hstart⟩ := hb s hs
    obtain ⟨q, q1, q2, q3, q4, q5⟩ := C24_end thr n width rows hrect s hs
    refine ⟨by omega, ?_⟩
    -- the last wet step up to `i`
    let p := Nat.findGreatest (WetAt thr rows) i
    have hp : WetAt thr rows p := Nat.findGreatest_spec h1 hstart
    have hpi : p ≤ i := Nat.findGreatest_le i
    have hsp : s.start ≤ p := Nat.le_findGreatest h1 hstart
    have hdry : ∀ m, p < m → m ≤ i → ¬ WetAt thr rows m := fun m => Nat.findGreatest_is_greatest
    refine ⟨p, hp, hpi, ?_⟩
    by_contra hno
    rcases Nat.lt_or_ge p q with hpq | hpq
    · have hqi : i < q := by
        by_contra h
        exact hdry q hpq (by omega) q3
      exact (C24_same_storm_iff thr n width rows hrect p q hpq hp q3).1 ⟨s, hs, ⟨hsp, by omega⟩, q1, q2⟩
        ⟨p + 1, by omega, by omega, fun m hm hm' => hdry m (by omega) (by omega)⟩
    · omega
  · rintro ⟨hlen, p, hp, hpi, hin⟩
    obtain ⟨s, hs, ⟨h1, h2⟩, -⟩ := C23_cover thr n width rows hrect p hp
    obtain ⟨q, q1, q2, q3, q4, q5⟩ := C24_end thr n width rows hrect s hs
    have hpq : p ≤ q := by
      by_contra h
      exact q4 p (by omega) h2 hp
    exact ⟨s, hs, by omega, by omega⟩

/-- With more precipitation, or a lower threshold, or a longer dry spell, a step of a storm stays a step of a storm. -/
theorem C169_grows (thr thr' : K) (n n' width width' : Nat) (rows rows' : List (List (Option K))) (hrect : ∀ row ∈ rows, row.length = width)
    (hrect' : ∀ row ∈ rows', row.length = width') (hlen : rows.length ≤ rows'.length) (hthr : thr' ≤ thr) (hn : n ≤ n')
    (hmore : ∀ (i k : Nat) (x : K), at' rows i k = some (some x) → ∃ y, at' rows' i k = some (some y) ∧ x ≤ y) (i : Nat)
    (h : Storming (storms thr n rows) i) : Storming (storms thr' n' rows') i := by
  rw [C169_station thr n width rows hrect] at h
  rw [C169_station thr' n' width' rows' hrect']
  obtain ⟨h1, p, ⟨row, x, hr, hx, ht⟩, h3, h4⟩ := h
  refine ⟨by omega, p, ?_, h3, by omega⟩
  obtain ⟨k, hk⟩ := List.mem_iff_getElem?.1 hx
  obtain ⟨y, hy, hxy⟩ := hmore p k x (by unfold at'; rw [hr]; exact hk)
  unfold at' at hy
  cases hr' : rows'[p]? with
  | none => rw [hr'] at hy; cases hy
  | some row' =>
    rw [hr'] at hy
    exact ⟨row', y, hr', List.mem_iff_getElem?.2 ⟨k, hy⟩, hthr.trans_lt (ht.trans_le hxy)⟩

/-- Whether a step belongs to a storm does not depend on later steps. -/
theorem C169_causal (thr : K) (n width : Nat) (rows rows' : List (List (Option K))) (hrect : ∀ row ∈ rows, row.length = width)
    (hrect' : ∀ row ∈ rows', row.length = width) (i : Nat) (hi : i < rows.length) (hi' : i < rows'.length)
    (hsame : ∀ j, j ≤ i → rows[j]? = rows'[j]?) : Storming (storms thr n rows) i ↔ Storming (storms thr n rows') i := by
  rw [C169_station thr n width rows hrect, C169_station thr n width rows' hrect']
  have e : ∀ p, p ≤ i → (WetAt thr rows p ↔ WetAt thr rows' p) := by
    intro p hp
    unfold WetAt
    rw [hsame p hp]
  constructor
  · rintro ⟨-, p, h1, h2, h3⟩
    exact ⟨hi', p, (e p h2).1 h1, h2, h3⟩
  · rintro ⟨-, p, h1, h2, h3⟩
    exact ⟨hi, p, (e p h2).2 h1, h2, h3⟩

example : Storming (storms (1 / 2) 2 demoRows) 4 ∧ ¬ Storming (storms (1 / 2) 2 demoRows) 5 := by
  have hrect : ∀ row ∈ demoRows, row.length = 2 := by decide
  constructor
  · rw [C169_station (1 / 2) 2 2 demoRows hrect]
    exact ⟨by decide, 2, ⟨_, 3, rfl, by simp, by norm_num⟩, by norm_num, by norm_num⟩
  · rw [C169_station (1 / 2) 2 2 demoRows hrect]
    rintro ⟨-, p, ⟨row, x, hr, hx, ht⟩, h3, h4⟩
    have : p = 3 ∨ p = 4 ∨ p = 5 := by omega
    rcases this with rfl | rfl | rfl <;> simp [demoRows] at hr <;> subst hr <;> simp at hx <;> subst hx <;> norm_num at ht

/-- A day of drizzle that becomes a day of rain. -/
example (i : Nat) (h : Storming (storms (1 / 2) 1 [[some (1 : ℚ)], [some 0], [some (1 / 4)]]) i) :
    Storming (storms (1 / 2) 1 [[some (1 : ℚ)], [some 0], [some 1]]) i := by
  refine C169_grows _ _ 1 1 1 1 _ _ (by decide) (by decide) (by decide) le_rfl le_rfl ?_ i h
  intro i k x hx
  match i, k with
  | 0, 0 => exact ⟨1, rfl, by simp [at'] at hx; linarith⟩
  | 1, 0 => exact ⟨0, rfl, by simp [at'] at hx; linarith⟩
  | 2, 0 => exact ⟨1, rfl, by simp [at'] at hx; linarith⟩
  | 0, k + 1 => simp [at'] at hx
  | 1, k + 1 => simp [at'] at hx
  | 2, k + 1 => simp [at'] at hx
  | i + 3, k => simp [at'] at hx

end

/-! ### The basin -/

/-- Step `i` lies in a span. -/
def Spanned (l : List (Span Nat)) (i : Nat) : Prop := ∃ s ∈ l, s.start ≤ i ∧ ∃ e, s.stop = some e ∧ i ≤ e

/-- A step lies in a span of the basin exactly if it is between two wet steps without `n` dry steps in a row between them. -/
theorem C169_basin (n c0 : Nat) (w : List Bool) (i : Nat) :
    Spanned (basinSpans n c0 w) i ↔ ∃ p q, p ≤ i ∧ i ≤ q ∧ w[p]? = some true ∧ w[q]? = some true ∧
      ¬ ∃ k, p < k ∧ k + n ≤ q ∧ ∀ m, k ≤ m → m < k + n → ¬ w[m]? = some true := by
  constructor
  · rintro ⟨s, hs, h1, e, he, h2⟩
    obtain ⟨e', he', h3, h4, h5⟩ := (C26_ordered_disjoint n c0 w).2 s hs
    rw [he] at he'
    cases he'
    rcases Nat.lt_or_ge s.start e with hlt | hge
    · exact ⟨s.start, e, h1, h2, h4, h5, (C26_same_storm_iff n c0 w s.start e hlt h4 h5).1
        ⟨s, hs, ⟨le_rfl, e, he, h3⟩, h3, e, he, le_rfl⟩⟩
    · refine ⟨s.start, e, h1, h2, h4, h5, ?_⟩
      rintro ⟨k, k1, k2, -⟩
      omega
  · rintro ⟨p, q, h1, h2, h3, h4, h5⟩
    rcases Nat.lt_or_ge p q with hlt | hge
    · obtain ⟨s, hs, ⟨a1, -⟩, -, e, he, a4⟩ := (C26_same_storm_iff n c0 w p q hlt h3 h4).2 h5
      exact ⟨s, hs, by omega, e, he, by omega⟩
    · have : p = i := by omega
      subst this
      obtain ⟨s, hs, a1, e, he, a2⟩ := C26_cover n c0 w p h3
      exact ⟨s, hs, a1, e, he, a2⟩

/-- More wet steps, or a longer dry spell: a step of a span stays one. -/
theorem C169_basin_grows (n n' c0 c0' : Nat) (w w' : List Bool) (hn : n ≤ n') (hw : ∀ j : Nat, w[j]? = some true → w'[j]? = some true)
    (i : Nat) (h : Spanned (basinSpans n c0 w) i) : Spanned (basinSpans n' c0' w') i := by
  rw [C169_basin] at h ⊢
  obtain ⟨p, q, h1, h2, h3, h4, h5⟩ := h
  refine ⟨p, q, h1, h2, hw p h3, hw q h4, ?_⟩
  rintro ⟨k, k1, k2, k3⟩
  exact h5 ⟨k, k1, by omega, fun m m1 m2 hm => k3 m m1 (by omega) (hw m hm)⟩

example : Spanned (basinSpans 2 0 [true, false, true, false, false, true]) 1 ∧
    ¬ Spanned (basinSpans 2 0 [true, false, true, false, false, true]) 3 := by
  constructor
  · rw [C169_basin]
    refine ⟨0, 2, by norm_num, by norm_num, rfl, rfl, ?_⟩
    rintro ⟨k, k1, k2, -⟩
    omega
  · rw [C169_basin]
    rintro ⟨p, q, h1, h2, h3, h4, h5⟩
    have hq : q < 6 := by
      by_contra h
      rw [List.getElem?_eq_none (by simpa using h)] at h4
      cases h4
    refine h5 ⟨3, ?_, ?_, ?_⟩
    · have : p ≠ 3 := by rintro rfl; simp at h3
      omega
    · have a : q ≠ 3 := by rintro rfl; simp at h4
      have b : q ≠ 4 := by rintro rfl; simp at h4
      omega
    · intro m m1 m2
      have : m = 3 ∨ m = 4 := by omega
      rcases this with rfl | rfl <;> simp

end Verif.Storms
