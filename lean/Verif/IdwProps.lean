import Verif.IdwLemmas
import Mathlib.Data.List.Perm.Basic
import Mathlib.Tactic.NormNum

/-!
Properties C53 (inverse distance weighting is a weighted mean) and C54 (detrending and retrending).
-/

namespace Verif.Idw

/-! ### C53 -/

/-- The stations with data and their values. -/
def known (sta : List Station) : List (Station × ℝ) := sta.filterMap fun s => s.val.map fun v => (s, v)

/-- Distance on the map. -/
noncomputable def mapDist (g : Cell) (s : Station) : ℝ := Real.sqrt ((g.x - s.x) ^ 2 + (g.y - s.y) ^ 2)

/-- No station with data at the cell. -/
def NoStationAt (sta : List Station) (g : Cell) : Prop :=
  ∀ s ∈ sta, s.val ≠ none → ¬ (g.x = s.x ∧ g.y = s.y)

/-- Some station has data (`_distribute` raises an exception otherwise). -/
def SomeData (sta : List Station) : Prop := ∃ s ∈ sta, s.val ≠ none

/-- C53 as stated: at every cell a number between the smallest and the largest station value. -/
def C53_full : Prop :=
  ∀ (p : ℝ) (grid : List Cell) (sta : List Station) (img : List Ext) (i : Nat) (g : Cell), 0 < p →
    calculateIDW p grid sta = .ok img → grid[i]? = some g → SomeData sta →
    ∃ v, img[i]? = some (.fin v) ∧ ∀ lo hi, (∀ s x, s ∈ sta → s.val = some x → lo ≤ x ∧ x ≤ hi) →
      lo ≤ v ∧ v ≤ hi

theorem clear_of (sta : List Station) (g : Cell) (h : NoStationAt sta g) : Clear sta g :=
  fun s hs hv => h s hs (by cases hv' : s.val with | none => rw [hv'] at hv; cases hv | some x => simp)

theorem some_of (sta : List Station) (h : SomeData sta) : ∃ s ∈ sta, s.val.isSome := by
  obtain ⟨s, hs, hv⟩ := h
  exact ⟨s, hs, Option.isSome_iff_ne_none.2 hv⟩

theorem pairs_known (p : ℝ) (sta : List Station) (g : Cell) :
    pairs p sta g = (known sta).map fun q => (w p g q.1, q.2) := by
  unfold pairs known
  rw [List.map_filterMap]
  congr 1
  funext s
  cases s.val <;> rfl

/-- The image exists exactly when there are cells and stations. -/
theorem C53_defined (p : ℝ) (grid : List Cell) (sta : List Station) :
    (∃ img, calculateIDW p grid sta = .ok img ∧ img.length = grid.length) ↔ grid ≠ [] ∧ sta ≠ [] := by
  constructor
  · rintro ⟨img, h, -⟩
    obtain ⟨m, hm, -⟩ := image_get p grid sta img h
    exact (allDist_ne grid sta).1 ((minimum_isSome _).1 ⟨m, hm⟩)
  · rintro ⟨h1, h2⟩
    obtain ⟨img, h⟩ := calculate_ok p grid sta h1 h2
    obtain ⟨m, -, rfl⟩ := image_get p grid sta img h
    exact ⟨_, h, by simp⟩

/-- Away from the stations the value is the mean of the known values weighted by the inverse power of
the distance, for every power. Missing: cells at a station. -/
theorem C53_formula_partial (p : ℝ) (grid : List Cell) (sta : List Station) (img : List Ext)
    (h : calculateIDW p grid sta = .ok img) (i : Nat) (g : Cell) (hg : grid[i]? = some g)
    (hc : NoStationAt sta g) (hk : SomeData sta) :
    ∃ v, img[i]? = some (.fin v) ∧
      0 < ((known sta).map fun q => 1 / mapDist g q.1 ^ p).sum ∧
      v * ((known sta).map fun q => 1 / mapDist g q.1 ^ p).sum =
        ((known sta).map fun q => 1 / mapDist g q.1 ^ p * q.2).sum := by
  obtain ⟨m, -, rfl⟩ := image_get p grid sta img h
  obtain ⟨h1, h2⟩ := cell_clear p m sta g (clear_of sta g hc) (some_of sta hk)
  rw [pairs_known, List.map_map, List.map_map] at h1
  rw [pairs_known, List.map_map] at h2
  refine ⟨_, by rw [List.getElem?_map, hg, Option.map_some, h1], h2, ?_⟩
  exact div_mul_cancel₀ _ (ne_of_gt h2)

/-- A weighted mean with positive weights lies between bounds of the values. -/
theorem mean_between (l : List (Station × ℝ)) (f : Station → ℝ) (hf : ∀ q ∈ l, 0 ≤ f q.1) (lo hi : ℝ)
    (hb : ∀ q ∈ l, lo ≤ q.2 ∧ q.2 ≤ hi) :
    lo * (l.map fun q => f q.1).sum ≤ (l.map fun q => f q.1 * q.2).sum ∧
    (l.map fun q => f q.1 * q.2).sum ≤ hi * (l.map fun q => f q.1).sum := by
  induction l with
  | nil => simp
  | cons q l ih =>
    obtain ⟨h1, h2⟩ := ih (fun q' hq' => hf q' (List.mem_cons_of_mem _ hq'))
      (fun q' hq' => hb q' (List.mem_cons_of_mem _ hq'))
    have h3 := hf q List.mem_cons_self
    obtain ⟨h4, h5⟩ := hb q List.mem_cons_self
    simp only [List.map_cons, List.sum_cons]
    constructor <;> nlinarith

theorem known_spec (sta : List Station) (q : Station × ℝ) (h : q ∈ known sta) :
    q.1 ∈ sta ∧ q.1.val = some q.2 := by
  unfold known at h
  rw [List.mem_filterMap] at h
  obtain ⟨s, hs, he⟩ := h
  cases hv : s.val with
  | none => rw [hv] at he; cases he
  | some v =>
    rw [hv] at he
    simp only [Option.map_some, Option.some.injEq] at he
    rw [← he]
    exact ⟨hs, hv⟩

theorem inv_nonneg (p : ℝ) (g : Cell) (s : Station) : 0 ≤ 1 / mapDist g s ^ p :=
  div_nonneg zero_le_one (Real.rpow_nonneg (Real.sqrt_nonneg _) _)

/-- The value lies between any bounds of the known values. Missing: cells at a station. -/
theorem C53_between_partial (p : ℝ) (grid : List Cell) (sta : List Station) (img : List Ext)
    (h : calculateIDW p grid sta = .ok img) (i : Nat) (g : Cell) (hg : grid[i]? = some g)
    (hc : NoStationAt sta g) (hk : SomeData sta) (lo hi : ℝ)
    (hb : ∀ s x, s ∈ sta → s.val = some x → lo ≤ x ∧ x ≤ hi) :
    ∃ v, img[i]? = some (.fin v) ∧ lo ≤ v ∧ v ≤ hi := by
  obtain ⟨v, h1, h2, h3⟩ := C53_formula_partial p grid sta img h i g hg hc hk
  obtain ⟨h4, h5⟩ := mean_between (known sta) (fun s => 1 / mapDist g s ^ p)
    (fun q _ => inv_nonneg p g q.1) lo hi
    (fun q hq => hb q.1 q.2 (known_spec sta q hq).1 (known_spec sta q hq).2)
  rw [← h3] at h4 h5
  exact ⟨v, h1, le_of_mul_le_mul_right h4 h2, le_of_mul_le_mul_right h5 h2⟩

/-- Stations that agree give their common value. -/
theorem C53_constant_partial (p : ℝ) (grid : List Cell) (sta : List Station) (img : List Ext)
    (h : calculateIDW p grid sta = .ok img) (i : Nat) (g : Cell) (hg : grid[i]? = some g)
    (hc : NoStationAt sta g) (hk : SomeData sta) (c : ℝ) (hb : ∀ s x, s ∈ sta → s.val = some x → x = c) :
    img[i]? = some (.fin c) := by
  obtain ⟨v, h1, h2, h3⟩ := C53_between_partial p grid sta img h i g hg hc hk c c
    (fun s x hs hx => by rw [hb s x hs hx]; exact ⟨le_refl _, le_refl _⟩)
  rw [h1, le_antisymm h3 h2]

/-- Stations without data have no influence, at any cell. -/
theorem C53_ignores_missing (p : ℝ) (grid : List Cell) (sta : List Station) (hk : SomeData sta) :
    calculateIDW p grid sta = calculateIDW p grid (sta.filter fun s => s.val.isSome) := by
  obtain ⟨s0, hs0, hv0⟩ := some_of sta hk
  by_cases hg : grid = []
  · rw [hg]; rfl
  · have hsta : sta ≠ [] := List.ne_nil_of_mem hs0
    have hsta' : (sta.filter fun s => s.val.isSome) ≠ [] :=
      List.ne_nil_of_mem (List.mem_filter.2 ⟨hs0, hv0⟩)
    obtain ⟨m, hm⟩ := (minimum_isSome _).2 ((allDist_ne grid sta).2 ⟨hg, hsta⟩)
    obtain ⟨m', hm'⟩ := (minimum_isSome _).2 ((allDist_ne grid _).2 ⟨hg, hsta'⟩)
    unfold calculateIDW
    rw [hm, hm']
    simp only [Except.ok.injEq]
    apply List.map_congr_left
    intro g hgm
    congr 1
    unfold selected
    rw [List.filterMap_filter]
    apply List.filterMap_congr
    intro s hs
    cases hv : s.val with
    | none => simp
    | some v =>
      simp only [Option.isSome_some, Option.map_some, if_true, Option.some.injEq, Prod.mk.injEq, and_true]
      unfold distance
      by_cases hd : dist g s = 0
      · have h1 := min_zero grid sta m hm g hgm s hs hd
        have h2 := min_zero grid _ m' hm' g hgm s (List.mem_filter.2 ⟨hs, by rw [hv]; rfl⟩) hd
        simp only [hd, if_true, h1, h2]
      · simp only [hd, if_false]

/-- The order of the stations does not matter. -/
theorem C53_order_partial (p : ℝ) (grid : List Cell) (sta sta' : List Station) (img img' : List Ext)
    (h : calculateIDW p grid sta = .ok img) (h' : calculateIDW p grid sta' = .ok img')
    (hp : sta.Perm sta') (i : Nat) (g : Cell) (hg : grid[i]? = some g) (hc : NoStationAt sta g)
    (hk : SomeData sta) : img[i]? = img'[i]? := by
  have hc' : NoStationAt sta' g := fun s hs => hc s (hp.mem_iff.2 hs)
  have hk' : SomeData sta' := by
    obtain ⟨s, hs, hv⟩ := hk
    exact ⟨s, hp.mem_iff.1 hs, hv⟩
  obtain ⟨v, h1, h2, h3⟩ := C53_formula_partial p grid sta img h i g hg hc hk
  obtain ⟨v', h1', h2', h3'⟩ := C53_formula_partial p grid sta' img' h' i g hg hc' hk'
  have hq : (known sta).Perm (known sta') := hp.filterMap _
  rw [← (hq.map _).sum_eq, ← (hq.map _).sum_eq, ← h3] at h3'
  rw [h1, h1', mul_right_cancel₀ (ne_of_gt h2) h3']

/-- Values scaled and shifted give the image scaled and shifted. -/
theorem C53_affine_partial (p a b : ℝ) (grid : List Cell) (sta : List Station) (img img' : List Ext)
    (h : calculateIDW p grid sta = .ok img)
    (h' : calculateIDW p grid (sta.map fun s => { s with val := s.val.map fun x => a * x + b }) = .ok img')
    (i : Nat) (g : Cell) (hg : grid[i]? = some g) (hc : NoStationAt sta g) (hk : SomeData sta) :
    ∃ v, img[i]? = some (.fin v) ∧ img'[i]? = some (.fin (a * v + b)) := by
  have hc' : NoStationAt (sta.map fun s => { s with val := s.val.map fun x => a * x + b }) g := by
    intro s hs hv
    obtain ⟨t, ht, rfl⟩ := List.mem_map.1 hs
    exact hc t ht (fun h0 => hv (by simp [h0]))
  have hk' : SomeData (sta.map fun s => { s with val := s.val.map fun x => a * x + b }) := by
    obtain ⟨s, hs, hv⟩ := hk
    refine ⟨_, List.mem_map.2 ⟨s, hs, rfl⟩, ?_⟩
    simpa using hv
  obtain ⟨v, h1, h2, h3⟩ := C53_formula_partial p grid sta img h i g hg hc hk
  obtain ⟨v', h1', h2', h3'⟩ := C53_formula_partial p grid _ img' h' i g hg hc' hk'
  have hq : known (sta.map fun s => { s with val := s.val.map fun x => a * x + b }) =
      (known sta).map fun q => ({ q.1 with val := q.1.val.map fun x => a * x + b }, a * q.2 + b) := by
    unfold known
    rw [List.filterMap_map, List.map_filterMap]
    congr 1
    funext s
    cases hv : s.val <;> simp [hv]
  rw [hq, List.map_map, List.map_map] at h3'
  rw [hq, List.map_map] at h2'
  have e1 : ((fun q : Station × ℝ => 1 / mapDist g q.1 ^ p) ∘ fun q : Station × ℝ =>
      ({ q.1 with val := q.1.val.map fun x => a * x + b }, a * q.2 + b)) =
      fun q => 1 / mapDist g q.1 ^ p := rfl
  have e2 : ((fun q : Station × ℝ => 1 / mapDist g q.1 ^ p * q.2) ∘ fun q : Station × ℝ =>
      ({ q.1 with val := q.1.val.map fun x => a * x + b }, a * q.2 + b)) =
      fun q => 1 / mapDist g q.1 ^ p * (a * q.2 + b) := rfl
  rw [e1, e2] at h3'
  have e3 : ∀ l : List (Station × ℝ), (l.map fun q => 1 / mapDist g q.1 ^ p * (a * q.2 + b)).sum =
      a * (l.map fun q => 1 / mapDist g q.1 ^ p * q.2).sum + b * (l.map fun q => 1 / mapDist g q.1 ^ p).sum := by
    intro l
    induction l with
    | nil => simp
    | cons q l ih => simp only [List.map_cons, List.sum_cons, ih]; ring
  rw [e3, ← h3] at h3'
  refine ⟨v, h1, ?_⟩
  rw [h1']
  congr 2
  apply mul_right_cancel₀ (ne_of_gt h2)
  linear_combination h3'

/-- At a station with data other than zero the image is NaN: the distance zero is "removed" by
replacing it with the smallest distance, which is zero. -/
theorem C53_own_location_fails (p : ℝ) (hp : 0 < p) (grid : List Cell) (sta : List Station) (img : List Ext)
    (h : calculateIDW p grid sta = .ok img) (i : Nat) (g : Cell) (hg : grid[i]? = some g) (s : Station)
    (hs : s ∈ sta) (x : ℝ) (hv : s.val = some x) (hx : x ≠ 0) (hat : g.x = s.x ∧ g.y = s.y) :
    img[i]? = some .nan := by
  obtain ⟨m, hm, rfl⟩ := image_get p grid sta img h
  have hgm : g ∈ grid := List.mem_iff_getElem?.2 ⟨i, hg⟩
  have hd : dist g s = 0 := (dist_zero_iff g s).2 hat
  have hm0 := min_zero grid sta m hm g hgm s hs hd
  rw [List.getElem?_map, hg, Option.map_some, hm0]
  congr 1
  have hw : ∀ t : Station, PosExt (weight p (distance 0 g t)) := by
    intro t
    unfold weight
    split
    · simp [hp, PosExt]
    · exact div_nonneg zero_le_one (Real.rpow_nonneg (by
        unfold distance; split
        · exact le_refl _
        · exact dist_nonneg g t) _)
  have hmem : (Ext.pinf, x) ∈ selected p 0 sta g := by
    unfold selected
    rw [List.mem_filterMap]
    refine ⟨s, hs, ?_⟩
    rw [hv]
    simp [distance, hd, weight, hp]
  unfold cellValue
  have hsum : Ext.sum ((selected p 0 sta g).map Prod.fst) = .pinf := by
    refine (sum_pinf _ ?_).2 (List.mem_map.2 ⟨_, hmem, rfl⟩)
    intro a ha
    obtain ⟨q, hq, rfl⟩ := List.mem_map.1 ha
    unfold selected at hq
    rw [List.mem_filterMap] at hq
    obtain ⟨t, -, he⟩ := hq
    cases ht : t.val with
    | none => rw [ht] at he; cases he
    | some v =>
      rw [ht] at he
      simp only [Option.map_some, Option.some.injEq] at he
      rw [← he]; exact hw t
  rw [hsum]
  apply div_pinf
  intro y
  unfold Ext.nansum
  apply sum_not_fin
  rcases lt_or_gt_of_ne hx with hneg | hpos
  · right; left
    rw [List.map_map]
    refine List.mem_map.2 ⟨_, hmem, ?_⟩
    simp [Ext.mul, signInf, hneg, not_lt.2 hneg.le]
  · left
    rw [List.map_map]
    refine List.mem_map.2 ⟨_, hmem, ?_⟩
    simp [Ext.mul, signInf, hpos]

noncomputable def oneCell : List Cell := [⟨0, 0, 1000⟩]
noncomputable def oneStation : List Station := [⟨0, 0, 1000, some 5⟩]

/-- The full claim is false: one station, one cell at its location. -/
theorem C53_fails : ¬ C53_full := by
  intro h
  obtain ⟨img, hi⟩ := calculate_ok 2 oneCell oneStation (by simp [oneCell]) (by simp [oneStation])
  have hs : (⟨0, 0, 1000, some 5⟩ : Station) ∈ oneStation := by simp [oneStation]
  obtain ⟨v, hv, -⟩ := h 2 oneCell oneStation img 0 ⟨0, 0, 1000⟩ (by norm_num) hi rfl
    ⟨_, hs, by simp⟩
  rw [C53_own_location_fails 2 (by norm_num) oneCell oneStation img hi 0 ⟨0, 0, 1000⟩ rfl _ hs 5 rfl
    (by norm_num) ⟨rfl, rfl⟩] at hv
  cases hv

/-- The hypotheses of the partial theorems: two stations, one without data at the cell itself. -/
noncomputable def twoStations : List Station := [⟨0, 0, 1000, none⟩, ⟨3, 4, 2000, some 5⟩, ⟨6, 8, 2500, some 11⟩]

example : NoStationAt twoStations ⟨0, 0, 1000⟩ ∧ SomeData twoStations := by
  constructor
  · intro s hs hv
    simp [twoStations] at hs
    rcases hs with rfl | rfl | rfl
    · simp at hv
    · norm_num
    · norm_num
  · exact ⟨⟨3, 4, 2000, some 5⟩, by simp [twoStations], by simp⟩

/-! ### C54 -/

/-- Sum of squared differences between a straight line and the points. -/
def sse (pts : List (ℝ × ℝ)) (pv : ℝ × ℝ) : ℝ := (pts.map fun q => (q.2 - (pv.1 * q.1 + pv.2)) ^ 2).sum

/-- What `np.polyfit(x, y, 1)` is documented to do: no line has a smaller sum of squares. -/
def LeastSquares (fit : List (ℝ × ℝ) → ℝ × ℝ) : Prop := ∀ pts pv, sse pts (fit pts) ≤ sse pts pv

theorem sse_nonneg (pts : List (ℝ × ℝ)) (pv : ℝ × ℝ) : 0 ≤ sse pts pv := by
  unfold sse
  induction pts with
  | nil => simp
  | cons q pts ih => rw [List.map_cons, List.sum_cons]; exact add_nonneg (sq_nonneg _) ih

theorem sse_zero (pts : List (ℝ × ℝ)) (pv : ℝ × ℝ) (h : sse pts pv = 0) :
    ∀ q ∈ pts, q.2 = pv.1 * q.1 + pv.2 := by
  induction pts with
  | nil => simp
  | cons q pts ih =>
    have h1 := sq_nonneg (q.2 - (pv.1 * q.1 + pv.2))
    have h2 := sse_nonneg pts pv
    have h3 : (q.2 - (pv.1 * q.1 + pv.2)) ^ 2 + sse pts pv = 0 := h
    intro q' hq'
    rcases List.mem_cons.1 hq' with rfl | hq'
    · have : (q'.2 - (pv.1 * q'.1 + pv.2)) ^ 2 = 0 := by linarith
      have := pow_eq_zero_iff (by norm_num) |>.1 this
      linarith
    · exact ih (by linarith) q' hq'

/-- Affine values at two different elevations determine the fitted line. -/
theorem fit_exact (fit : List (ℝ × ℝ) → ℝ × ℝ) (hf : LeastSquares fit) (pts : List (ℝ × ℝ)) (a b : ℝ)
    (hpts : ∀ q ∈ pts, q.2 = a * q.1 + b) (q r : ℝ × ℝ) (hq : q ∈ pts) (hr : r ∈ pts) (hne : q.1 ≠ r.1) :
    fit pts = (a, b) := by
  have h0 : sse pts (a, b) = 0 := by
    unfold sse
    apply List.sum_eq_zero
    intro x hx
    obtain ⟨q', hq', rfl⟩ := List.mem_map.1 hx
    rw [hpts q' hq']; ring
  have h1 : sse pts (fit pts) = 0 := le_antisymm (h0 ▸ hf pts (a, b)) (sse_nonneg _ _)
  have e1 := sse_zero pts _ h1 q hq
  have e2 := sse_zero pts _ h1 r hr
  rw [hpts q hq] at e1
  rw [hpts r hr] at e2
  have : ((fit pts).1 - a) * (q.1 - r.1) = 0 := by linear_combination e2 - e1
  have ha : (fit pts).1 = a := by
    rcases mul_eq_zero.1 this with h | h
    · linarith
    · exact absurd (sub_eq_zero.1 h) hne
  rw [ha] at e1
  exact Prod.ext ha (by simpa using e1.symm)

/-- The slope is one the flag allows: 1 for rising, -1 for falling, anything else for any. -/
def Allowed (flag : Int) (a : ℝ) : Prop := (flag = 1 → 0 ≤ a) ∧ (flag = -1 → a ≤ 0)

theorem constrain_allowed (flag : Int) (pv : ℝ × ℝ) (h : Allowed flag pv.1) : constrain flag pv = pv := by
  unfold constrain
  rw [if_neg, if_neg]
  · rintro ⟨h1, h2⟩; exact absurd (h.2 h1) (not_le.2 h2)
  · rintro ⟨h1, h2⟩; exact absurd (h.1 h1) (not_le.2 h2)

/-- A trend of the forbidden sign is never imposed: the line used is the fitted one when its slope is
allowed and none at all otherwise. -/
theorem C54_trend_sign (fit : List (ℝ × ℝ) → ℝ × ℝ) (flag : Int) (sta : List Station) :
    Allowed flag (detrend fit flag sta).1.1 ∧
    (Allowed flag (fit (points sta)).1 → (detrend fit flag sta).1 = fit (points sta)) ∧
    (¬ Allowed flag (fit (points sta)).1 → (detrend fit flag sta).1 = (0, 0)) := by
  have h3 : ¬ Allowed flag (fit (points sta)).1 → (detrend fit flag sta).1 = (0, 0) := by
    intro h
    unfold detrend constrain
    simp only
    by_cases h1 : flag = 1 ∧ (fit (points sta)).1 < 0
    · rw [if_pos h1]
    · rw [if_neg h1]
      by_cases h2 : flag = -1 ∧ 0 < (fit (points sta)).1
      · rw [if_pos h2]
      · exfalso
        apply h
        exact ⟨fun e => not_lt.1 fun hlt => h1 ⟨e, hlt⟩, fun e => not_lt.1 fun hlt => h2 ⟨e, hlt⟩⟩
  have h2 : Allowed flag (fit (points sta)).1 → (detrend fit flag sta).1 = fit (points sta) :=
    fun h => constrain_allowed flag _ h
  refine ⟨?_, h2, h3⟩
  by_cases h : Allowed flag (fit (points sta)).1
  · rw [h2 h]; exact h
  · rw [h3 h]; exact ⟨fun _ => le_refl _, fun _ => le_refl _⟩

/-- With the trend dropped the result is the plain interpolation. -/
theorem C54_no_trend_plain (fit : List (ℝ × ℝ) → ℝ × ℝ) (flag : Int) (p : ℝ) (grid : List Cell)
    (sta : List Station) (h : ¬ Allowed flag (fit (points sta)).1) (img : List Ext)
    (hi : calculateIDW p grid sta = .ok img) : detrendedIDW fit flag p grid sta = .ok img := by
  have h1 := (C54_trend_sign fit flag sta).2.2 h
  have h2 : (detrend fit flag sta).2 = sta := by
    have : (detrend fit flag sta).2 = sta.map fun s =>
      { s with val := s.val.map (· - (s.z * (detrend fit flag sta).1.1 + (detrend fit flag sta).1.2)) } := rfl
    rw [this, h1]
    conv_rhs => rw [← List.map_id sta]
    apply List.map_congr_left
    intro s _
    cases s with
    | mk x y z v => cases v <;> simp
  unfold detrendedIDW
  simp only [h1, h2, hi, Except.ok.injEq]
  obtain ⟨m, -, rfl⟩ := image_get p grid sta img hi
  have hr : ∀ g v, retrend (0, 0) g v = v := by
    intro g v
    unfold retrend
    cases v <;> simp [Ext.add]
  have : ∀ (l : List Cell) (f : Cell → Ext), List.zipWith (retrend (0, 0)) l (l.map f) = l.map f := by
    intro l f
    induction l with
    | nil => rfl
    | cons g l ih => simp [ih, hr]
  exact this _ _

/-- Station values that are an affine function of the elevation, at two different elevations at least. -/
structure AffineData (sta : List Station) (a b : ℝ) : Prop where
  affine : ∀ s ∈ sta, ∀ x, s.val = some x → x = a * s.z + b
  two : ∃ s ∈ sta, ∃ t ∈ sta, s.val ≠ none ∧ t.val ≠ none ∧ s.z ≠ t.z

theorem affine_fit (fit : List (ℝ × ℝ) → ℝ × ℝ) (hf : LeastSquares fit) (sta : List Station) (a b : ℝ)
    (h : AffineData sta a b) : fit (points sta) = (a, b) := by
  have mem : ∀ s ∈ sta, s.val ≠ none → (s.z, a * s.z + b) ∈ points sta := by
    intro s hs hv
    obtain ⟨x, hx⟩ := Option.ne_none_iff_exists'.1 hv
    unfold points
    rw [List.mem_filterMap]
    exact ⟨s, hs, by rw [hx, Option.map_some, h.affine s hs x hx]⟩
  obtain ⟨s, hs, t, ht, h1, h2, h3⟩ := h.two
  refine fit_exact fit hf (points sta) a b ?_ _ _ (mem s hs h1) (mem t ht h2) h3
  intro q hq
  unfold points at hq
  rw [List.mem_filterMap] at hq
  obtain ⟨u, hu, he⟩ := hq
  cases hv : u.val with
  | none => rw [hv] at he; cases he
  | some x =>
    rw [hv] at he
    simp only [Option.map_some, Option.some.injEq] at he
    rw [← he]; exact h.affine u hu x hv

/-- Values that are all zero give zero everywhere, also at a station: zero times an infinite weight is
NaN, which `nansum` skips. -/
theorem all_zero (p : ℝ) (hp : 0 < p) (grid : List Cell) (sta : List Station) (img : List Ext)
    (h : calculateIDW p grid sta = .ok img) (i : Nat) (g : Cell) (hg : grid[i]? = some g)
    (hk : SomeData sta) (hz : ∀ s ∈ sta, ∀ x, s.val = some x → x = 0) : img[i]? = some (.fin 0) := by
  obtain ⟨m, hm, rfl⟩ := image_get p grid sta img h
  have hm0 : 0 ≤ m := by
    obtain ⟨h1, -⟩ := minimum_spec _ _ hm
    unfold allDist at h1
    rw [List.mem_flatMap] at h1
    obtain ⟨g', -, h1⟩ := h1
    obtain ⟨s', -, h1⟩ := List.mem_map.1 h1
    rw [← h1]; exact dist_nonneg g' s'
  rw [List.getElem?_map, hg, Option.map_some]
  congr 1
  have hw : ∀ t : Station, weight p (distance m g t) = .pinf ∨ ∃ a, 0 < a ∧ weight p (distance m g t) = .fin a := by
    intro t
    unfold weight
    split
    · left; simp [hp]
    · rename_i hne
      right
      refine ⟨_, ?_, rfl⟩
      have h0 : 0 ≤ distance m g t := by
        unfold distance; split
        · exact hm0
        · exact dist_nonneg g t
      have := Real.rpow_pos_of_pos (lt_of_le_of_ne h0 (Ne.symm hne)) p
      positivity
  have hsel : ∀ q ∈ selected p m sta g, q.2 = 0 ∧ (q.1 = .pinf ∨ ∃ a, 0 < a ∧ q.1 = .fin a) := by
    intro q hq
    unfold selected at hq
    rw [List.mem_filterMap] at hq
    obtain ⟨t, ht, he⟩ := hq
    cases hv : t.val with
    | none => rw [hv] at he; cases he
    | some v =>
      rw [hv] at he
      simp only [Option.map_some, Option.some.injEq] at he
      rw [← he]
      exact ⟨hz t ht v hv, hw t⟩
  have hne : selected p m sta g ≠ [] := by
    obtain ⟨s, hs, hv⟩ := hk
    obtain ⟨x, hx⟩ := Option.ne_none_iff_exists'.1 hv
    refine List.ne_nil_of_mem (a := (weight p (distance m g s), x)) ?_
    unfold selected
    rw [List.mem_filterMap]
    exact ⟨s, hs, by rw [hx]; rfl⟩
  generalize selected p m sta g = l at hsel hne
  have hnum : Ext.nansum (l.map fun wv => wv.1.mul (.fin wv.2)) = .fin 0 := by
    have : ∀ l : List (Ext × ℝ), (∀ q ∈ l, q.2 = 0 ∧ (q.1 = .pinf ∨ ∃ a, 0 < a ∧ q.1 = .fin a)) →
        Ext.nansum (l.map fun wv => wv.1.mul (.fin wv.2)) = .fin 0 := by
      intro l
      induction l with
      | nil => intro _; rfl
      | cons q l ih =>
        intro h
        have ih' := ih fun q' hq' => h q' (List.mem_cons_of_mem _ hq')
        obtain ⟨h1, h2⟩ := h q List.mem_cons_self
        unfold Ext.nansum at ih' ⊢
        rw [List.map_cons, List.map_cons]
        show Ext.add _ (Ext.sum _) = _
        rw [ih', h1]
        rcases h2 with h2 | ⟨a, -, h2⟩
        · rw [h2]; simp [Ext.mul, signInf, Ext.add]
        · rw [h2]; simp [Ext.mul, Ext.add]
    exact this l hsel
  have hden : Ext.sum (l.map Prod.fst) = .pinf ∨ ∃ a, 0 < a ∧ Ext.sum (l.map Prod.fst) = .fin a := by
    have : ∀ l : List (Ext × ℝ), l ≠ [] → (∀ q ∈ l, q.2 = 0 ∧ (q.1 = .pinf ∨ ∃ a, 0 < a ∧ q.1 = .fin a)) →
        (Ext.sum (l.map Prod.fst) = .pinf ∨ ∃ a, 0 < a ∧ Ext.sum (l.map Prod.fst) = .fin a) := by
      intro l
      induction l with
      | nil => intro h; exact absurd rfl h
      | cons q l ih =>
        intro _ h
        obtain ⟨-, h2⟩ := h q List.mem_cons_self
        rw [List.map_cons]
        show Ext.add q.1 (Ext.sum (l.map Prod.fst)) = _ ∨ ∃ a, 0 < a ∧ Ext.add q.1 (Ext.sum (l.map Prod.fst)) = _
        have h3 : Ext.sum (l.map Prod.fst) = .pinf ∨ ∃ a, 0 ≤ a ∧ Ext.sum (l.map Prod.fst) = .fin a := by
          by_cases hl : l = []
          · right; rw [hl]; exact ⟨0, le_refl _, rfl⟩
          · rcases ih hl fun q' hq' => h q' (List.mem_cons_of_mem _ hq') with h4 | ⟨a, h4, h5⟩
            · exact .inl h4
            · exact .inr ⟨a, h4.le, h5⟩
        rcases h2 with h2 | ⟨a, h2, h2'⟩ <;> rcases h3 with h3 | ⟨b, h3, h3'⟩
        · left; rw [h2, h3]; rfl
        · left; rw [h2, h3']; rfl
        · left; rw [h2', h3]; rfl
        · right; refine ⟨a + b, by linarith, ?_⟩; rw [h2', h3']; rfl
    exact this l hne hsel
  unfold cellValue
  rw [hnum]
  rcases hden with hden | ⟨a, ha, hden⟩
  · rw [hden]; rfl
  · rw [hden]; simp [Ext.div, ne_of_gt ha]

/-- Affine data are reproduced at every cell, at stations too (in exact arithmetic the residuals vanish
there). -/
theorem C54_affine_exact (fit : List (ℝ × ℝ) → ℝ × ℝ) (hf : LeastSquares fit) (flag : Int) (p : ℝ)
    (hp : 0 < p) (grid : List Cell) (sta : List Station) (a b : ℝ) (h : AffineData sta a b)
    (ha : Allowed flag a) (i : Nat) (g : Cell) (hg : grid[i]? = some g) :
    ∃ img, detrendedIDW fit flag p grid sta = .ok img ∧ img[i]? = some (.fin (a * g.z + b)) := by
  have hfit := affine_fit fit hf sta a b h
  have hpv : (detrend fit flag sta).1 = (a, b) := by
    rw [(C54_trend_sign fit flag sta).2.1 (by rw [hfit]; exact ha), hfit]
  have hsta : (detrend fit flag sta).2 = sta.map fun s => { s with val := s.val.map (· - (s.z * a + b)) } := by
    have : (detrend fit flag sta).2 = sta.map fun s =>
      { s with val := s.val.map (· - (s.z * (detrend fit flag sta).1.1 + (detrend fit flag sta).1.2)) } := rfl
    rw [this, hpv]
  have hgne : grid ≠ [] := List.ne_nil_of_mem (List.mem_iff_getElem?.2 ⟨i, hg⟩)
  obtain ⟨s0, hs0, -, -, hv0, -, -⟩ := h.two
  obtain ⟨img, himg⟩ := calculate_ok p grid (detrend fit flag sta).2 hgne
    (by rw [hsta]; exact List.ne_nil_of_mem (List.mem_map.2 ⟨s0, hs0, rfl⟩))
  have hres : detrendedIDW fit flag p grid sta =
      .ok (List.zipWith (retrend (detrend fit flag sta).1) grid img) := by
    unfold detrendedIDW; simp only [himg]
  refine ⟨_, hres, ?_⟩
  have hcell : img[i]? = some (.fin 0) := by
    refine all_zero p hp grid _ img himg i g hg ?_ ?_
    · rw [hsta]
      exact ⟨_, List.mem_map.2 ⟨s0, hs0, rfl⟩, by simpa using hv0⟩
    · rw [hsta]
      intro s hs x hx
      obtain ⟨t, ht, rfl⟩ := List.mem_map.1 hs
      cases hv : t.val with
      | none => simp [hv] at hx
      | some y =>
        simp only [hv, Option.map_some, Option.some.injEq] at hx
        rw [← hx, h.affine t ht y hv]; ring
  rw [List.getElem?_zipWith, hg, hcell, hpv]
  simp [retrend, Ext.add]

/-- The same for detrended kriging, for any weights (one per station with data): residuals vanish. -/
theorem C54_affine_exact_kriging (fit : List (ℝ × ℝ) → ℝ × ℝ) (hf : LeastSquares fit) (flag : Int)
    (sta : List Station) (a b : ℝ) (h : AffineData sta a b) (ha : Allowed flag a) (ws : List ℝ) (g : Cell) :
    krigedCell fit flag sta ws g = a * g.z + b := by
  have hfit := affine_fit fit hf sta a b h
  unfold krigedCell
  simp only
  rw [hfit, constrain_allowed flag (a, b) ha]
  have h0 : (List.zipWith (· * ·) ws ((points sta).map fun q => q.2 - (q.1 * a + b))).sum = 0 := by
    apply List.sum_eq_zero
    intro x hx
    obtain ⟨k, hk⟩ := List.mem_iff_getElem?.1 hx
    rw [List.getElem?_zipWith] at hk
    cases h1 : ws[k]? with
    | none => rw [h1] at hk; cases hk
    | some y =>
      cases h2 : ((points sta).map fun q => q.2 - (q.1 * a + b))[k]? with
      | none => rw [h1, h2] at hk; cases hk
      | some r =>
        rw [h1, h2] at hk
        simp only [Option.some.injEq] at hk
        have hr := List.mem_iff_getElem?.2 ⟨k, h2⟩
        obtain ⟨q, hq, rfl⟩ := List.mem_map.1 hr
        unfold points at hq
        rw [List.mem_filterMap] at hq
        obtain ⟨u, hu, he⟩ := hq
        cases hv : u.val with
        | none => rw [hv] at he; cases he
        | some v =>
          rw [hv] at he
          simp only [Option.map_some, Option.some.injEq] at he
          rw [← hk, ← he, h.affine u hu v hv]; ring
  rw [h0]; ring

/-- Every station value raised by `c`. -/
def raised (c : ℝ) (sta : List Station) : List Station := sta.map fun s => { s with val := s.val.map fun x => x + c }

theorem points_raised (c : ℝ) (sta : List Station) : points (raised c sta) = (points sta).map fun q => (q.1, q.2 + c) := by
  unfold points raised
  induction sta with
  | nil => rfl
  | cons s sta ih =>
    cases hv : s.val with
    | none => simpa [hv] using ih
    | some v => simpa [hv] using ih

/-- Detrended kriging with the trend dropped: with weights that sum to one, a constant added to the data is
added to the result. -/
theorem C54_kriging_constant (fit : List (ℝ × ℝ) → ℝ × ℝ) (flag : Int) (sta : List Station) (c : ℝ) (ws : List ℝ)
    (hw : ws.length = (points sta).length) (hs : ws.sum = 1) (h : ¬ Allowed flag (fit (points sta)).1)
    (h' : ¬ Allowed flag (fit (points (raised c sta))).1) (g : Cell) :
    krigedCell fit flag (raised c sta) ws g = krigedCell fit flag sta ws g + c := by
  have hpv : constrain flag (fit (points sta)) = (0, 0) := (C54_trend_sign fit flag sta).2.2 h
  have hpv' : constrain flag (fit (points (raised c sta))) = (0, 0) := (C54_trend_sign fit flag _).2.2 h'
  unfold krigedCell
  simp only
  rw [hpv, hpv', points_raised]
  have key : ∀ (ws : List ℝ) (l : List (ℝ × ℝ)), ws.length = l.length →
      (List.zipWith (· * ·) ws ((l.map fun q => (q.1, q.2 + c)).map fun q => q.2 - (q.1 * (0 : ℝ) + 0))).sum =
        (List.zipWith (· * ·) ws (l.map fun q => q.2 - (q.1 * (0 : ℝ) + 0))).sum + ws.sum * c := by
    intro ws
    induction ws with
    | nil => intro l _; simp
    | cons w ws ih =>
      intro l hl
      cases l with
      | nil => cases hl
      | cons q l =>
        have := ih l (by simpa using hl)
        simp only [List.map_cons, List.zipWith_cons_cons, List.sum_cons, this]
        ring
  rw [key ws _ hw, hs]; ring

/-- Detrended kriging with the trend dropped: with weights that are not negative and sum to one the result lies
between any bounds of the data, at every elevation of the cell. -/
theorem C54_kriging_between (fit : List (ℝ × ℝ) → ℝ × ℝ) (flag : Int) (sta : List Station) (lo hi : ℝ)
    (hb : ∀ s ∈ sta, ∀ x, s.val = some x → lo ≤ x ∧ x ≤ hi) (ws : List ℝ) (hw : ws.length = (points sta).length)
    (h0 : ∀ w ∈ ws, 0 ≤ w) (hs : ws.sum = 1) (h : ¬ Allowed flag (fit (points sta)).1) (g : Cell) :
    lo ≤ krigedCell fit flag sta ws g ∧ krigedCell fit flag sta ws g ≤ hi := by
  have hpv : constrain flag (fit (points sta)) = (0, 0) := (C54_trend_sign fit flag sta).2.2 h
  unfold krigedCell
  simp only
  rw [hpv]
  have hall : ∀ q ∈ points sta, lo ≤ q.2 ∧ q.2 ≤ hi := by
    intro q hq
    unfold points at hq
    rw [List.mem_filterMap] at hq
    obtain ⟨u, hu, he⟩ := hq
    cases hv : u.val with
    | none => rw [hv] at he; cases he
    | some v =>
      rw [hv] at he
      simp only [Option.map_some, Option.some.injEq] at he
      rw [← he]; exact hb u hu v hv
  have key : ∀ (ws : List ℝ) (l : List (ℝ × ℝ)), ws.length = l.length → (∀ w ∈ ws, 0 ≤ w) →
      (∀ q ∈ l, lo ≤ q.2 ∧ q.2 ≤ hi) →
      ws.sum * lo ≤ (List.zipWith (· * ·) ws (l.map fun q => q.2 - (q.1 * (0 : ℝ) + 0))).sum ∧
      (List.zipWith (· * ·) ws (l.map fun q => q.2 - (q.1 * (0 : ℝ) + 0))).sum ≤ ws.sum * hi := by
    intro ws
    induction ws with
    | nil => intro l _ _ _; simp
    | cons w ws ih =>
      intro l hl hn hq
      cases l with
      | nil => cases hl
      | cons q l =>
        have := ih l (by simpa using hl) (fun x hx => hn x (List.mem_cons_of_mem _ hx))
          fun q' hq' => hq q' (List.mem_cons_of_mem _ hq')
        have h1 := hq q List.mem_cons_self
        have h2 := hn w List.mem_cons_self
        have h3 := mul_le_mul_of_nonneg_left h1.1 h2
        have h4 := mul_le_mul_of_nonneg_left h1.2 h2
        simp only [List.map_cons, List.zipWith_cons_cons, List.sum_cons, mul_zero, zero_add, add_zero, sub_zero] at this ⊢
        constructor <;> nlinarith [this.1, this.2]
  have := key ws _ hw h0 hall
  rw [hs, one_mul, one_mul] at this
  constructor <;> linarith [this.1, this.2]

/-- A least-squares line exists for every set of points: the closed form. Shows that the hypothesis
`LeastSquares` can be met. -/
noncomputable def closedForm (pts : List (ℝ × ℝ)) : ℝ × ℝ :=
  let n := (pts.length : ℝ)
  let sx := (pts.map Prod.fst).sum
  let sy := (pts.map Prod.snd).sum
  let sxx := (pts.map fun q => q.1 ^ 2).sum
  let sxy := (pts.map fun q => q.1 * q.2).sum
  let D := n * sxx - sx ^ 2
  if D = 0 then (0, sy / n) else ((n * sxy - sx * sy) / D, (sy - (n * sxy - sx * sy) / D * sx) / n)

theorem sum_expand (pts : List (ℝ × ℝ)) (a b : ℝ) : sse pts (a, b) =
    (pts.map fun q => q.2 ^ 2).sum - 2 * a * (pts.map fun q => q.1 * q.2).sum
      - 2 * b * (pts.map Prod.snd).sum + a ^ 2 * (pts.map fun q => q.1 ^ 2).sum
      + 2 * a * b * (pts.map Prod.fst).sum + pts.length * b ^ 2 := by
  unfold sse
  induction pts with
  | nil => simp
  | cons q pts ih =>
    simp only [List.map_cons, List.sum_cons, List.length_cons, Nat.cast_add, Nat.cast_one] at ih ⊢
    rw [ih]; ring

theorem normal_least (pts : List (ℝ × ℝ)) (a0 b0 : ℝ)
    (h1 : a0 * (pts.map fun q => q.1 ^ 2).sum + b0 * (pts.map Prod.fst).sum = (pts.map fun q => q.1 * q.2).sum)
    (h2 : a0 * (pts.map Prod.fst).sum + b0 * pts.length = (pts.map Prod.snd).sum) (a b : ℝ) :
    sse pts (a0, b0) ≤ sse pts (a, b) := by
  have h3 : 0 ≤ (a - a0) ^ 2 * (pts.map fun q => q.1 ^ 2).sum
      + 2 * (a - a0) * (b - b0) * (pts.map Prod.fst).sum + pts.length * (b - b0) ^ 2 := by
    clear h1 h2
    induction pts with
    | nil => simp
    | cons q pts ih =>
      simp only [List.map_cons, List.sum_cons, List.length_cons, Nat.cast_add, Nat.cast_one] at ih ⊢
      nlinarith [sq_nonneg ((a - a0) * q.1 + (b - b0))]
  rw [sum_expand, sum_expand, ← h1, ← h2]
  nlinarith [h3]

/-- The closed form is a least-squares fit, so `LeastSquares` can be met. -/
theorem closedForm_least : LeastSquares closedForm := by
  rintro pts ⟨a, b⟩
  by_cases hp : pts = []
  · rw [hp]; simp [sse]
  have hn : (pts.length : ℝ) ≠ 0 := by
    rw [Nat.cast_ne_zero, Ne, List.length_eq_zero_iff]; exact hp
  unfold closedForm
  simp only
  split
  · rename_i hD
    apply normal_least
    · have hx : ∀ l : List (ℝ × ℝ), ∀ n c : ℝ, (l.map fun q => (n * q.1 - c) ^ 2).sum =
          n ^ 2 * (l.map fun q => q.1 ^ 2).sum - 2 * n * c * (l.map Prod.fst).sum + l.length * c ^ 2 := by
        intro l n c
        induction l with
        | nil => simp
        | cons q l ih => simp only [List.map_cons, List.sum_cons, ih, List.length_cons]; push_cast; ring
      have h0 := hx pts pts.length (pts.map Prod.fst).sum
      have h0' : (pts.map fun q => ((pts.length : ℝ) * q.1 - (pts.map Prod.fst).sum) ^ 2).sum = 0 := by
        rw [h0]; linear_combination (pts.length : ℝ) * hD
      have hz : ∀ q ∈ pts, (pts.length : ℝ) * q.1 = (pts.map Prod.fst).sum := by
        have : ∀ (l : List (ℝ × ℝ)) (f : ℝ × ℝ → ℝ), (l.map fun q => f q ^ 2).sum = 0 → ∀ q ∈ l, f q = 0 := by
          intro l f
          induction l with
          | nil => simp
          | cons r l ih =>
            intro h q hq
            simp only [List.map_cons, List.sum_cons] at h
            have g1 := sq_nonneg (f r)
            have g2 : 0 ≤ (l.map fun q => f q ^ 2).sum := by
              apply List.sum_nonneg
              intro x hx
              obtain ⟨y, -, rfl⟩ := List.mem_map.1 hx
              exact sq_nonneg _
            rcases List.mem_cons.1 hq with rfl | hq
            · exact pow_eq_zero_iff (by norm_num) |>.1 (by linarith : f q ^ 2 = 0)
            · exact ih (by linarith) q hq
        intro q hq
        have := this pts (fun q => (pts.length : ℝ) * q.1 - (pts.map Prod.fst).sum) h0' q hq
        linarith
      have hy : ∀ (l : List (ℝ × ℝ)) (n c : ℝ), (∀ q ∈ l, n * q.1 = c) →
          n * (l.map fun q => q.1 * q.2).sum = c * (l.map Prod.snd).sum := by
        intro l n c
        induction l with
        | nil => intro _; simp
        | cons r l ih =>
          intro h
          simp only [List.map_cons, List.sum_cons]
          have g1 := h r List.mem_cons_self
          have g2 := ih fun q hq => h q (List.mem_cons_of_mem _ hq)
          linear_combination r.2 * g1 + g2
      have := hy pts _ _ hz
      field_simp
      linear_combination -this
    · field_simp; ring
  · rename_i hD
    apply normal_least
    · field_simp
      ring
    · field_simp
      ring

/-- Two stations 1000 m apart in elevation, lapse rate -6.5 K/km. -/
example : AffineData [⟨0, 0, 1000, some (15 / 2)⟩, ⟨10, 0, 2000, some 1⟩, ⟨5, 5, 1500, none⟩] (-(65 / 10000)) 14 ∧
    Allowed (-1) (-(65 / 10000)) := by
  refine ⟨⟨?_, ?_⟩, ⟨by norm_num, by norm_num⟩⟩
  · intro s hs x hx
    simp at hs
    rcases hs with rfl | rfl | rfl <;> simp at hx <;> rw [← hx] <;> norm_num
  · exact ⟨_, List.mem_cons_self, ⟨10, 0, 2000, some 1⟩, by simp, by simp, by simp, by norm_num⟩

/-- The hypotheses of the two theorems on dropped trends: values that fall with height where the trend has to rise,
before and after raising them; weights of one third and two thirds. -/
example : ∀ c : ℝ, ¬ Allowed 1 (closedForm (points (raised c [⟨0, 0, 1000, some 8⟩, ⟨10, 0, 2000, some 1⟩]))).1 := by
  intro c h
  have := h.1 rfl
  have hp : points (raised c [⟨0, 0, 1000, some 8⟩, ⟨10, 0, 2000, some 1⟩]) = [(1000, 8 + c), (2000, 1 + c)] := rfl
  rw [hp] at this
  norm_num [closedForm] at this
  linarith

example : krigedCell closedForm 1 [⟨0, 0, 1000, some 8⟩, ⟨10, 0, 2000, some 1⟩] [1 / 3, 2 / 3] ⟨0, 0, 5000⟩ = 10 / 3 := by
  have hp : points [⟨0, 0, 1000, some 8⟩, ⟨10, 0, 2000, some 1⟩] = [((1000 : ℝ), (8 : ℝ)), (2000, 1)] := rfl
  unfold krigedCell
  rw [hp]
  norm_num [closedForm, constrain]

end Verif.Idw
