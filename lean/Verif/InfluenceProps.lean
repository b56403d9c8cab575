import Verif.IdwProps

/-!
What a higher reading at a station does to the image (C172): inverse distance weighting with and without elevation trend, detrended kriging with given
weights. No new model.
-/

namespace Verif.Idw

/-- The same station with a reading that is not lower and at most `d` higher; a missing reading is missing in both. -/
def HigherBy (d : ℝ) (s s' : Station) : Prop :=
  s'.x = s.x ∧ s'.y = s.y ∧ s'.z = s.z ∧
    ((s.val = none ∧ s'.val = none) ∨ ∃ a b, s.val = some a ∧ s'.val = some b ∧ a ≤ b ∧ b ≤ a + d)

theorem mapDist_same {d : ℝ} {s s' : Station} (h : HigherBy d s s') (g : Cell) : mapDist g s' = mapDist g s := by
  unfold mapDist
  rw [h.1, h.2.1]

theorem sums_higher (p d : ℝ) (g : Cell) (sta sta' : List Station) (h : List.Forall₂ (HigherBy d) sta sta') :
    ((known sta').map fun q => 1 / mapDist g q.1 ^ p).sum = ((known sta).map fun q => 1 / mapDist g q.1 ^ p).sum ∧
    ((known sta).map fun q => 1 / mapDist g q.1 ^ p * q.2).sum ≤ ((known sta').map fun q => 1 / mapDist g q.1 ^ p * q.2).sum ∧
    ((known sta').map fun q => 1 / mapDist g q.1 ^ p * q.2).sum ≤ ((known sta).map fun q => 1 / mapDist g q.1 ^ p * q.2).sum
      + d * ((known sta).map fun q => 1 / mapDist g q.1 ^ p).sum := by
  induction h with
  | nil => simp [known]
  | @cons s s' l l' hs hl ih =>
    obtain ⟨i1, i2, i3⟩ := ih
    have hd := mapDist_same hs g
    rcases hs.2.2.2 with ⟨h1, h2⟩ | ⟨a, b, h1, h2, h3, h4⟩
    · have e : known (s :: l) = known l := by unfold known; simp [h1]
      have e' : known (s' :: l') = known l' := by unfold known; simp [h2]
      rw [e, e']
      exact ⟨i1, i2, i3⟩
    · have e : known (s :: l) = (s, a) :: known l := by unfold known; simp [h1]
      have e' : known (s' :: l') = (s', b) :: known l' := by unfold known; simp [h2]
      rw [e, e']
      simp only [List.map_cons, List.sum_cons, hd]
      have hw := inv_nonneg p g s
      have k1 := mul_le_mul_of_nonneg_left h3 hw
      have k2 := mul_le_mul_of_nonneg_left h4 hw
      refine ⟨by rw [i1], by linarith, by linarith⟩

/-- Claimed: a higher reading lowers no cell. -/
def C172_full : Prop :=
  ∀ (fit : List (ℝ × ℝ) → ℝ × ℝ) (flag : Int) (p d : ℝ) (grid : List Cell) (sta sta' : List Station) (img img' : List Ext), LeastSquares fit → 0 < p →
    List.Forall₂ (HigherBy d) sta sta' → detrendedIDW fit flag p grid sta = .ok img → detrendedIDW fit flag p grid sta' = .ok img' →
    ∀ (i : Nat) (v v' : ℝ), img[i]? = some (.fin v) → img'[i]? = some (.fin v') → v ≤ v'

/-- Without elevation trend: a higher reading lowers no cell, and raises none by more than the largest rise. Missing: cells at a station (C53). -/
theorem C172_plain_partial (p d : ℝ) (grid : List Cell) (sta sta' : List Station) (img img' : List Ext)
    (h : calculateIDW p grid sta = .ok img) (h' : calculateIDW p grid sta' = .ok img') (hh : List.Forall₂ (HigherBy d) sta sta')
    (i : Nat) (g : Cell) (hg : grid[i]? = some g) (hc : NoStationAt sta g) (hk : SomeData sta) :
    ∃ v v', img[i]? = some (.fin v) ∧ img'[i]? = some (.fin v') ∧ v ≤ v' ∧ v' ≤ v + d := by
  have pick : ∀ {l l' : List Station}, List.Forall₂ (HigherBy d) l l' → ∀ s' ∈ l', ∃ s ∈ l, HigherBy d s s' := by
    intro l l' hf
    induction hf with
    | nil => intro s' hs'; cases hs'
    | cons hs _ ih =>
      intro s' hs'
      rcases List.mem_cons.1 hs' with rfl | hs'
      · exact ⟨_, List.mem_cons_self, hs⟩
      · obtain ⟨s, h1, h2⟩ := ih s' hs'
        exact ⟨s, List.mem_cons_of_mem _ h1, h2⟩
  have pick' : ∀ {l l' : List Station}, List.Forall₂ (HigherBy d) l l' → ∀ s ∈ l, ∃ s' ∈ l', HigherBy d s s' := by
    intro l l' hf
    induction hf with
    | nil => intro s' hs'; cases hs'
    | cons hs _ ih =>
      intro s' hs'
      rcases List.mem_cons.1 hs' with rfl | hs'
      · exact ⟨_, List.mem_cons_self, hs⟩
      · obtain ⟨s, h1, h2⟩ := ih s' hs'
        exact ⟨s, List.mem_cons_of_mem _ h1, h2⟩
  have hc' : NoStationAt sta' g := by
    intro s' hs' hv
    obtain ⟨s, hs, hr⟩ := pick hh s' hs'
    rw [hr.1, hr.2.1]
    refine hc s hs ?_
    rcases hr.2.2.2 with ⟨_, h2⟩ | ⟨a, b, h1, _⟩
    · exact absurd h2 hv
    · rw [h1]; simp
  have hk' : SomeData sta' := by
    obtain ⟨s, hs, hv⟩ := hk
    obtain ⟨s', hs', hr⟩ := pick' hh s hs
    refine ⟨s', hs', ?_⟩
    rcases hr.2.2.2 with ⟨h1, _⟩ | ⟨a, b, _, h2, _⟩
    · exact absurd h1 hv
    · rw [h2]; simp
  obtain ⟨v, e1, e2, e3⟩ := C53_formula_partial p grid sta img h i g hg hc hk
  obtain ⟨v', f1, f2, f3⟩ := C53_formula_partial p grid sta' img' h' i g hg hc' hk'
  obtain ⟨s1, s2, s3⟩ := sums_higher p d g sta sta' hh
  rw [s1] at f3
  rw [← e3, ← f3] at s2
  rw [← e3, ← f3, ← add_mul] at s3
  exact ⟨v, v', e1, f1, le_of_mul_le_mul_right s2 e2, le_of_mul_le_mul_right s3 e2⟩

/-! ### The influence of a station -/

/-- A gauge with its place, its weight at the cell in question and its reading in two runs. -/
structure Gauge where
  x : ℝ
  y : ℝ
  z : ℝ
  weight : ℝ
  before : ℝ
  after : ℝ

/-- The stations with one of the readings. -/
def stationsOf (f : Gauge → ℝ) (l : List Gauge) : List Station := l.map fun q => ⟨q.x, q.y, q.z, some (f q)⟩

/-- Sum over the gauges. -/
def total (l : List Gauge) (f : Gauge → ℝ) : ℝ := (l.map f).sum

/-- n times the sum of squared distances of the elevations from their mean. -/
def spread (l : List Gauge) : ℝ := l.length * total l (fun q => q.z ^ 2) - total l (fun q => q.z) ^ 2

/-- What one unit at the gauge `q` does at a cell of elevation `z`: its weight, plus its pull on the slope times the height of the cell above the weighted
mean of the stations. -/
noncomputable def influence (l : List Gauge) (z : ℝ) (q : Gauge) : ℝ :=
  q.weight + (z - total l fun r => r.weight * r.z) * ((l.length * q.z - total l fun r => r.z) / spread l)

theorem points_stationsOf (f : Gauge → ℝ) (l : List Gauge) : points (stationsOf f l) = l.map fun q => (q.z, f q) := by
  unfold points stationsOf
  induction l with
  | nil => rfl
  | cons q l ih => simpa using ih

theorem total_add (l : List Gauge) (f g : Gauge → ℝ) : total l (fun q => f q + g q) = total l f + total l g := by
  unfold total
  induction l with
  | nil => simp
  | cons q l ih => simp only [List.map_cons, List.sum_cons, ih]; ring

theorem total_mul (l : List Gauge) (c : ℝ) (f : Gauge → ℝ) : total l (fun q => c * f q) = c * total l f := by
  unfold total
  induction l with
  | nil => simp
  | cons q l ih => simp only [List.map_cons, List.sum_cons, ih]; ring

theorem total_sub (l : List Gauge) (f g : Gauge → ℝ) : total l (fun q => f q - g q) = total l f - total l g := by
  unfold total
  induction l with
  | nil => simp
  | cons q l ih => simp only [List.map_cons, List.sum_cons, ih]; ring

/-- The least-squares line of elevations that differ is unique: its slope and level. -/
theorem line_unique (fit : List (ℝ × ℝ) → ℝ × ℝ) (hf : LeastSquares fit) (l : List Gauge) (f : Gauge → ℝ) (hD : 0 < spread l) :
    (fit (l.map fun q => (q.z, f q))).1 = (l.length * total l (fun q => q.z * f q) - total l (fun q => q.z) * total l f) / spread l := by
  have hl : l ≠ [] := by rintro rfl; simp [spread, total] at hD
  have hn : 0 < (l.length : ℝ) := by exact_mod_cast List.length_pos_iff.2 hl
  obtain ⟨⟨a, b⟩, hfit⟩ : ∃ ab, fit (l.map fun q => (q.z, f q)) = ab := ⟨_, rfl⟩
  have e1 : ((l.map fun q => (q.z, f q)).map fun q => q.1 ^ 2).sum = total l fun q => q.z ^ 2 := by unfold total; rw [List.map_map]; rfl
  have e2 : ((l.map fun q => (q.z, f q)).map fun q => q.1 * q.2).sum = total l fun q => q.z * f q := by unfold total; rw [List.map_map]; rfl
  have e3 : ((l.map fun q => (q.z, f q)).map Prod.fst).sum = total l fun q => q.z := by unfold total; rw [List.map_map]; rfl
  have e4 : ((l.map fun q => (q.z, f q)).map Prod.snd).sum = total l f := by unfold total; rw [List.map_map]; rfl
  have e5 : (((l.map fun q => (q.z, f q)).length : ℕ) : ℝ) = l.length := by rw [List.length_map]
  have hls := hf (l.map fun q => (q.z, f q))
    ((l.length * total l (fun q => q.z * f q) - total l (fun q => q.z) * total l f) / spread l,
      (total l f - (l.length * total l (fun q => q.z * f q) - total l (fun q => q.z) * total l f) / spread l * total l (fun q => q.z)) / l.length)
  rw [hfit, sum_expand, sum_expand, e1, e2, e3, e4, e5] at hls
  have hS : spread l = l.length * total l (fun q => q.z ^ 2) - total l (fun q => q.z) ^ 2 := rfl
  rw [hfit]
  simp only
  generalize total l (fun q => q.z ^ 2) = sxx at *
  generalize total l (fun q => q.z * f q) = sxy at *
  generalize total l (fun q => q.z) = sx at *
  generalize total l f = sy at *
  generalize (l.length : ℝ) = n at *
  generalize spread l = D at *
  -- A and B are the slope and the level of the closed form
  set A := (n * sxy - sx * sy) / D with hA
  set B := (sy - A * sx) / n with hB
  have a1 : A * D = n * sxy - sx * sy := by rw [hA]; field_simp
  have b1 : B * n = sy - A * sx := by rw [hB]; field_simp
  have b2 : A * sxx + B * sx = sxy := by
    have : n * (A * sxx + B * sx) = n * sxy := by
      have : n * (A * sxx + B * sx) = A * (n * sxx) + (B * n) * sx := by ring
      rw [this, b1]
      have h2 : n * sxx = D + sx ^ 2 := by rw [hS]; ring
      rw [h2]
      linear_combination a1
    exact mul_left_cancel₀ hn.ne' this
  -- the excess of another line
  have ex : D * (a - A) ^ 2 + ((a - A) * sx + n * (b - B)) ^ 2 ≤ 0 := by
    have id : n * ((a - A) ^ 2 * sxx + 2 * (a - A) * (b - B) * sx + n * (b - B) ^ 2) =
        D * (a - A) ^ 2 + ((a - A) * sx + n * (b - B)) ^ 2 := by rw [hS]; ring
    rw [← id]
    have : (a - A) ^ 2 * sxx + 2 * (a - A) * (b - B) * sx + n * (b - B) ^ 2 ≤ 0 := by
      have b3 : sy = A * sx + B * n := by linarith
      rw [← b2, b3] at hls
      nlinarith
    exact mul_nonpos_of_nonneg_of_nonpos hn.le this
  have : (a - A) ^ 2 ≤ 0 := by
    have h1 := sq_nonneg ((a - A) * sx + n * (b - B))
    by_contra hc
    have := mul_pos hD (not_le.1 hc)
    linarith
  have : a - A = 0 := pow_eq_zero_iff (two_ne_zero) |>.1 (le_antisymm this (sq_nonneg _))
  linarith

/-- A cell from the slope of the trend. -/
theorem kriged_slope (fit : List (ℝ × ℝ) → ℝ × ℝ) (flag : Int) (l : List Gauge) (f : Gauge → ℝ) (hw : total l (fun q => q.weight) = 1)
    (ha : Allowed flag (fit (points (stationsOf f l))).1) (g : Cell) :
    krigedCell fit flag (stationsOf f l) (l.map fun q => q.weight) g =
      total l (fun q => q.weight * f q) + (fit (points (stationsOf f l))).1 * (g.z - total l fun q => q.weight * q.z) := by
  unfold krigedCell
  simp only
  rw [constrain_allowed flag _ ha]
  generalize fit (points (stationsOf f l)) = pv
  rw [points_stationsOf]
  have e : ∀ l : List Gauge, (List.zipWith (· * ·) (l.map fun q => q.weight) ((l.map fun q => (q.z, f q)).map fun q => q.2 - (q.1 * pv.1 + pv.2))).sum =
      total l (fun q => q.weight * f q) - pv.1 * total l (fun q => q.weight * q.z) - pv.2 * total l (fun q => q.weight) := by
    intro l
    unfold total
    induction l with
    | nil => simp
    | cons q l ih => simp only [List.map_cons, List.zipWith_cons_cons, List.sum_cons, ih]; ring
  rw [e, hw]
  ring

/-- The exact effect of changed readings on a detrended cell: the sum of the changes, each times the influence of its gauge. -/
theorem C172_influence (fit : List (ℝ × ℝ) → ℝ × ℝ) (hf : LeastSquares fit) (flag : Int) (l : List Gauge) (hw : total l (fun q => q.weight) = 1)
    (hD : 0 < spread l) (ha : Allowed flag (fit (points (stationsOf Gauge.before l))).1)
    (ha' : Allowed flag (fit (points (stationsOf Gauge.after l))).1) (g : Cell) :
    krigedCell fit flag (stationsOf Gauge.after l) (l.map fun q => q.weight) g =
      krigedCell fit flag (stationsOf Gauge.before l) (l.map fun q => q.weight) g
        + total l fun q => influence l g.z q * (q.after - q.before) := by
  rw [kriged_slope fit flag l _ hw ha g, kriged_slope fit flag l _ hw ha' g, points_stationsOf, points_stationsOf,
    line_unique fit hf l _ hD, line_unique fit hf l _ hD]
  have e : (total l fun q => influence l g.z q * (q.after - q.before)) =
      total l (fun q => q.weight * q.after) - total l (fun q => q.weight * q.before) +
      (g.z - total l fun r => r.weight * r.z) * ((l.length * (total l (fun q => q.z * q.after) - total l (fun q => q.z * q.before))
        - (total l fun r => r.z) * (total l Gauge.after - total l Gauge.before)) / spread l) := by
    unfold influence
    generalize (total l fun r => r.weight * r.z) = c
    generalize (total l fun r => r.z) = sx
    generalize spread l = D
    generalize (l.length : ℝ) = n
    unfold total
    clear hw hD ha ha'
    induction l with
    | nil => simp
    | cons q l ih =>
      simp only [List.map_cons, List.sum_cons, ih]
      ring
  rw [e]
  ring

/-- Inverse distance weighting with trend at a cell without a station is of this kind: the weights are the inverse distances, divided by their sum. -/
theorem C172_idw (fit : List (ℝ × ℝ) → ℝ × ℝ) (flag : Int) (p : ℝ) (grid : List Cell) (sta : List Station) (img : List Ext)
    (h : detrendedIDW fit flag p grid sta = .ok img) (i : Nat) (g : Cell) (hg : grid[i]? = some g) (hc : NoStationAt sta g) (hk : SomeData sta) :
    img[i]? = some (.fin (krigedCell fit flag sta
      ((known sta).map fun q => 1 / mapDist g q.1 ^ p / ((known sta).map fun q => 1 / mapDist g q.1 ^ p).sum) g)) := by
  unfold detrendedIDW at h
  simp only at h
  split at h
  · cases h
  · rename_i img0 h0
    cases h
    have ed : (detrend fit flag sta).2 = sta.map fun s => { s with val := s.val.map (· - (s.z * (constrain flag (fit (points sta))).1 + (constrain flag (fit (points sta))).2)) } := rfl
    have ep : (detrend fit flag sta).1 = constrain flag (fit (points sta)) := rfl
    rw [ep]
    unfold krigedCell
    simp only
    generalize constrain flag (fit (points sta)) = pv at *
    have hc' : NoStationAt (detrend fit flag sta).2 g := by
      rw [ed]
      intro s hs hv
      obtain ⟨t, ht, rfl⟩ := List.mem_map.1 hs
      exact hc t ht (fun h0 => hv (by simp [h0]))
    have hk' : SomeData (detrend fit flag sta).2 := by
      obtain ⟨s, hs, hv⟩ := hk
      rw [ed]
      refine ⟨_, List.mem_map.2 ⟨s, hs, rfl⟩, ?_⟩
      simpa using hv
    obtain ⟨v, e1, e2, e3⟩ := C53_formula_partial p grid _ img0 h0 i g hg hc' hk'
    rw [ed] at e2 e3
    -- the sums over the residuals
    have s1 : ∀ sta : List Station, ((known (sta.map fun s => { s with val := s.val.map (· - (s.z * pv.1 + pv.2)) })).map fun q => 1 / mapDist g q.1 ^ p).sum =
        ((known sta).map fun q => 1 / mapDist g q.1 ^ p).sum := by
      intro sta
      induction sta with
      | nil => rfl
      | cons s sta ih =>
        cases hv : s.val with
        | none =>
          simp only [known, List.map_cons, List.filterMap_cons, hv, Option.map_none] at ih ⊢
          exact ih
        | some x =>
          simp only [known, List.map_cons, List.filterMap_cons, hv, Option.map_some, List.sum_cons] at ih ⊢
          rw [ih]; rfl
    have s2 : ∀ (sta : List Station) (W : ℝ), W ≠ 0 →
        ((known (sta.map fun s => { s with val := s.val.map (· - (s.z * pv.1 + pv.2)) })).map fun q => 1 / mapDist g q.1 ^ p * q.2).sum =
        W * (List.zipWith (· * ·) ((known sta).map fun q => 1 / mapDist g q.1 ^ p / W) ((points sta).map fun q => q.2 - (q.1 * pv.1 + pv.2))).sum := by
      intro sta W hW
      induction sta with
      | nil => simp [known, points]
      | cons s sta ih =>
        cases hv : s.val with
        | none =>
          simp only [known, points, List.map_cons, List.filterMap_cons, hv, Option.map_none] at ih ⊢
          exact ih
        | some x =>
          simp only [known, points, List.map_cons, List.filterMap_cons, hv, Option.map_some, List.sum_cons, List.zipWith_cons_cons] at ih ⊢
          rw [ih, mul_add]
          congr 1
          rw [show mapDist g { s with val := some (x - (s.z * pv.1 + pv.2)) } = mapDist g s from rfl]
          field_simp
    rw [s1] at e2 e3
    rw [s2 sta _ e2.ne'] at e3
    have ev := mul_right_cancel₀ e2.ne' (e3.trans (mul_comm _ _))
    rw [List.getElem?_zipWith, hg, e1]
    simp only [retrend, Ext.add, ev]

/-- With trend: a higher reading does not lower a cell where every gauge has an influence of at least zero; so it is at the weighted mean of the elevations
of the stations, if no weight is negative. Missing: the other cells (`C172_extrapolated_fails`), trends that are dropped. -/
theorem C172_trend_partial (fit : List (ℝ × ℝ) → ℝ × ℝ) (hf : LeastSquares fit) (flag : Int) (l : List Gauge) (hw : total l (fun q => q.weight) = 1)
    (hD : 0 < spread l) (ha : Allowed flag (fit (points (stationsOf Gauge.before l))).1)
    (ha' : Allowed flag (fit (points (stationsOf Gauge.after l))).1) (g : Cell) (hr : ∀ q ∈ l, q.before ≤ q.after)
    (hi : (∀ q ∈ l, 0 ≤ influence l g.z q) ∨ ((∀ q ∈ l, 0 ≤ q.weight) ∧ g.z = total l fun q => q.weight * q.z)) :
    krigedCell fit flag (stationsOf Gauge.before l) (l.map fun q => q.weight) g ≤
      krigedCell fit flag (stationsOf Gauge.after l) (l.map fun q => q.weight) g := by
  rw [C172_influence fit hf flag l hw hD ha ha' g]
  have hi' : ∀ q ∈ l, 0 ≤ influence l g.z q := by
    rcases hi with h | ⟨h1, h2⟩
    · exact h
    · intro q hq
      unfold influence
      rw [h2, sub_self, zero_mul, add_zero]
      exact h1 q hq
  have : 0 ≤ total l fun q => influence l g.z q * (q.after - q.before) := by
    unfold total
    apply List.sum_nonneg
    intro x hx
    obtain ⟨q, hq, rfl⟩ := List.mem_map.1 hx
    exact mul_nonneg (hi' q hq) (sub_nonneg.2 (hr q hq))
  linarith

/-- Two stations at different elevations with their readings. -/
def pair (s t : Cell) (a b : ℝ) : List Station := [⟨s.x, s.y, s.z, some a⟩, ⟨t.x, t.y, t.z, some b⟩]

theorem pair_affine (s t : Cell) (a b : ℝ) (h : s.z < t.z) : AffineData (pair s t a b) ((b - a) / (t.z - s.z)) (a - (b - a) / (t.z - s.z) * s.z) := by
  have h0 : t.z - s.z ≠ 0 := by linarith
  constructor
  · intro u hu x hx
    simp only [pair, List.mem_cons, List.not_mem_nil, or_false] at hu
    rcases hu with rfl | rfl
    · simp only [Option.some.injEq] at hx
      rw [← hx]; ring
    · simp only [Option.some.injEq] at hx
      rw [← hx]; field_simp; ring
  · exact ⟨_, List.mem_cons_self, _, List.mem_cons_of_mem _ List.mem_cons_self, by simp, by simp, h.ne⟩

/-- Above the higher of two stations a higher reading at the lower one lowers every cell, by the rise times the height above the higher station over the
difference of their elevations; inverse distance weighting and kriging, any weights. -/
theorem C172_extrapolated_fails (fit : List (ℝ × ℝ) → ℝ × ℝ) (hf : LeastSquares fit) (flag : Int) (p : ℝ) (hp : 0 < p) (grid : List Cell) (s t : Cell)
    (hz : s.z < t.z) (a b d : ℝ) (hd : 0 < d) (ha : Allowed flag ((b - a) / (t.z - s.z))) (ha' : Allowed flag ((b - (a + d)) / (t.z - s.z)))
    (i : Nat) (g : Cell) (hg : grid[i]? = some g) (hup : t.z < g.z) :
    ∃ img img' v, detrendedIDW fit flag p grid (pair s t a b) = .ok img ∧ detrendedIDW fit flag p grid (pair s t (a + d) b) = .ok img' ∧
      img[i]? = some (.fin v) ∧ img'[i]? = some (.fin (v - d * ((g.z - t.z) / (t.z - s.z)))) ∧ 0 < d * ((g.z - t.z) / (t.z - s.z)) ∧
      ∀ ws, krigedCell fit flag (pair s t a b) ws g = v ∧ krigedCell fit flag (pair s t (a + d) b) ws g = v - d * ((g.z - t.z) / (t.z - s.z)) := by
  have h0 : 0 < t.z - s.z := by linarith
  obtain ⟨img, h1, h2⟩ := C54_affine_exact fit hf flag p hp grid _ _ _ (pair_affine s t a b hz) ha i g hg
  obtain ⟨img', h1', h2'⟩ := C54_affine_exact fit hf flag p hp grid _ _ _ (pair_affine s t (a + d) b hz) ha' i g hg
  have e : (b - (a + d)) / (t.z - s.z) * g.z + (a + d - (b - (a + d)) / (t.z - s.z) * s.z) =
      (b - a) / (t.z - s.z) * g.z + (a - (b - a) / (t.z - s.z) * s.z) - d * ((g.z - t.z) / (t.z - s.z)) := by
    field_simp
    ring
  rw [e] at h2'
  refine ⟨img, img', _, h1, h1', h2, h2', mul_pos hd (div_pos (by linarith) h0), fun ws => ⟨?_, ?_⟩⟩
  · exact C54_affine_exact_kriging fit hf flag _ _ _ (pair_affine s t a b hz) ha ws g
  · rw [C54_affine_exact_kriging fit hf flag _ _ _ (pair_affine s t (a + d) b hz) ha' ws g, e]

theorem C172_fails : ¬ C172_full := by
  intro h
  obtain ⟨img, img', v, h1, h2, h3, h4, h5, -⟩ := C172_extrapolated_fails closedForm closedForm_least (-1) 2 (by norm_num) [⟨5, 5, 3000⟩] ⟨0, 0, 1000⟩
    ⟨10, 0, 2000⟩ (by norm_num) 8 2 1 one_pos ⟨by norm_num, by norm_num⟩ ⟨by norm_num, by norm_num⟩ 0 ⟨5, 5, 3000⟩ rfl (by norm_num)
  have := h closedForm (-1) 2 1 _ _ _ img img' closedForm_least (by norm_num) (by
    refine .cons ⟨rfl, rfl, rfl, .inr ⟨8, 8 + 1, rfl, rfl, by norm_num, le_rfl⟩⟩ (.cons ⟨rfl, rfl, rfl, .inr ⟨2, 2, rfl, rfl, le_rfl, by norm_num⟩⟩ .nil)) h1 h2 0 v _ h3 h4
  linarith

/-! ### Examples -/

/-- One degree more at one of the stations of `twoStations`. -/
example : ∃ img img' v v', calculateIDW 2 [⟨0, 0, 1000⟩] twoStations = .ok img ∧
    calculateIDW 2 [⟨0, 0, 1000⟩] [⟨0, 0, 1000, none⟩, ⟨3, 4, 2000, some 6⟩, ⟨6, 8, 2500, some 11⟩] = .ok img' ∧
    img[0]? = some (.fin v) ∧ img'[0]? = some (.fin v') ∧ v ≤ v' ∧ v' ≤ v + 1 := by
  obtain ⟨img, h⟩ := calculate_ok 2 [⟨0, 0, 1000⟩] twoStations (by simp) (by simp [twoStations])
  obtain ⟨img', h'⟩ := calculate_ok 2 [⟨0, 0, 1000⟩] [⟨0, 0, 1000, none⟩, ⟨3, 4, 2000, some 6⟩, ⟨6, 8, 2500, some 11⟩] (by simp) (by simp)
  obtain ⟨v, v', r⟩ := C172_plain_partial 2 1 _ _ _ img img' h h' (by
    refine .cons ⟨rfl, rfl, rfl, .inl ⟨rfl, rfl⟩⟩ (.cons ⟨rfl, rfl, rfl, .inr ⟨5, 6, rfl, rfl, by norm_num, by norm_num⟩⟩
      (.cons ⟨rfl, rfl, rfl, .inr ⟨11, 11, rfl, rfl, le_rfl, by norm_num⟩⟩ .nil))) 0 ⟨0, 0, 1000⟩ rfl (by
      intro s hs hv
      simp [twoStations] at hs
      rcases hs with rfl | rfl | rfl
      · simp at hv
      · norm_num
      · norm_num) ⟨⟨3, 4, 2000, some 5⟩, by simp [twoStations], by simp⟩
  exact ⟨img, img', v, v', h, h', r⟩

/-- Three gauges; at 1500 m, the weighted mean of their elevations, one degree more at the lowest counts with its weight, at 3000 m it is negative. -/
noncomputable def three : List Gauge := [⟨0, 0, 1000, 1 / 2, 8, 9⟩, ⟨9, 0, 2000, 1 / 2, 2, 2⟩, ⟨0, 9, 1500, 0, 5, 5⟩]

example : total three (fun q => q.weight) = 1 ∧ 0 < spread three ∧ (1500 : ℝ) = total three (fun q => q.weight * q.z) ∧
    influence three 1500 ⟨0, 0, 1000, 1 / 2, 8, 9⟩ = 1 / 2 ∧ influence three 3000 ⟨0, 0, 1000, 1 / 2, 8, 9⟩ = -1 := by
  refine ⟨?_, ?_, ?_, ?_, ?_⟩ <;> norm_num [total, spread, three, influence]

example (fit : List (ℝ × ℝ) → ℝ × ℝ) (hf : LeastSquares fit) :
    krigedCell fit 0 (stationsOf Gauge.before three) (three.map fun q => q.weight) ⟨3, 3, 1500⟩ ≤
      krigedCell fit 0 (stationsOf Gauge.after three) (three.map fun q => q.weight) ⟨3, 3, 1500⟩ := by
  refine C172_trend_partial fit hf 0 three (by norm_num [total, three]) (by norm_num [spread, total, three]) ⟨by norm_num, by norm_num⟩
    ⟨by norm_num, by norm_num⟩ _ ?_ (.inr ⟨?_, by norm_num [total, three]⟩)
  · intro q hq
    simp only [three, List.mem_cons, List.not_mem_nil, or_false] at hq
    rcases hq with rfl | rfl | rfl <;> norm_num
  · intro q hq
    simp only [three, List.mem_cons, List.not_mem_nil, or_false] at hq
    rcases hq with rfl | rfl | rfl <;> norm_num

end Verif.Idw
