import Verif.InfluenceProps

/-!
How much an error in the readings of the stations can change the image (C180): inverse distance weighting with and without elevation
trend, detrended kriging with given weights. No new model.
-/

namespace Verif.Idw

/-- The same station with readings at most `e` apart; a missing reading is missing in both. -/
def Near (e : ℝ) (s s' : Station) : Prop :=
  s'.x = s.x ∧ s'.y = s.y ∧ s'.z = s.z ∧ ((s.val = none ∧ s'.val = none) ∨ ∃ a b, s.val = some a ∧ s'.val = some b ∧ |b - a| ≤ e)

/-- C180 in full: an error of at most `e` in the readings changes no cell by more than `e`. -/
def C180_full : Prop :=
  ∀ (fit : List (ℝ × ℝ) → ℝ × ℝ) (flag : Int) (p e : ℝ) (grid : List Cell) (sta sta' : List Station) (img img' : List Ext), LeastSquares fit → 0 < p →
    List.Forall₂ (Near e) sta sta' → detrendedIDW fit flag p grid sta = .ok img → detrendedIDW fit flag p grid sta' = .ok img' →
    ∀ (i : Nat) (v v' : ℝ), img[i]? = some (.fin v) → img'[i]? = some (.fin v') → |v' - v| ≤ e

/-- Without elevation trend: no cell changes by more than the largest error of a reading. Missing: cells at a station (C53). -/
theorem C180_plain_partial (p e : ℝ) (grid : List Cell) (sta sta' : List Station) (img img' : List Ext)
    (h : calculateIDW p grid sta = .ok img) (h' : calculateIDW p grid sta' = .ok img') (hh : List.Forall₂ (Near e) sta sta')
    (i : Nat) (g : Cell) (hg : grid[i]? = some g) (hc : NoStationAt sta g) (hk : SomeData sta) :
    ∃ v v', img[i]? = some (.fin v) ∧ img'[i]? = some (.fin v') ∧ |v' - v| ≤ e := by
  -- the stations with every reading lowered by e
  have hgne : grid ≠ [] := by rintro rfl; simp at hg
  have hsne : (sta.map fun s => { s with val := s.val.map fun x => 1 * x + -e }) ≠ [] := by
    obtain ⟨s, hs, -⟩ := hk
    exact List.ne_nil_of_mem (List.mem_map.2 ⟨s, hs, rfl⟩)
  obtain ⟨low, hlow⟩ := calculate_ok p grid _ hgne hsne
  obtain ⟨v, e1, e2⟩ := C53_affine_partial p 1 (-e) grid sta img low h hlow i g hg hc hk
  have hc' : NoStationAt (sta.map fun s => { s with val := s.val.map fun x => 1 * x + -e }) g := by
    intro s hs hv
    obtain ⟨t, ht, rfl⟩ := List.mem_map.1 hs
    exact hc t ht (fun h0 => hv (by simp [h0]))
  have hk' : SomeData (sta.map fun s => { s with val := s.val.map fun x => 1 * x + -e }) := by
    obtain ⟨s, hs, hv⟩ := hk
    exact ⟨_, List.mem_map.2 ⟨s, hs, rfl⟩, by simpa using hv⟩
  have hf : List.Forall₂ (HigherBy (2 * e)) (sta.map fun s => { s with val := s.val.map fun x => 1 * x + -e }) sta' := by
    rw [List.forall₂_map_left_iff]
    refine hh.imp ?_
    intro s s' hs
    refine ⟨hs.1, hs.2.1, hs.2.2.1, ?_⟩
    rcases hs.2.2.2 with ⟨h1, h2⟩ | ⟨a, b, h1, h2, h3⟩
    · left; simp [h1, h2]
    · right
      have := _root_.abs_le.1 h3
      exact ⟨1 * a + -e, b, by simp [h1], h2, by linarith, by linarith⟩
  obtain ⟨u, v', f1, f2, f3, f4⟩ := C172_plain_partial p (2 * e) grid _ sta' low img' hlow h' hf i g hg hc' hk'
  rw [e2, Option.some.injEq, Ext.fin.injEq] at f1
  refine ⟨v, v', e1, f2, _root_.abs_le.2 ⟨by linarith, by linarith⟩⟩

/-! ### With elevation trend -/

/-- The mean elevation of the gauges. -/
noncomputable def meanZ (l : List Gauge) : ℝ := total l (fun q => q.z) / l.length

/-- The standard deviation of the elevations of the gauges. -/
noncomputable def deviation (l : List Gauge) : ℝ := Real.sqrt (total l (fun q => (q.z - meanZ l) ^ 2) / l.length)

theorem total_square (l : List Gauge) (f : Gauge → ℝ) (c : ℝ) :
    total l (fun q => (f q - c) ^ 2) = total l (fun q => f q ^ 2) - 2 * c * total l f + l.length * c ^ 2 := by
  unfold total
  induction l with
  | nil => simp
  | cons q l ih => simp only [List.map_cons, List.sum_cons, ih, List.length_cons]; push_cast; ring

theorem total_nonneg (l : List Gauge) (f : Gauge → ℝ) (h : ∀ q ∈ l, 0 ≤ f q) : 0 ≤ total l f := by
  unfold total
  apply List.sum_nonneg
  intro x hx
  obtain ⟨q, hq, rfl⟩ := List.mem_map.1 hx
  exact h q hq

theorem total_le (l : List Gauge) (f g : Gauge → ℝ) (h : ∀ q ∈ l, f q ≤ g q) : total l f ≤ total l g := by
  have := total_nonneg l (fun q => g q - f q) fun q hq => sub_nonneg.2 (h q hq)
  rw [total_sub] at this
  linarith

theorem abs_total (l : List Gauge) (f : Gauge → ℝ) : |total l f| ≤ total l fun q => |f q| := by
  unfold total
  induction l with
  | nil => simp
  | cons q l ih =>
    simp only [List.map_cons, List.sum_cons]
    exact (abs_add_le _ _).trans (by linarith)

/-- The square of a sum of absolute values. -/
theorem total_abs_sq (l : List Gauge) (hl : l ≠ []) (f : Gauge → ℝ) : (total l fun q => |f q|) ^ 2 ≤ l.length * total l fun q => f q ^ 2 := by
  have hn : 0 < (l.length : ℝ) := by exact_mod_cast List.length_pos_iff.2 hl
  have h := total_nonneg l (fun q => (|f q| - (total l fun q => |f q|) / l.length) ^ 2) fun q _ => sq_nonneg _
  rw [total_square] at h
  simp only [sq_abs] at h
  have e : total l (fun q => f q ^ 2) - 2 * ((total l fun q => |f q|) / l.length) * (total l fun q => |f q|)
      + l.length * ((total l fun q => |f q|) / l.length) ^ 2 = total l (fun q => f q ^ 2) - (total l fun q => |f q|) ^ 2 / l.length := by
    field_simp
    ring
  rw [e, sub_nonneg, div_le_iff₀ hn] at h
  linarith

theorem spread_pulls (l : List Gauge) : total l (fun q => (l.length * q.z - total l fun q => q.z) ^ 2) = l.length * spread l := by
  rw [total_square l (fun q => l.length * q.z)]
  have e : total l (fun q => (l.length * q.z) ^ 2) = l.length ^ 2 * total l fun q => q.z ^ 2 := by
    rw [← total_mul]
    congr 1
    funext q
    ring
  rw [e, total_mul]
  unfold spread
  ring

theorem deviation_eq (l : List Gauge) (hl : l ≠ []) : deviation l = Real.sqrt (spread l) / l.length := by
  have hn : 0 < (l.length : ℝ) := by exact_mod_cast List.length_pos_iff.2 hl
  unfold deviation
  rw [total_square l (fun q => q.z)]
  have e : (total l (fun q => q.z ^ 2) - 2 * meanZ l * (total l fun q => q.z) + l.length * meanZ l ^ 2) / l.length = spread l / l.length ^ 2 := by
    unfold meanZ spread
    field_simp
    ring
  rw [e, Real.sqrt_div' _ (by positivity), Real.sqrt_sq hn.le]

/-- The slope that is used: that of the line, or zero where its sign is excluded. -/
noncomputable def limited (flag : Int) (s : ℝ) : ℝ := if flag = 1 then max s 0 else if flag = -1 then min s 0 else s

theorem constrain_fst (flag : Int) (pv : ℝ × ℝ) : (constrain flag pv).1 = limited flag pv.1 := by
  unfold constrain limited
  by_cases h1 : flag = 1
  · subst h1
    simp only [true_and, if_true]
    rcases lt_or_ge pv.1 0 with h | h
    · rw [if_pos h, max_eq_right h.le]
    · rw [if_neg (not_lt.2 h), if_neg (by simp), max_eq_left h]
  · rw [if_neg (fun h => h1 h.1), if_neg h1]
    by_cases h2 : flag = -1
    · subst h2
      simp only [true_and, if_true]
      rcases lt_or_ge 0 pv.1 with h | h
      · rw [if_pos h, min_eq_right h.le]
      · rw [if_neg (not_lt.2 h), min_eq_left h]
    · rw [if_neg (fun h => h2 h.1), if_neg h2]

theorem limited_near (flag : Int) (s t : ℝ) : |limited flag s - limited flag t| ≤ |s - t| := by
  unfold limited
  split
  · exact abs_max_sub_max_le_abs _ _ _
  · split
    · have := abs_min_sub_min_le_max s 0 t 0
      simpa using this
    · exact le_rfl

/-- A cell from the slope that is used. -/
theorem kriged_limited (fit : List (ℝ × ℝ) → ℝ × ℝ) (flag : Int) (l : List Gauge) (f : Gauge → ℝ) (hw : total l (fun q => q.weight) = 1) (g : Cell) :
    krigedCell fit flag (stationsOf f l) (l.map fun q => q.weight) g =
      total l (fun q => q.weight * f q) + limited flag (fit (points (stationsOf f l))).1 * (g.z - total l fun q => q.weight * q.z) := by
  unfold krigedCell
  simp only
  rw [← constrain_fst]
  generalize constrain flag (fit (points (stationsOf f l))) = pv
  rw [points_stationsOf]
  have e : ∀ l : List Gauge, (List.zipWith (· * ·) (l.map fun q => q.weight) ((l.map fun q => (q.z, f q)).map fun q => q.2 - (q.1 * pv.1 + pv.2))).sum =
      total l (fun q => q.weight * f q) - pv.1 * total l (fun q => q.weight * q.z) - pv.2 * total l (fun q => q.weight) := by
    intro l
    unfold total
    induction l with
    | nil => simp
    | cons q l ih => simp only [List.map_cons, List.zipWith_cons_cons, List.sum_cons, ih]; ring
  rw [e, hw]
  ring

/-- The slope changes by at most the error over the standard deviation of the elevations. -/
theorem slope_near (fit : List (ℝ × ℝ) → ℝ × ℝ) (hf : LeastSquares fit) (l : List Gauge) (hD : 0 < spread l) (e : ℝ)
    (hr : ∀ q ∈ l, |q.after - q.before| ≤ e) :
    |(fit (points (stationsOf Gauge.after l))).1 - (fit (points (stationsOf Gauge.before l))).1| ≤ e / deviation l := by
  have hl : l ≠ [] := by rintro rfl; simp [spread, total] at hD
  have hn : 0 < (l.length : ℝ) := by exact_mod_cast List.length_pos_iff.2 hl
  have e0 : 0 ≤ e := by
    obtain ⟨q, hq⟩ := List.exists_mem_of_ne_nil l hl
    exact (abs_nonneg _).trans (hr q hq)
  rw [points_stationsOf, points_stationsOf, line_unique fit hf l _ hD, line_unique fit hf l _ hD, ← sub_div, deviation_eq l hl]
  have k : l.length * total l (fun q => q.z * q.after) - total l (fun q => q.z) * total l Gauge.after -
      (l.length * total l (fun q => q.z * q.before) - total l (fun q => q.z) * total l Gauge.before) =
      total l fun q => (l.length * q.z - total l fun q => q.z) * (q.after - q.before) := by
    generalize total l (fun q => q.z) = sx
    generalize (l.length : ℝ) = n
    clear hl hn hr hD
    unfold total
    induction l with
    | nil => simp
    | cons q l ih =>
      simp only [List.map_cons, List.sum_cons]
      rw [← ih]
      ring
  rw [k, abs_div, abs_of_pos hD]
  have a1 : |total l fun q => (l.length * q.z - total l fun q => q.z) * (q.after - q.before)| ≤ e * total l fun q => |l.length * q.z - total l fun q => q.z| := by
    refine (abs_total l _).trans ?_
    rw [← total_mul]
    refine total_le l _ _ fun q hq => ?_
    rw [abs_mul, mul_comm]
    exact mul_le_mul_of_nonneg_right (hr q hq) (abs_nonneg _)
  have a2 : (total l fun q => |l.length * q.z - total l fun q => q.z|) ≤ l.length * Real.sqrt (spread l) := by
    apply abs_le_of_sq_le_sq' _ (by positivity) |>.2
    have := total_abs_sq l hl fun q => l.length * q.z - total l fun q => q.z
    rw [spread_pulls] at this
    rw [mul_pow, Real.sq_sqrt hD.le]
    linarith
  have hs : 0 < Real.sqrt (spread l) := Real.sqrt_pos.2 hD
  have a3 : e * (l.length * Real.sqrt (spread l)) / spread l = e / (Real.sqrt (spread l) / l.length) := by
    nth_rewrite 2 [← Real.mul_self_sqrt hD.le]
    field_simp
  rw [← a3]
  exact div_le_div_of_nonneg_right (a1.trans (mul_le_mul_of_nonneg_left a2 e0)) hD.le

/-- With elevation trend, whatever the limit on its sign and whether or not it is kept: a cell changes by no more than the error, times one plus the height
of the cell above or below the weighted mean of the stations in standard deviations of their elevations. -/
theorem C180_trend (fit : List (ℝ × ℝ) → ℝ × ℝ) (hf : LeastSquares fit) (flag : Int) (l : List Gauge) (hw : total l (fun q => q.weight) = 1)
    (h0 : ∀ q ∈ l, 0 ≤ q.weight) (hD : 0 < deviation l) (e : ℝ) (hr : ∀ q ∈ l, |q.after - q.before| ≤ e) (g : Cell) :
    |krigedCell fit flag (stationsOf Gauge.after l) (l.map fun q => q.weight) g - krigedCell fit flag (stationsOf Gauge.before l) (l.map fun q => q.weight) g|
      ≤ e * (1 + |g.z - total l fun q => q.weight * q.z| / deviation l) := by
  have hl : l ≠ [] := by rintro rfl; simp [total] at hw
  have hS : 0 < spread l := by
    rw [deviation_eq l hl] at hD
    by_contra hn
    rw [Real.sqrt_eq_zero'.2 (not_lt.1 hn), zero_div] at hD
    exact lt_irrefl _ hD
  rw [kriged_limited fit flag l _ hw g, kriged_limited fit flag l _ hw g]
  have k1 := slope_near fit hf l hS e hr
  have k2 := (limited_near flag (fit (points (stationsOf Gauge.after l))).1 (fit (points (stationsOf Gauge.before l))).1).trans k1
  have k3 : |total l (fun q => q.weight * q.after) - total l (fun q => q.weight * q.before)| ≤ e := by
    rw [← total_sub]
    refine (abs_total l _).trans ?_
    have : (total l fun q => |q.weight * q.after - q.weight * q.before|) ≤ total l fun q => e * q.weight := by
      refine total_le l _ _ fun q hq => ?_
      rw [← mul_sub, abs_mul, abs_of_nonneg (h0 q hq), mul_comm]
      exact mul_le_mul_of_nonneg_right (hr q hq) (h0 q hq)
    rw [total_mul, hw, mul_one] at this
    exact this
  generalize limited flag (fit (points (stationsOf Gauge.after l))).1 = s' at *
  generalize limited flag (fit (points (stationsOf Gauge.before l))).1 = s at *
  generalize (g.z - total l fun q => q.weight * q.z) = z at *
  have e1 : total l (fun q => q.weight * q.after) + s' * z - (total l (fun q => q.weight * q.before) + s * z) =
      (total l (fun q => q.weight * q.after) - total l (fun q => q.weight * q.before)) + (s' - s) * z := by ring
  rw [e1]
  refine (abs_add_le _ _).trans ?_
  rw [abs_mul]
  have k4 := mul_le_mul_of_nonneg_right k2 (abs_nonneg z)
  have e2 : e * (1 + |z| / deviation l) = e + e / deviation l * |z| := by ring
  rw [e2]
  exact add_le_add k3 k4

/-- The gauges with the weights of inverse distance weighting at a cell. -/
noncomputable def weighted (p : ℝ) (g : Cell) (l : List Gauge) : List Gauge := l.map fun q =>
  { q with weight := 1 / Real.sqrt ((g.x - q.x) ^ 2 + (g.y - q.y) ^ 2) ^ p / total l fun q => 1 / Real.sqrt ((g.x - q.x) ^ 2 + (g.y - q.y) ^ 2) ^ p }

theorem known_stationsOf (f : Gauge → ℝ) (l : List Gauge) : known (stationsOf f l) = l.map fun q => (⟨q.x, q.y, q.z, some (f q)⟩, f q) := by
  unfold known stationsOf
  induction l with
  | nil => rfl
  | cons q l ih => simpa using ih

theorem length_weighted (p : ℝ) (g : Cell) (l : List Gauge) : (weighted p g l).length = l.length := by unfold weighted; simp

theorem total_weighted (p : ℝ) (g : Cell) (l : List Gauge) (f : ℝ → ℝ) : total (weighted p g l) (fun q => f q.z) = total l fun q => f q.z := by
  unfold weighted total
  rw [List.map_map]
  rfl

theorem deviation_weighted (p : ℝ) (g : Cell) (l : List Gauge) : deviation (weighted p g l) = deviation l := by
  unfold deviation meanZ
  rw [length_weighted, total_weighted p g l (fun z => z), total_weighted p g l (fun z => (z - (total l fun q => q.z) / l.length) ^ 2)]

/-- The image of inverse distance weighting with trend, at a cell without a station. Missing: cells at a station (C53); the factor cannot be avoided
(`C180_amplified_fails`). -/
theorem C180_idw_partial (fit : List (ℝ × ℝ) → ℝ × ℝ) (hf : LeastSquares fit) (flag : Int) (p : ℝ) (grid : List Cell) (l : List Gauge)
    (hD : 0 < deviation l) (e : ℝ) (hr : ∀ q ∈ l, |q.after - q.before| ≤ e) (img img' : List Ext)
    (h : detrendedIDW fit flag p grid (stationsOf Gauge.before l) = .ok img) (h' : detrendedIDW fit flag p grid (stationsOf Gauge.after l) = .ok img')
    (i : Nat) (g : Cell) (hg : grid[i]? = some g) (hc : ∀ q ∈ l, ¬ (g.x = q.x ∧ g.y = q.y)) :
    ∃ v v', img[i]? = some (.fin v) ∧ img'[i]? = some (.fin v') ∧
      |v' - v| ≤ e * (1 + |g.z - total (weighted p g l) fun q => q.weight * q.z| / deviation l) := by
  have hl : l ≠ [] := by
    rintro rfl
    simp [deviation, total] at hD
  have no : ∀ f, NoStationAt (stationsOf f l) g := by
    intro f s hs _
    obtain ⟨q, hq, rfl⟩ := List.mem_map.1 hs
    exact hc q hq
  have sd : ∀ f, SomeData (stationsOf f l) := by
    intro f
    obtain ⟨q, hq⟩ := List.exists_mem_of_ne_nil l hl
    exact ⟨_, List.mem_map.2 ⟨q, hq, rfl⟩, by simp⟩
  have W : ∀ f, ((known (stationsOf f l)).map fun q => 1 / mapDist g q.1 ^ p / ((known (stationsOf f l)).map fun q => 1 / mapDist g q.1 ^ p).sum) =
      (weighted p g l).map fun q => q.weight := by
    intro f
    rw [known_stationsOf]
    unfold weighted total
    rw [List.map_map, List.map_map, List.map_map]
    rfl
  have st : stationsOf Gauge.before l = stationsOf Gauge.before (weighted p g l) := by unfold stationsOf weighted; rw [List.map_map]; rfl
  have st' : stationsOf Gauge.after l = stationsOf Gauge.after (weighted p g l) := by unfold stationsOf weighted; rw [List.map_map]; rfl
  have a := C172_idw fit flag p grid _ img h i g hg (no _) (sd _)
  have a' := C172_idw fit flag p grid _ img' h' i g hg (no _) (sd _)
  rw [W] at a a'
  rw [st] at a
  rw [st'] at a'
  have dpos : ∀ q ∈ l, 0 < 1 / Real.sqrt ((g.x - q.x) ^ 2 + (g.y - q.y) ^ 2) ^ p := by
    intro q hq
    have : 0 < (g.x - q.x) ^ 2 + (g.y - q.y) ^ 2 := by
      by_contra hn
      have hx := sq_nonneg (g.x - q.x)
      have hy := sq_nonneg (g.y - q.y)
      have x0 : (g.x - q.x) ^ 2 = 0 := by linarith
      have y0 : (g.y - q.y) ^ 2 = 0 := by linarith
      exact hc q hq ⟨by linarith [pow_eq_zero_iff two_ne_zero |>.1 x0], by linarith [pow_eq_zero_iff two_ne_zero |>.1 y0]⟩
    have := Real.sqrt_pos.2 this
    positivity
  have Wpos : 0 < total l fun q => 1 / Real.sqrt ((g.x - q.x) ^ 2 + (g.y - q.y) ^ 2) ^ p := by
    obtain ⟨q, hq⟩ := List.exists_mem_of_ne_nil l hl
    refine lt_of_lt_of_le (dpos q hq) ?_
    unfold total
    exact List.single_le_sum (by
      intro x hx
      obtain ⟨r, hr, rfl⟩ := List.mem_map.1 hx
      exact (dpos r hr).le) _ (List.mem_map.2 ⟨q, hq, rfl⟩)
  have hw : total (weighted p g l) (fun q => q.weight) = 1 := by
    have : total (weighted p g l) (fun q => q.weight) = (total l fun q => 1 / Real.sqrt ((g.x - q.x) ^ 2 + (g.y - q.y) ^ 2) ^ p)⁻¹ *
        total l fun q => 1 / Real.sqrt ((g.x - q.x) ^ 2 + (g.y - q.y) ^ 2) ^ p := by
      rw [← total_mul]
      unfold weighted
      generalize (total l fun q => 1 / Real.sqrt ((g.x - q.x) ^ 2 + (g.y - q.y) ^ 2) ^ p) = V
      unfold total
      rw [List.map_map]
      congr 2
      funext q
      simp only [Function.comp]
      rw [div_eq_mul_inv, mul_comm]
    rw [this, inv_mul_cancel₀ Wpos.ne']
  refine ⟨_, _, a, a', ?_⟩
  rw [← deviation_weighted p g l]
  refine C180_trend fit hf flag (weighted p g l) hw ?_ (by rw [deviation_weighted]; exact hD) e ?_ g
  · intro q hq
    obtain ⟨r, hr, rfl⟩ := List.mem_map.1 hq
    exact div_nonneg (dpos r hr).le Wpos.le
  · intro q hq
    obtain ⟨r, hr', rfl⟩ := List.mem_map.1 hq
    exact hr r hr'

/-- The bound of `C180_trend` cannot be improved: any two elevations, any readings, any error, every cell from the upper gauge upwards that has its
weight from there. -/
theorem C180_sharp (fit : List (ℝ × ℝ) → ℝ × ℝ) (hf : LeastSquares fit) (s t : Cell) (hz : s.z < t.z) (a b e : ℝ) (he : 0 ≤ e) (g : Cell) (hg : t.z ≤ g.z) :
    ∃ l : List Gauge, total l (fun q => q.weight) = 1 ∧ (∀ q ∈ l, 0 ≤ q.weight) ∧ 0 < deviation l ∧ (∀ q ∈ l, |q.after - q.before| ≤ e) ∧
      stationsOf Gauge.before l = pair s t a b ∧
      |krigedCell fit 0 (stationsOf Gauge.after l) (l.map fun q => q.weight) g - krigedCell fit 0 (stationsOf Gauge.before l) (l.map fun q => q.weight) g|
        = e * (1 + |g.z - total l fun q => q.weight * q.z| / deviation l) := by
  have h0 : 0 < t.z - s.z := by linarith
  have hd : deviation [⟨s.x, s.y, s.z, 0, a, a - e⟩, ⟨t.x, t.y, t.z, 1, b, b + e⟩] = (t.z - s.z) / 2 := by
    rw [deviation_eq _ (by simp)]
    have : spread [⟨s.x, s.y, s.z, 0, a, a - e⟩, ⟨t.x, t.y, t.z, 1, b, b + e⟩] = (t.z - s.z) ^ 2 := by
      simp [spread, total]; ring
    rw [this, Real.sqrt_sq h0.le]
    norm_num
  refine ⟨[⟨s.x, s.y, s.z, 0, a, a - e⟩, ⟨t.x, t.y, t.z, 1, b, b + e⟩], by simp [total], ?_, by rw [hd]; linarith, ?_, rfl, ?_⟩
  · intro q hq
    simp only [List.mem_cons, List.not_mem_nil, or_false] at hq
    rcases hq with rfl | rfl <;> norm_num
  · intro q hq
    simp only [List.mem_cons, List.not_mem_nil, or_false] at hq
    rcases hq with rfl | rfl
    · simp [abs_of_nonneg he]
    · simp [abs_of_nonneg he]
  · rw [hd]
    have e1 := C54_affine_exact_kriging fit hf 0 _ _ _ (pair_affine s t a b hz) ⟨by norm_num, by norm_num⟩ [0, 1] g
    have e2 := C54_affine_exact_kriging fit hf 0 _ _ _ (pair_affine s t (a - e) (b + e) hz) ⟨by norm_num, by norm_num⟩ [0, 1] g
    have k1 : krigedCell fit 0 (stationsOf Gauge.before [⟨s.x, s.y, s.z, 0, a, a - e⟩, ⟨t.x, t.y, t.z, 1, b, b + e⟩]) [0, 1] g =
      krigedCell fit 0 (pair s t a b) [0, 1] g := rfl
    have k2 : krigedCell fit 0 (stationsOf Gauge.after [⟨s.x, s.y, s.z, 0, a, a - e⟩, ⟨t.x, t.y, t.z, 1, b, b + e⟩]) [0, 1] g =
      krigedCell fit 0 (pair s t (a - e) (b + e)) [0, 1] g := rfl
    simp only [List.map_cons, List.map_nil]
    rw [k1, k2, e1, e2]
    have e3 : (total [⟨s.x, s.y, s.z, 0, a, a - e⟩, ⟨t.x, t.y, t.z, 1, b, b + e⟩] fun q => q.weight * q.z) = t.z := by simp [total]
    rw [e3, abs_of_nonneg (sub_nonneg.2 hg)]
    have e4 : (b + e - (a - e)) / (t.z - s.z) * g.z + (a - e - (b + e - (a - e)) / (t.z - s.z) * s.z) -
        ((b - a) / (t.z - s.z) * g.z + (a - (b - a) / (t.z - s.z) * s.z)) = e * (1 + (g.z - t.z) / ((t.z - s.z) / 2)) := by
      field_simp
      ring
    rw [e4, abs_of_nonneg]
    exact mul_nonneg he (add_nonneg zero_le_one (div_nonneg (by linarith) (by linarith)))

/-- No factor will do for all cells: with any two stations at different elevations, an error of one reading and any `K` there is an elevation from which on
every cell changes by more than `K` times the error. -/
theorem C180_amplified_fails (fit : List (ℝ × ℝ) → ℝ × ℝ) (hf : LeastSquares fit) (p : ℝ) (hp : 0 < p) (s t : Cell) (hz : s.z < t.z) (a b d : ℝ)
    (hd : 0 < d) (K : ℝ) : ∃ top, ∀ (grid : List Cell) (i : Nat) (g : Cell), grid[i]? = some g → top ≤ g.z →
      ∃ img img' v v', detrendedIDW fit 0 p grid (pair s t a b) = .ok img ∧ detrendedIDW fit 0 p grid (pair s t (a + d) b) = .ok img' ∧
        img[i]? = some (.fin v) ∧ img'[i]? = some (.fin v') ∧ K * d < |v' - v| := by
  have h0 : 0 < t.z - s.z := by linarith
  refine ⟨t.z + (|K| + 1) * (t.z - s.z), fun grid i g hg htop => ?_⟩
  have hK := abs_nonneg K
  have hup : t.z < g.z := by
    have := mul_pos (show 0 < |K| + 1 by linarith) h0
    linarith
  obtain ⟨img, img', v, h1, h2, h3, h4, h5, -⟩ := C172_extrapolated_fails fit hf 0 p hp grid s t hz a b d hd ⟨by norm_num, by norm_num⟩ ⟨by norm_num, by norm_num⟩
    i g hg hup
  refine ⟨img, img', v, _, h1, h2, h3, h4, ?_⟩
  rw [sub_sub_cancel_left, abs_neg, abs_of_pos h5]
  have : |K| + 1 ≤ (g.z - t.z) / (t.z - s.z) := by
    rw [le_div_iff₀ h0]
    linarith
  have k := mul_le_mul_of_nonneg_left this hd.le
  have k2 := mul_le_mul_of_nonneg_right (le_abs_self K) hd.le
  nlinarith

theorem C180_fails : ¬ C180_full := by
  intro h
  obtain ⟨top, ht⟩ := C180_amplified_fails closedForm closedForm_least 2 (by norm_num) ⟨0, 0, 1000⟩ ⟨10, 0, 2000⟩ (by norm_num) 8 2 1 one_pos 1
  obtain ⟨img, img', v, v', h1, h2, h3, h4, h5⟩ := ht [⟨5, 5, top⟩] 0 ⟨5, 5, top⟩ rfl le_rfl
  have := h closedForm 0 2 1 _ _ _ img img' closedForm_least (by norm_num)
    (by refine .cons ⟨rfl, rfl, rfl, .inr ⟨8, 8 + 1, rfl, rfl, by norm_num⟩⟩ (.cons ⟨rfl, rfl, rfl, .inr ⟨2, 2, rfl, rfl, by norm_num⟩⟩ .nil)) h1 h2 0 v v' h3 h4
  linarith

/-! ### The hypotheses are met -/

theorem three_deviation : 0 < deviation three := by
  rw [deviation_eq three (by simp [three])]
  have : 0 < spread three := by norm_num [spread, total, three]
  have h2 := Real.sqrt_pos.2 this
  simp only [three, List.length_cons, List.length_nil] at h2 ⊢
  positivity

/-- The three gauges of C172, one degree more at the lowest: at their weighted mean elevation at most one degree. -/
example (fit : List (ℝ × ℝ) → ℝ × ℝ) (hf : LeastSquares fit) :
    |krigedCell fit (-1) (stationsOf Gauge.after three) (three.map fun q => q.weight) ⟨3, 3, 1500⟩ -
      krigedCell fit (-1) (stationsOf Gauge.before three) (three.map fun q => q.weight) ⟨3, 3, 1500⟩| ≤ 1 := by
  have k := C180_trend fit hf (-1) three (by norm_num [total, three]) (by
    intro q hq
    simp only [three, List.mem_cons, List.not_mem_nil, or_false] at hq
    rcases hq with rfl | rfl | rfl <;> norm_num) three_deviation 1 (by
    intro q hq
    simp only [three, List.mem_cons, List.not_mem_nil, or_false] at hq
    rcases hq with rfl | rfl | rfl <;> norm_num) ⟨3, 3, 1500⟩
  have e : (1500 : ℝ) - (total three fun q => q.weight * q.z) = 0 := by norm_num [total, three]
  simp only [e] at k
  simpa using k

/-- Without trend, one reading half a degree off. -/
example : ∃ img img' v v', calculateIDW 2 [⟨0, 0, 1000⟩] twoStations = .ok img ∧
    calculateIDW 2 [⟨0, 0, 1000⟩] [⟨0, 0, 1000, none⟩, ⟨3, 4, 2000, some (9 / 2)⟩, ⟨6, 8, 2500, some 11⟩] = .ok img' ∧
    img[0]? = some (.fin v) ∧ img'[0]? = some (.fin v') ∧ |v' - v| ≤ 1 / 2 := by
  obtain ⟨img, h⟩ := calculate_ok 2 [⟨0, 0, 1000⟩] twoStations (by simp) (by simp [twoStations])
  obtain ⟨img', h'⟩ := calculate_ok 2 [⟨0, 0, 1000⟩] [⟨0, 0, 1000, none⟩, ⟨3, 4, 2000, some (9 / 2)⟩, ⟨6, 8, 2500, some 11⟩] (by simp) (by simp)
  obtain ⟨v, v', r⟩ := C180_plain_partial 2 (1 / 2) _ _ _ img img' h h' (by
    refine .cons ⟨rfl, rfl, rfl, .inl ⟨rfl, rfl⟩⟩ (.cons ⟨rfl, rfl, rfl, .inr ⟨5, 9 / 2, rfl, rfl, by norm_num [abs_of_neg]⟩⟩
      (.cons ⟨rfl, rfl, rfl, .inr ⟨11, 11, rfl, rfl, by norm_num⟩⟩ .nil))) 0 ⟨0, 0, 1000⟩ rfl (by
      intro s hs hv
      simp [twoStations] at hs
      rcases hs with rfl | rfl | rfl
      · simp at hv
      · norm_num
      · norm_num) ⟨⟨3, 4, 2000, some 5⟩, by simp [twoStations], by simp⟩
  exact ⟨img, img', v, v', h, h', r⟩

/-- The image with trend. -/
example : ∃ img img' v v', detrendedIDW closedForm (-1) 2 [⟨3, 3, 1800⟩] (stationsOf Gauge.before three) = .ok img ∧
    detrendedIDW closedForm (-1) 2 [⟨3, 3, 1800⟩] (stationsOf Gauge.after three) = .ok img' ∧ img[0]? = some (.fin v) ∧ img'[0]? = some (.fin v') ∧
    |v' - v| ≤ 1 * (1 + |1800 - total (weighted 2 ⟨3, 3, 1800⟩ three) fun q => q.weight * q.z| / deviation three) := by
  have ok : ∀ f, ∃ img, detrendedIDW closedForm (-1) 2 [⟨3, 3, 1800⟩] (stationsOf f three) = .ok img := by
    intro f
    obtain ⟨img, h⟩ := calculate_ok 2 [⟨3, 3, 1800⟩] (detrend closedForm (-1) (stationsOf f three)).2 (by simp) (by simp [detrend, stationsOf, three])
    unfold detrendedIDW
    simp only
    rw [h]
    exact ⟨_, rfl⟩
  obtain ⟨img, h⟩ := ok Gauge.before
  obtain ⟨img', h'⟩ := ok Gauge.after
  obtain ⟨v, v', r⟩ := C180_idw_partial closedForm closedForm_least (-1) 2 [⟨3, 3, 1800⟩] three three_deviation 1 (by
    intro q hq
    simp only [three, List.mem_cons, List.not_mem_nil, or_false] at hq
    rcases hq with rfl | rfl | rfl <;> norm_num) img img' h h' 0 ⟨3, 3, 1800⟩ rfl (by
    intro q hq
    simp only [three, List.mem_cons, List.not_mem_nil, or_false] at hq
    rcases hq with rfl | rfl | rfl <;> norm_num)
  exact ⟨img, img', v, v', h, h', r⟩

end Verif.Idw
