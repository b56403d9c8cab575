import Verif.FrameLemmas

/-!
Property C140: the interpolated images do not depend on the origin, the axes and the units of the coordinates, and
follow the units of the data.
-/

namespace Verif.Frame
open Verif.Idw Verif.Krige

/-- Another frame of coordinates: distances on the map are multiplied by `s` (any origin, rotated or mirrored axes, another
unit), heights are counted from another level in another unit. -/
structure Change where
  move : ℝ × ℝ → ℝ × ℝ
  s : ℝ
  pos : 0 < s
  similar : ∀ p q, ((move p).1 - (move q).1) ^ 2 + ((move p).2 - (move q).2) ^ 2 = s ^ 2 * ((p.1 - q.1) ^ 2 + (p.2 - q.2) ^ 2)
  unit : ℝ
  unitPos : 0 < unit
  level : ℝ

/-- Only the map changes. -/
def Change.flat (c : Change) : Prop := c.unit = 1 ∧ c.level = 0

/-- A station in the new frame. -/
def Change.sta (c : Change) (t : Station) : Station := ⟨(c.move (t.x, t.y)).1, (c.move (t.x, t.y)).2, c.unit * t.z + c.level, t.val⟩

/-- A cell in the new frame. -/
def Change.cell (c : Change) (g : Cell) : Cell := ⟨(c.move (g.x, g.y)).1, (c.move (g.x, g.y)).2, c.unit * g.z + c.level⟩

theorem root_scale (s a : ℝ) (hs : 0 < s) : Real.sqrt (s ^ 2 * a) = s * Real.sqrt a := by
  rw [Real.sqrt_mul (sq_nonneg s), Real.sqrt_sq hs.le]

theorem dist_change (c : Change) (g : Cell) (t : Station) : dist (c.cell g) (c.sta t) = c.s * dist g t := by
  unfold Idw.dist Change.cell Change.sta
  simp only
  rw [c.similar, root_scale _ _ c.pos]

/-! ### Inverse distance weighting -/

/-- A weight times a positive number. -/
noncomputable def scale (k : ℝ) : Ext → Ext
  | .fin x => .fin (k * x)
  | y => y

theorem scale_add (k : ℝ) (a b : Ext) : (scale k a).add (scale k b) = scale k (a.add b) := by
  cases a <;> cases b <;> simp [scale, Ext.add, mul_add]

theorem scale_sum (k : ℝ) (l : List Ext) : Ext.sum (l.map (scale k)) = scale k (Ext.sum l) := by
  unfold Ext.sum
  induction l with
  | nil => simp [scale]
  | cons a l ih => rw [List.map_cons, List.foldr_cons, List.foldr_cons, ih, scale_add]

theorem scale_nansum (k : ℝ) (l : List Ext) : Ext.nansum (l.map (scale k)) = scale k (Ext.nansum l) := by
  unfold Ext.nansum
  rw [← scale_sum, List.map_map, List.map_map]
  congr 1
  apply List.map_congr_left
  intro a _
  cases a <;> simp [scale]

theorem signInf_scale {k : ℝ} (hk : 0 < k) (x : ℝ) : signInf (k * x) = signInf x := by
  unfold signInf
  rcases lt_trichotomy x 0 with h | h | h
  · have := mul_neg_of_pos_of_neg hk h
    rw [if_neg (not_lt.2 this.le), if_pos this, if_neg (not_lt.2 h.le), if_pos h]
  · rw [h, mul_zero]
  · rw [if_pos (mul_pos hk h), if_pos h]

theorem scale_mul {k : ℝ} (a : Ext) (v : ℝ) : (scale k a).mul (.fin v) = scale k (a.mul (.fin v)) := by
  have : ∀ x, scale k (signInf x) = signInf x := fun x => by
    unfold signInf
    split
    · rfl
    · split <;> rfl
  cases a with
  | fin x => simp only [scale, Ext.mul, mul_assoc]
  | pinf => exact (this v).symm
  | ninf => exact (this (-v)).symm
  | nan => rfl

theorem scale_div {k : ℝ} (hk : 0 < k) (a b : Ext) : (scale k a).div (scale k b) = a.div b := by
  cases a with
  | fin x =>
    cases b with
    | fin y =>
      simp only [scale, Ext.div]
      by_cases h : y = 0
      · rw [if_pos (by rw [h, mul_zero]), if_pos h, signInf_scale hk]
      · rw [if_neg (mul_ne_zero hk.ne' h), if_neg h, mul_div_mul_left _ _ hk.ne']
    | _ => rfl
  | pinf =>
    cases b with
    | fin y =>
      simp only [scale, Ext.div]
      by_cases h : y < 0
      · rw [if_pos (mul_neg_of_pos_of_neg hk h), if_pos h]
      · rw [if_neg (not_lt.2 (mul_nonneg hk.le (not_lt.1 h))), if_neg h]
    | _ => rfl
  | ninf =>
    cases b with
    | fin y =>
      simp only [scale, Ext.div]
      by_cases h : y < 0
      · rw [if_pos (mul_neg_of_pos_of_neg hk h), if_pos h]
      · rw [if_neg (not_lt.2 (mul_nonneg hk.le (not_lt.1 h))), if_neg h]
    | _ => rfl
  | nan => cases b <;> rfl

theorem cell_scale {k : ℝ} (hk : 0 < k) (l : List (Ext × ℝ)) : cellValue (l.map fun q => (scale k q.1, q.2)) = cellValue l := by
  unfold cellValue
  have h1 : ((l.map fun q => (scale k q.1, q.2)).map fun wv => wv.1.mul (.fin wv.2)) =
      (l.map fun wv => wv.1.mul (.fin wv.2)).map (scale k) := by
    rw [List.map_map, List.map_map]
    apply List.map_congr_left
    intro q _
    exact scale_mul q.1 q.2
  have h2 : (l.map fun q => (scale k q.1, q.2)).map Prod.fst = (l.map Prod.fst).map (scale k) := by
    rw [List.map_map, List.map_map]; rfl
  rw [h1, h2, scale_nansum, scale_sum, scale_div hk]

theorem weight_scale {s : ℝ} (hs : 0 < s) (p d : ℝ) (hd : 0 ≤ d) : weight p (s * d) = scale (1 / s ^ p) (weight p d) := by
  unfold weight
  by_cases h : d = 0
  · rw [if_pos (by rw [h, mul_zero]), if_pos h]
    rcases lt_trichotomy 0 p with hp | hp | hp
    · rw [if_pos hp]; rfl
    · rw [if_neg (not_lt.2 hp.symm.le), if_neg (not_lt.2 hp.le)]
      simp [scale, ← hp]
    · rw [if_neg (not_lt.2 hp.le), if_pos hp]
      simp [scale]
  · rw [if_neg (mul_ne_zero hs.ne' h), if_neg h, Real.mul_rpow hs.le hd]
    simp only [scale, Ext.fin.injEq]
    rw [one_div_mul_one_div]

theorem dist_nonneg' (g : Cell) (t : Station) : 0 ≤ dist g t := Real.sqrt_nonneg _

theorem minimum_scale {s : ℝ} (hs : 0 < s) (l : List ℝ) : minimum (l.map (s * ·)) = (minimum l).map (s * ·) := by
  cases h : minimum l with
  | none =>
    cases l with
    | nil => rfl
    | cons x xs => simp [minimum] at h
  | some m =>
    obtain ⟨h1, h2⟩ := (Order.minimum_spec l m).1 h
    rw [Option.map_some, Order.minimum_spec]
    refine ⟨List.mem_map.2 ⟨m, h1, rfl⟩, fun x hx => ?_⟩
    obtain ⟨y, hy, rfl⟩ := List.mem_map.1 hx
    exact mul_le_mul_of_nonneg_left (h2 y hy) hs.le

/-- Inverse distance weighting is the same in every frame: every exponent, every cell (also at a station), any gaps. -/
theorem C140_idw (c : Change) (p : ℝ) (grid : List Cell) (sta : List Station) :
    calculateIDW p (grid.map c.cell) (sta.map c.sta) = calculateIDW p grid sta := by
  unfold calculateIDW
  have ha : allDist (grid.map c.cell) (sta.map c.sta) = (allDist grid sta).map (c.s * ·) := by
    unfold allDist
    rw [List.flatMap_map, List.map_flatMap]
    congr 1
    funext g
    rw [List.map_map, List.map_map]
    apply List.map_congr_left
    intro t _
    exact dist_change c g t
  rw [ha, minimum_scale c.pos]
  cases hm : minimum (allDist grid sta) with
  | none => rfl
  | some m =>
    simp only [Option.map_some]
    congr 1
    rw [List.map_map]
    apply List.map_congr_left
    intro g _
    have hm0 : 0 ≤ m := by
      obtain ⟨h, -⟩ := (Order.minimum_spec _ _).1 hm
      unfold allDist at h
      rw [List.mem_flatMap] at h
      obtain ⟨g', -, h⟩ := h
      obtain ⟨t, -, rfl⟩ := List.mem_map.1 h
      exact dist_nonneg' _ _
    have hsel : selected p (c.s * m) (sta.map c.sta) (c.cell g) =
        (selected p m sta g).map fun q => (scale (1 / c.s ^ p) q.1, q.2) := by
      unfold Idw.selected
      rw [List.filterMap_map, List.map_filterMap]
      apply List.filterMap_congr
      intro t _
      have hw : weight p (distance (c.s * m) (c.cell g) (c.sta t)) = scale (1 / c.s ^ p) (weight p (distance m g t)) := by
        rw [← weight_scale c.pos]
        · congr 1
          unfold Idw.distance
          rw [dist_change]
          by_cases h : dist g t = 0
          · rw [if_pos (by rw [h, mul_zero]), if_pos h]
          · rw [if_neg (mul_ne_zero c.pos.ne' h), if_neg h]
        · unfold Idw.distance
          split
          · exact hm0
          · exact dist_nonneg' _ _
      simp only [Function.comp, Option.map_map]
      rw [hw]
      rfl
    simp only [Function.comp]
    rw [hsel, cell_scale (one_div_pos.2 (Real.rpow_pos_of_pos c.pos p))]

/-! ### The trend -/

/-- The same line in the new heights. -/
def SameLine (c : Change) (pv pv' : ℝ × ℝ) : Prop := pv'.1 * c.unit = pv.1 ∧ pv'.1 * c.level + pv'.2 = pv.2

theorem constrain_line (c : Change) (flag : Int) (pv pv' : ℝ × ℝ) (h : SameLine c pv pv') :
    SameLine c (constrain flag pv) (constrain flag pv') := by
  have e1 : pv'.1 < 0 ↔ pv.1 < 0 := by
    rw [← h.1]
    constructor
    · intro q; exact mul_neg_of_neg_of_pos q c.unitPos
    · intro q; by_contra hc; exact absurd q (not_lt.2 (mul_nonneg (not_lt.1 hc) c.unitPos.le))
  have e2 : 0 < pv'.1 ↔ 0 < pv.1 := by
    rw [← h.1]
    constructor
    · intro q; exact mul_pos q c.unitPos
    · intro q; by_contra hc; exact absurd q (not_lt.2 (mul_nonpos_of_nonpos_of_nonneg (not_lt.1 hc) c.unitPos.le))
  unfold constrain
  simp only [e1, e2]
  split
  · exact ⟨by simp, by simp⟩
  · split
    · exact ⟨by simp, by simp⟩
    · exact h

theorem points_change (c : Change) (sta : List Station) :
    points (sta.map c.sta) = (points sta).map fun q => (c.unit * q.1 + c.level, q.2) := by
  unfold points
  rw [List.filterMap_map, List.map_filterMap]
  apply List.filterMap_congr
  intro t _
  cases h : t.val <;> simp [Change.sta, h]

theorem fit_line (c : Change) (fit : List (ℝ × ℝ) → ℝ × ℝ) (hf : LeastSquares fit) (sta : List Station) (hs : Order.Slope sta) :
    SameLine c (fit (points sta)) (fit (points (sta.map c.sta))) := by
  have hsse : ∀ (pts : List (ℝ × ℝ)) (pv : ℝ × ℝ), sse (pts.map fun q => (c.unit * q.1 + c.level, q.2)) pv =
      sse pts (pv.1 * c.unit, pv.1 * c.level + pv.2) := by
    intro pts pv
    unfold sse
    rw [List.map_map]
    congr 1
    apply List.map_congr_left
    intro q _
    simp only [Function.comp]
    ring
  rw [points_change]
  obtain ⟨s, h1, t, h2, v1, v2, hz⟩ := hs
  obtain ⟨a, ha⟩ := Option.isSome_iff_exists.1 v1
  obtain ⟨b, hb⟩ := Option.isSome_iff_exists.1 v2
  generalize hpv : fit ((points sta).map fun q => (c.unit * q.1 + c.level, q.2)) = pv
  have := Order.least_unique (points sta) (pv.1 * c.unit, pv.1 * c.level + pv.2) (fit (points sta)) (fun w => ?_) (hf _)
    (s.z, a) (t.z, b) (List.mem_filterMap.2 ⟨s, h1, by rw [ha]; rfl⟩) (List.mem_filterMap.2 ⟨t, h2, by rw [hb]; rfl⟩) hz
  · exact ⟨congrArg Prod.fst this, congrArg Prod.snd this⟩
  · have h3 := hf ((points sta).map fun q => (c.unit * q.1 + c.level, q.2)) (w.1 / c.unit, w.2 - w.1 / c.unit * c.level)
    rw [hpv, hsse, hsse] at h3
    refine h3.trans (le_of_eq ?_)
    congr 1
    refine Prod.ext ?_ ?_
    · simp only; field_simp [c.unitPos.ne']
    · simp only; ring

theorem retrend_line (c : Change) {pv pv' : ℝ × ℝ} (h : SameLine c pv pv') (g : Cell) (v : Ext) :
    retrend pv' (c.cell g) v = retrend pv g v := by
  unfold retrend Change.cell
  simp only
  cases v with
  | fin x =>
    simp only [Ext.add, Ext.fin.injEq]
    linear_combination g.z * h.1 + h.2
  | _ => rfl

theorem detrended_line (c : Change) (fit : List (ℝ × ℝ) → ℝ × ℝ) (flag : Int) (p : ℝ) (grid : List Cell) (sta : List Station)
    (h : SameLine c (fit (points sta)) (fit (points (sta.map c.sta)))) :
    detrendedIDW fit flag p (grid.map c.cell) (sta.map c.sta) = detrendedIDW fit flag p grid sta := by
  have hl := constrain_line c flag _ _ h
  unfold detrendedIDW detrend
  simp only
  have hsta : ((sta.map c.sta).map fun s => { s with val := s.val.map (· - (s.z * (constrain flag (fit (points (sta.map c.sta)))).1 +
      (constrain flag (fit (points (sta.map c.sta)))).2)) }) =
      (sta.map fun s => { s with val := s.val.map (· - (s.z * (constrain flag (fit (points sta))).1 +
        (constrain flag (fit (points sta))).2)) }).map c.sta := by
    rw [List.map_map, List.map_map]
    apply List.map_congr_left
    intro t _
    simp only [Function.comp, Change.sta, Station.mk.injEq, true_and]
    cases t.val with
    | none => rfl
    | some v =>
      simp only [Option.map_some, Option.some.injEq]
      linear_combination -t.z * hl.1 - hl.2
  rw [hsta, C140_idw]
  cases calculateIDW p grid _ with
  | error e => rfl
  | ok img =>
    simp only
    congr 1
    rw [List.zipWith_map_left]
    congr 1
    funext g v
    exact retrend_line c hl g v

theorem flat_line (c : Change) (hc : c.flat) (fit : List (ℝ × ℝ) → ℝ × ℝ) (sta : List Station) :
    SameLine c (fit (points sta)) (fit (points (sta.map c.sta))) := by
  rw [points_change, hc.1, hc.2]
  have : ((points sta).map fun q => (1 * q.1 + 0, q.2)) = points sta := by simp
  rw [this]
  exact ⟨by rw [hc.1, mul_one], by rw [hc.2, mul_zero, zero_add]⟩

/-- With a trend: another map, any data, any fit. -/
theorem C140_detrended_map (c : Change) (hc : c.flat) (fit : List (ℝ × ℝ) → ℝ × ℝ) (flag : Int) (p : ℝ) (grid : List Cell)
    (sta : List Station) : detrendedIDW fit flag p (grid.map c.cell) (sta.map c.sta) = detrendedIDW fit flag p grid sta :=
  detrended_line c fit flag p grid sta (flat_line c hc fit sta)

/-- With a trend: also heights from another level and in another unit. Missing: data at one elevation only, where the line is
not determined. -/
theorem C140_detrended_partial (c : Change) (fit : List (ℝ × ℝ) → ℝ × ℝ) (hf : LeastSquares fit) (flag : Int) (p : ℝ)
    (grid : List Cell) (sta : List Station) (hs : Order.Slope sta) :
    detrendedIDW fit flag p (grid.map c.cell) (sta.map c.sta) = detrendedIDW fit flag p grid sta :=
  detrended_line c fit flag p grid sta (fit_line c fit hf sta hs)

/-! ### Kriging -/

theorem rescaled_of (c : Change) (sta : List Station) (g : Cell)
    (hz : ∀ t ∈ sta, 0 < c.unit * t.z + c.level ↔ 0 < t.z) :
    Rescaled sta.length c.s (adMatrix sta) (adMatrix (sta.map c.sta)) (gridDist sta g) (gridDist (sta.map c.sta) (c.cell g))
      (elevations sta) (elevations (sta.map c.sta)) := by
  refine ⟨c.pos, fun i hi j hj => ?_, fun i hi => ?_, fun i hi => ?_, fun i hi j hj => ?_⟩
  · rw [adMatrix_eq sta i j hi hj, adMatrix_eq (sta.map c.sta) i j (by simpa using hi) (by simpa using hj)]
    simp only [List.getElem_map, Change.sta]
    rw [c.similar, root_scale _ _ c.pos]
  · unfold gridDist
    rw [List.getElem?_map, List.getElem?_eq_getElem hi]
    exact dist_change c g _
  · unfold elevations
    rw [List.getElem?_map, List.getElem?_eq_getElem hi]
    exact hz _ (List.getElem_mem hi)
  · unfold elevations
    rw [List.getElem?_map, List.getElem?_map, List.getElem?_eq_getElem hi, List.getElem?_eq_getElem hj]
    simp only [Option.map_some, Change.sta]
    constructor
    · intro h
      exact le_of_mul_le_mul_left (by linarith) c.unitPos
    · intro h
      have := mul_le_mul_of_nonneg_left h c.unitPos.le
      linarith

theorem weights_change (c : Change) (mem mem' : Mem ℝ) (sta : List Station) (grid : List Cell)
    (hz : ∀ t ∈ sta, 0 < c.unit * t.z + c.level ↔ 0 < t.z) :
    weightsFor mem' (sta.map c.sta) (grid.map c.cell) = weightsFor mem sta grid := by
  unfold weightsFor
  rw [List.mapM_map]
  congr 1
  funext g
  have h := krige_scale mem mem' sta.length (rescaled_of c sta g hz) fun i _ => gridDist_nonneg sta g i
  simp only [Function.comp, List.length_map]
  generalize krige mem sta.length (adMatrix sta) (gridDist sta g) (elevations sta) = r at h ⊢
  generalize krige mem' sta.length (adMatrix (sta.map c.sta)) (gridDist (sta.map c.sta) (c.cell g)) (elevations (sta.map c.sta)) = r' at h ⊢
  cases r <;> cases r' <;> simp only [outcome, Agree] at h ⊢
  rename_i w w'
  congr 1
  apply List.map_congr_left
  intro i hi
  exact h i (List.mem_range.1 hi)

theorem withValue_change (c : Change) (sta : List Station) (data : List (Option ℝ)) :
    withValue (sta.map c.sta) data = (withValue sta data).map c.sta := by
  unfold withValue
  rw [List.zip_map_left, List.filter_map, List.map_map, List.map_map]
  rfl

theorem withData_change (c : Change) (sta : List Station) (data : List (Option ℝ)) :
    withData (sta.map c.sta) data = (withData sta data).map c.sta := by
  unfold withData
  rw [List.zipWith_map_left, List.map_zipWith]
  rfl

theorem kriged_line (c : Change) (fit : List (ℝ × ℝ) → ℝ × ℝ) (flag : Int) (sta : List Station) (ws : List ℝ) (g : Cell)
    (h : SameLine c (fit (points sta)) (fit (points (sta.map c.sta)))) :
    krigedCell fit flag (sta.map c.sta) ws (c.cell g) = krigedCell fit flag sta ws g := by
  have hl := constrain_line c flag _ _ h
  unfold krigedCell
  simp only
  generalize constrain flag (fit (points (sta.map c.sta))) = pv' at hl
  generalize constrain flag (fit (points sta)) = pv at hl
  have : ((points (sta.map c.sta)).map fun q => q.2 - (q.1 * pv'.1 + pv'.2)) = (points sta).map fun q => q.2 - (q.1 * pv.1 + pv.2) := by
    rw [points_change, List.map_map]
    apply List.map_congr_left
    intro q _
    simp only [Function.comp]
    linear_combination -q.1 * hl.1 - hl.2
  rw [this]
  simp only [Change.cell]
  linear_combination g.z * hl.1 + hl.2

theorem fresh_change (c : Change) (mem mem' : Mem ℝ) (fit : List (ℝ × ℝ) → ℝ × ℝ) (flag : Int) (sta : List Station) (grid : List Cell)
    (data : List (Option ℝ)) (hz : ∀ t ∈ sta, 0 < c.unit * t.z + c.level ↔ 0 < t.z)
    (h : SameLine c (fit (points (withData sta data))) (fit (points ((withData sta data).map c.sta)))) :
    freshImage mem' fit flag (sta.map c.sta) (grid.map c.cell) data = freshImage mem fit flag sta grid data := by
  unfold freshImage
  rw [withValue_change, weights_change c mem mem' _ _ fun t ht => hz t ?_, withData_change]
  · congr 1
    funext ws
    rw [List.zipWith_map_right]
    congr 1
    funext w g
    exact kriged_line c fit flag _ w g h
  · unfold withValue at ht
    obtain ⟨q, hq, rfl⟩ := List.mem_map.1 ht
    obtain ⟨a, b⟩ := q
    exact (List.of_mem_zip (List.mem_filter.1 hq).1).1

/-- A run of detrended kriging in another map: the same images, or the process ends in both frames; any stations (also at one
place or at one elevation), any fit, any gaps, whatever memory held. -/
theorem C140_kriging_map (c : Change) (hc : c.flat) (mem mem' : Mem ℝ) (fit : List (ℝ × ℝ) → ℝ × ℝ) (flag : Int)
    (sta : List Station) (grid : List Cell) (steps : List (List (Option ℝ))) (hne : ∀ d ∈ steps, d ≠ []) :
    runDK mem' fit flag (sta.map c.sta) (grid.map c.cell) Cache.new steps = runDK mem fit flag sta grid Cache.new steps := by
  rw [C55_cache _ _ _ _ _ _ hne, C55_cache _ _ _ _ _ _ hne]
  congr 1
  funext d
  exact fresh_change c mem mem' fit flag sta grid d (fun t _ => by rw [hc.1, hc.2, one_mul, add_zero]) (flat_line c hc fit _)

/-- A run of detrended kriging with heights from another level or in another unit. Missing: steps with data at one elevation
only; stations on the other side of the level zero (`C140_sea_fails`). -/
theorem C140_kriging_partial (c : Change) (mem mem' : Mem ℝ) (fit : List (ℝ × ℝ) → ℝ × ℝ) (hf : LeastSquares fit) (flag : Int)
    (sta : List Station) (grid : List Cell) (steps : List (List (Option ℝ)))
    (hz : ∀ t ∈ sta, 0 < c.unit * t.z + c.level ↔ 0 < t.z) (hs : ∀ d ∈ steps, Order.Slope (withData sta d)) :
    runDK mem' fit flag (sta.map c.sta) (grid.map c.cell) Cache.new steps = runDK mem fit flag sta grid Cache.new steps := by
  have hne : ∀ d ∈ steps, d ≠ [] := by
    intro d hd e
    obtain ⟨s, h1, -⟩ := hs d hd
    rw [e] at h1
    unfold withData at h1
    simp at h1
  rw [C55_cache _ _ _ _ _ _ hne, C55_cache _ _ _ _ _ _ hne]
  have : ∀ d ∈ steps, freshImage mem' fit flag (sta.map c.sta) (grid.map c.cell) d = freshImage mem fit flag sta grid d :=
    fun d hd => fresh_change c mem mem' fit flag sta grid d hz (fit_line c fit hf _ (hs d hd))
  clear hne hs
  induction steps with
  | nil => rfl
  | cons d ds ih =>
    rw [List.mapM_cons, List.mapM_cons, this d List.mem_cons_self, ih fun d hd => this d (List.mem_cons_of_mem _ hd)]

/-! ### Sea level -/

/-- The three stations of C56 and a cell; the third station at elevation `e`, the others at 1000. -/
def seaSta (e : ℝ) : List Station := [⟨0, 3, 1000, none⟩, ⟨0, -3, 1000, none⟩, ⟨-4, 0, e, none⟩]
def seaCell : Cell := ⟨4, 0, 500⟩

theorem sea_places (e : ℝ) : Order.Places (seaSta e) := by norm_num [Order.Places, seaSta]

/-- C140 fails: heights counted from a level 100 higher. The third station is then below zero and its negative weight is kept; in
the old heights it has none. -/
theorem C140_sea_fails (mem mem' : Mem ℝ) : ∃ w w',
    krige mem 3 (adMatrix (seaSta 50)) (gridDist (seaSta 50) seaCell) (elevations (seaSta 50)) = .weights w ∧
    krige mem' 3 (adMatrix ((seaSta 50).map fun t => { t with z := t.z - 100 }))
      (gridDist ((seaSta 50).map fun t => { t with z := t.z - 100 }) seaCell)
      (elevations ((seaSta 50).map fun t => { t with z := t.z - 100 })) = .weights w' ∧ 0 ≤ w 2 ∧ w' 2 = -1 / 7 := by
  obtain ⟨w, h, -, hw⟩ := C56_distinct_partial mem (seaSta 50) seaCell (by simp [seaSta]) fun i j hi hj =>
    Order.places_index (sea_places 50) i j hi hj
  have hp' : Order.Places ((seaSta 50).map fun t => { t with z := t.z - 100 }) := by norm_num [Order.Places, seaSta]
  obtain ⟨w', h', -⟩ := C56_distinct_partial mem' ((seaSta 50).map fun t => { t with z := t.z - 100 }) seaCell (by simp [seaSta])
    fun i j hi hj => Order.places_index hp' i j hi hj
  refine ⟨w, w', h, h', hw 2 (by norm_num [seaSta]) (by norm_num [seaSta]), ?_⟩
  generalize hsta : ((seaSta 50).map fun t => { t with z := t.z - 100 }) = sta at *
  have hlen : sta.length = 3 := by rw [← hsta]; rfl
  rw [hlen] at h'
  obtain ⟨flag, hf, hc⟩ := krige_chain mem' 3 (adMatrix sta) (gridDist sta seaCell) (elevations sta) fun i _ => gridDist_nonneg _ _ i
  rw [h'] at hc
  have had : ∀ i < 3, ∀ j < 3, adMatrix sta i j = (triDist i j : ℝ) := by
    intro i hi j hj
    rw [adMatrix_eq sta i j (by omega) (by omega)]
    subst hsta
    interval_cases i <;> interval_cases j <;> apply Order.root <;> norm_num [seaSta, triDist]
  have hd : ∀ i < 3, gridDist sta seaCell i = (triGrid i : ℝ) := by
    intro i hi
    subst hsta
    interval_cases i <;> apply Order.root <;> norm_num [seaSta, seaCell, triGrid]
  have he : elevations sta 2 ≤ 0 := by subst hsta; norm_num [seaSta, elevations]
  have hsys : System 3 (adMatrix sta) (gridDist sta seaCell) flag (fun n => (triSol n : ℝ)) (16 / 7) := by
    refine ⟨fun m hm _ => ?_, ?_, fun k hk h0 => by rw [hf k hk] at h0; cases h0⟩
    · rw [hd m hm, Finset.sum_congr rfl fun k hk => by rw [had m hm k (Finset.mem_range.1 hk)]]
      interval_cases m <;> norm_num [Finset.sum_range_succ, triDist, triGrid, triSol]
    · norm_num [Finset.sum_range_succ, triSol]
  simp only [outcome] at hc
  cases hc with
  | done sys reg stop =>
    rw [system_unique 3 _ _ flag _ _ _ _ hsys sys reg 2 (by norm_num)]
    norm_num [triSol]
  | drop m sys reg hm hfm neg pos top first rest =>
    exfalso
    rw [system_unique 3 _ _ flag _ _ _ _ hsys sys reg m hm] at neg
    interval_cases m
    · norm_num [triSol] at neg
    · norm_num [triSol] at neg
    · exact absurd pos (not_lt.2 he)

/-- The full claim about the weights of kriging: stations at different places, any change of the frame. -/
def C140_full : Prop := ∀ (c : Change) (mem mem' : Mem ℝ) (sta : List Station) (g : Cell) (w w' : Nat → ℝ), Order.Places sta →
  krige mem sta.length (adMatrix sta) (gridDist sta g) (elevations sta) = .weights w →
  krige mem' sta.length (adMatrix (sta.map c.sta)) (gridDist (sta.map c.sta) (c.cell g)) (elevations (sta.map c.sta)) = .weights w' →
  ∀ i < sta.length, w' i = w i

/-- Heights counted from a level 100 higher. -/
def lower : Change := ⟨id, 1, one_pos, fun p q => by simp, 1, one_pos, -100⟩

theorem C140_fails : ¬ C140_full := by
  intro h
  let mem : Mem ℝ := ⟨fun _ _ _ => 0, fun _ => ⟨fun _ => 0, fun _ => 0, 0⟩, fun _ => false, fun _ => 0⟩
  obtain ⟨w, w', h1, h2, h3, h4⟩ := C140_sea_fails mem mem
  have e : ((seaSta 50).map fun t => { t with z := t.z - 100 }) = (seaSta 50).map lower.sta := by
    apply List.map_congr_left
    intro t _
    simp [Change.sta, lower, sub_eq_add_neg]
  have hg : ∀ i, gridDist ((seaSta 50).map lower.sta) (lower.cell seaCell) i = gridDist ((seaSta 50).map lower.sta) seaCell i := by
    intro i
    unfold gridDist
    cases ((seaSta 50).map lower.sta)[i]? <;> rfl
  rw [e] at h2
  have := h lower mem mem (seaSta 50) seaCell w w' (sea_places 50) h1 (by rw [funext hg]; exact h2) 2 (by norm_num [seaSta])
  rw [h4] at this
  linarith

/-! ### The data -/

/-- The data in another unit. -/
def unitOf (a b : ℝ) (d : List (Option ℝ)) : List (Option ℝ) := d.map fun v => v.map fun x => a * x + b

theorem points_unit (a b : ℝ) (sta : List Station) (d : List (Option ℝ)) :
    points (withData sta (unitOf a b d)) = (points (withData sta d)).map fun q => (q.1, a * q.2 + b) := by
  unfold points withData unitOf
  induction sta generalizing d with
  | nil => rfl
  | cons s sta ih =>
    cases d with
    | nil => rfl
    | cons v d =>
      cases v with
      | none => simpa using ih d
      | some x => simpa using ih d

theorem fit_unit (fit : List (ℝ × ℝ) → ℝ × ℝ) (hf : LeastSquares fit) (a b : ℝ) (ha : 0 < a) (pts : List (ℝ × ℝ))
    (q r : ℝ × ℝ) (hq : q ∈ pts) (hr : r ∈ pts) (hne : q.1 ≠ r.1) :
    fit (pts.map fun q => (q.1, a * q.2 + b)) = (a * (fit pts).1, a * (fit pts).2 + b) := by
  have hsse : ∀ (pts : List (ℝ × ℝ)) (u v : ℝ), sse (pts.map fun q => (q.1, a * q.2 + b)) (a * u, a * v + b) = a ^ 2 * sse pts (u, v) := by
    intro pts u v
    unfold sse
    rw [List.map_map, ← List.sum_map_mul_left]
    congr 1
    apply List.map_congr_left
    intro q _
    simp only [Function.comp]
    ring
  have key := Order.least_unique pts (((fit (pts.map fun q => (q.1, a * q.2 + b))).1 / a),
    ((fit (pts.map fun q => (q.1, a * q.2 + b))).2 - b) / a) (fit pts) (fun w => ?_) (hf _) q r hq hr hne
  · rw [← key]
    refine Prod.ext ?_ ?_
    · simp only; field_simp
    · simp only; field_simp; ring
  · have h1 := hf (pts.map fun q => (q.1, a * q.2 + b)) (a * w.1, a * w.2 + b)
    rw [hsse] at h1
    generalize hpv : fit (pts.map fun q => (q.1, a * q.2 + b)) = pv at h1 ⊢
    have h2 := hsse pts (pv.1 / a) ((pv.2 - b) / a)
    rw [show (a * (pv.1 / a), a * ((pv.2 - b) / a) + b) = pv from Prod.ext (by simp only; field_simp) (by simp only; field_simp; ring)] at h2
    rw [h2] at h1
    exact le_of_mul_le_mul_left h1 (by positivity)

theorem constrain_unit (flag : Int) (a b : ℝ) (ha : 0 < a) (pv : ℝ × ℝ) : ∃ u, constrain flag (a * pv.1, a * pv.2 + b) =
    (a * (constrain flag pv).1, a * (constrain flag pv).2 + u) := by
  unfold constrain
  have e1 : a * pv.1 < 0 ↔ pv.1 < 0 := by
    constructor
    · intro q; by_contra hc; exact absurd q (not_lt.2 (mul_nonneg ha.le (not_lt.1 hc)))
    · intro q; exact mul_neg_of_pos_of_neg ha q
  have e2 : 0 < a * pv.1 ↔ 0 < pv.1 := mul_pos_iff_of_pos_left ha
  simp only [e1, e2]
  split
  · exact ⟨0, by simp⟩
  · split
    · exact ⟨0, by simp⟩
    · exact ⟨b, rfl⟩

/-- One cell: weights that sum to one. -/
theorem kriged_unit (fit : List (ℝ × ℝ) → ℝ × ℝ) (hf : LeastSquares fit) (flag : Int) (a b : ℝ) (ha : 0 < a) (sta : List Station)
    (d : List (Option ℝ)) (hs : Order.Slope (withData sta d)) (ws : List ℝ) (hl : ws.length = (points (withData sta d)).length)
    (h1 : ws.sum = 1) (g : Cell) : krigedCell fit flag (withData sta (unitOf a b d)) ws g =
      a * krigedCell fit flag (withData sta d) ws g + b := by
  have hfit : fit (points (withData sta (unitOf a b d))) = (a * (fit (points (withData sta d))).1, a * (fit (points (withData sta d))).2 + b) := by
    obtain ⟨s, m1, t, m2, v1, v2, hz⟩ := hs
    obtain ⟨x, hx⟩ := Option.isSome_iff_exists.1 v1
    obtain ⟨y, hy⟩ := Option.isSome_iff_exists.1 v2
    rw [points_unit]
    exact fit_unit fit hf a b ha _ (s.z, x) (t.z, y) (List.mem_filterMap.2 ⟨s, m1, by rw [hx]; rfl⟩)
      (List.mem_filterMap.2 ⟨t, m2, by rw [hy]; rfl⟩) hz
  unfold krigedCell
  simp only
  rw [hfit, points_unit]
  obtain ⟨u, hu⟩ := constrain_unit flag a b ha (fit (points (withData sta d)))
  rw [hu]
  generalize constrain flag (fit (points (withData sta d))) = pv
  generalize points (withData sta d) = pts at hl
  have key : ∀ (pts : List (ℝ × ℝ)) (ws : List ℝ), ws.length = pts.length →
      (List.zipWith (· * ·) ws ((pts.map fun q => (q.1, a * q.2 + b)).map fun q => q.2 - (q.1 * (a * pv.1) + (a * pv.2 + u)))).sum =
      a * (List.zipWith (· * ·) ws (pts.map fun q => q.2 - (q.1 * pv.1 + pv.2))).sum + (b - u) * ws.sum := by
    intro pts
    induction pts with
    | nil => intro ws h; simp at h; simp [h]
    | cons q pts ih =>
      intro ws h
      cases ws with
      | nil => simp at h
      | cons w ws =>
        have := ih ws (by simpa using h)
        simp only [List.map_cons, List.zipWith_cons_cons, List.sum_cons] at this ⊢
        rw [this]
        ring
  rw [key pts ws hl, h1]
  ring

/-- A run of detrended kriging with the data in another unit (`a` times the old number plus `b`) gives the images in that unit.
Missing: steps with data at one elevation only. -/
theorem C140_data_partial (mem mem' : Mem ℝ) (fit : List (ℝ × ℝ) → ℝ × ℝ) (hf : LeastSquares fit) (flag : Int) (a b : ℝ) (ha : 0 < a)
    (sta : List Station) (grid : List Cell) (steps : List (List (Option ℝ))) (hs : ∀ d ∈ steps, Order.Slope (withData sta d)) :
    runDK mem' fit flag sta grid Cache.new (steps.map (unitOf a b)) =
      (runDK mem fit flag sta grid Cache.new steps).map fun imgs => imgs.map fun img => img.map fun x => a * x + b := by
  have hne : ∀ d ∈ steps, d ≠ [] := by
    intro d hd e
    obtain ⟨s, h1, -⟩ := hs d hd
    rw [e] at h1
    unfold withData at h1
    simp at h1
  have hne' : ∀ d ∈ steps.map (unitOf a b), d ≠ [] := by
    intro d hd
    obtain ⟨d, h, rfl⟩ := List.mem_map.1 hd
    simpa [unitOf] using hne d h
  rw [C55_cache _ _ _ _ _ _ hne, C55_cache _ _ _ _ _ _ hne']
  have one : ∀ d ∈ steps, freshImage mem' fit flag sta grid (unitOf a b d) =
      (freshImage mem fit flag sta grid d).map fun img => img.map fun x => a * x + b := by
    intro d hd
    have hv : withValue sta (unitOf a b d) = withValue sta d := by
      unfold withValue unitOf
      rw [List.zip_map_right, List.filter_map, List.map_map]
      congr 1
      apply List.filter_congr
      intro q _
      simp
    unfold freshImage
    rw [hv]
    have hsame : weightsFor mem' (withValue sta d) grid = weightsFor mem (withValue sta d) grid := by
      have := weights_change ⟨id, 1, one_pos, fun p q => by simp, 1, one_pos, 0⟩ mem mem' (withValue sta d) grid (by simp)
      have i1 : (Change.sta ⟨id, 1, one_pos, fun p q => by simp, 1, one_pos, 0⟩) = id := by funext t; simp [Change.sta]
      have i2 : (Change.cell ⟨id, 1, one_pos, fun p q => by simp, 1, one_pos, 0⟩) = id := by funext t; simp [Change.cell]
      rw [i1, i2, List.map_id, List.map_id] at this
      exact this
    rw [hsame, Option.map_map]
    cases hw : weightsFor mem (withValue sta d) grid with
    | none => rfl
    | some ws =>
      simp only [Option.map_some, Function.comp, Option.some.injEq]
      have hlen : (withValue sta d).length = (points (withData sta d)).length := by
        rw [Order.withValue_measured, Order.points_measured, List.length_map, List.length_map]
      unfold weightsFor at hw
      have key : ∀ (grid : List Cell) (ws : List (List ℝ)), (grid.mapM fun g =>
          match krige mem (withValue sta d).length (adMatrix (withValue sta d)) (gridDist (withValue sta d) g) (elevations (withValue sta d)) with
          | .weights w => some ((List.range (withValue sta d).length).map w)
          | _ => none) = some ws →
          List.zipWith (krigedCell fit flag (withData sta (unitOf a b d))) ws grid =
            (List.zipWith (krigedCell fit flag (withData sta d)) ws grid).map fun x => a * x + b := by
        intro grid
        induction grid with
        | nil => intro ws h; simp at h; simp [h]
        | cons g grid ih =>
          intro ws h
          rw [List.mapM_cons] at h
          cases hk : krige mem (withValue sta d).length (adMatrix (withValue sta d)) (gridDist (withValue sta d) g)
              (elevations (withValue sta d)) with
          | weights w =>
            rw [hk] at h
            simp only [Option.bind_eq_bind, Option.bind_some] at h
            obtain ⟨ws', hws, h⟩ := Option.bind_eq_some_iff.1 h
            simp only [Option.pure_def, Option.some.injEq] at h
            subst h
            rw [List.zipWith_cons_cons, List.zipWith_cons_cons, List.map_cons, ih ws' hws]
            congr 1
            refine kriged_unit fit hf flag a b ha sta d (hs d hd) _ (by simp [hlen]) ?_ g
            have := C56_sum mem _ _ _ _ w (fun i _ => gridDist_nonneg _ g i) hk
            rw [← this]
            simp [Finset.sum, Finset.range, Multiset.range]
          | exit => rw [hk] at h; simp at h
          | stuck => rw [hk] at h; simp at h
      exact key grid ws hw
  clear hne hne' hs
  induction steps with
  | nil => rfl
  | cons d ds ih =>
    rw [List.map_cons, List.mapM_cons, List.mapM_cons, one d List.mem_cons_self, ih fun d hd => one d (List.mem_cons_of_mem _ hd)]
    cases freshImage mem fit flag sta grid d with
    | none => rfl
    | some img =>
      cases ds.mapM (freshImage mem fit flag sta grid) <;> rfl

/-! ### Cases -/

/-- Kilometres instead of metres, the axes exchanged, another origin; feet instead of metres. -/
noncomputable def survey : Change where
  move p := (p.2 / 1000 + 5, p.1 / 1000 - 7)
  s := 1 / 1000
  pos := by norm_num
  similar p q := by ring
  unit := 3281 / 1000
  unitPos := by norm_num
  level := 0

example (p : ℝ) (grid : List Cell) (sta : List Station) :
    calculateIDW p (grid.map survey.cell) (sta.map survey.sta) = calculateIDW p grid sta := C140_idw survey p grid sta

/-- Stations of any elevation: feet. -/
example (mem mem' : Mem ℝ) (flag : Int) (grid : List Cell) (a b c : ℝ) :
    runDK mem' closedForm flag ([Order.north, Order.east, Order.south].map survey.sta) (grid.map survey.cell) Cache.new [[some a, some b, some c]] =
    runDK mem closedForm flag [Order.north, Order.east, Order.south] grid Cache.new [[some a, some b, some c]] := by
  refine C140_kriging_partial survey mem mem' closedForm closedForm_least flag _ grid _ (fun t _ => ?_) fun d hd => ?_
  · show 0 < (3281 / 1000 : ℝ) * t.z + 0 ↔ 0 < t.z
    rw [add_zero]
    exact mul_pos_iff_of_pos_left (by norm_num)
  · simp only [List.mem_cons, List.not_mem_nil, or_false] at hd
    subst hd
    exact ⟨_, List.mem_cons_self, _, List.mem_cons_of_mem _ List.mem_cons_self, rfl, rfl, by norm_num [Order.north, Order.east]⟩

/-- Degrees Fahrenheit. -/
example (mem mem' : Mem ℝ) (flag : Int) (grid : List Cell) (a b c : ℝ) :
    runDK mem' closedForm flag [Order.north, Order.east, Order.south] grid Cache.new ([[some a, some b, some c]].map (unitOf (9 / 5) 32)) =
    (runDK mem closedForm flag [Order.north, Order.east, Order.south] grid Cache.new [[some a, some b, some c]]).map
      fun imgs => imgs.map fun img => img.map fun x => 9 / 5 * x + 32 := by
  refine C140_data_partial mem mem' closedForm closedForm_least flag _ _ (by norm_num) _ grid _ fun d hd => ?_
  simp only [List.mem_cons, List.not_mem_nil, or_false] at hd
  subst hd
  exact ⟨_, List.mem_cons_self, _, List.mem_cons_of_mem _ List.mem_cons_self, rfl, rfl, by norm_num [Order.north, Order.east]⟩

end Verif.Frame
