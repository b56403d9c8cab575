import Verif.PrecipProps

/-! C173: how the wind redistribution of snow responds to shelter (`smrf/envphys/precip.py:99-211`). -/

namespace Verif.Precip

/-- Every vegetation factor is positive. -/
def PositiveVeg (vf : List (Nat × ℝ)) : Prop := ∀ v ∈ vf, 0 < v.2

/-- The limits of exposed and sheltered cells do not overlap: at most `max_scour` where the snow is
blown off, at least `min_drift` where it is blown to. -/
def Apart (cfg : WindCfg) : Prop := cfg.maxScour ≤ cfg.minDrift

/-- The defaults of `smrf/framework/CoreConfig.ini:737-762`. -/
noncomputable def defaultCfg : WindCfg := ⟨7, 55 / 100, 1, 1, 35 / 10⟩

/-- Two cells that differ in their upwind slope only, the second more sheltered. -/
def MoreSheltered (c c' : CellIn) : Prop :=
  c'.precip = c.precip ∧ c'.temp = c.temp ∧ c'.dir = c.dir ∧ c'.wind = c.wind ∧ c'.veg = c.veg ∧
    c.maxus ≤ c'.maxus

theorem clampTo_mono (lo hi : ℝ) {x y : ℝ} (h : x ≤ y) : clampTo lo hi x ≤ clampTo lo hi y := by
  unfold clampTo
  simp only
  by_cases p : x ≤ lo <;> by_cases q : y ≤ lo <;> simp only [p, q, if_true, if_false] <;>
    split_ifs <;> linarith

/-- The cubic of the exposed cells grows with the upwind slope. -/
theorem scourPoly_mono {m m' : ℝ} (h : m ≤ m') : scourPoly m ≤ scourPoly m' := by
  have e : scourPoly m' - scourPoly m =
      (m' - m) * (3265 / 100000 - 2549 / 1000000 * (m + m') +
        1737 / 10000000 * (m ^ 2 + m * m' + m' ^ 2)) := by
    unfold scourPoly; ring
  have q : 0 ≤ 3265 / 100000 - 2549 / 1000000 * (m + m') +
      1737 / 10000000 * (m ^ 2 + m * m' + m' ^ 2) := by
    nlinarith [sq_nonneg (m - m'), sq_nonneg (m + m' - 9783 / 1000)]
  have := mul_nonneg (sub_nonneg.2 h) q
  linarith

theorem fold_mono (veg : Nat) (vf : List (Nat × ℝ)) (hv : PositiveVeg vf) {x y : ℝ} (h : x ≤ y) :
    vf.foldl (fun x v => if veg = v.1 then x * 1 / v.2 else x) x ≤
      vf.foldl (fun x v => if veg = v.1 then x * 1 / v.2 else x) y := by
  induction vf generalizing x y with
  | nil => exact h
  | cons v vf ih =>
    simp only [List.foldl_cons]
    refine ih (fun u hu => hv u (List.mem_cons_of_mem _ hu)) ?_
    by_cases hq : veg = v.1
    · simp only [hq, if_true]
      have := hv v (List.mem_cons_self ..)
      exact div_le_div_of_nonneg_right (by linarith) this.le
    · simpa only [hq, if_false] using h

theorem vegetate_mono (veg : Nat) (vf : List (Nat × ℝ)) (hv : PositiveVeg vf) {x y : ℝ}
    (h : x ≤ y) : vegetate vf veg x ≤ vegetate vf veg y := by
  unfold vegetate
  simp only
  split
  · exact le_refl _
  · exact fold_mono veg vf hv h

/-- A cold cell on either side of the threshold. -/
theorem driftCell_cold (cfg : WindCfg) (vf : List (Nat × ℝ)) (b : ℝ) (c : CellIn) (t : ℝ)
    (ht : c.temp = some t) (h : t < 1 / 2) :
    driftCell cfg vf (some b) c =
      (if cfg.threshold < b then clampTo cfg.minDrift cfg.maxDrift (driftFactor c.wind)
       else clampTo cfg.minScour cfg.maxScour (vegetate vf c.veg (scourPoly c.maxus))) * c.precip := by
  unfold driftCell
  simp only [ht]
  have hw : ¬ (1 / 2 : ℝ) ≤ t := not_le.2 h
  by_cases hb : cfg.threshold < b
  · have hb' : ¬ b ≤ cfg.threshold := not_le.2 hb
    simp only [h, hw, hb, hb', decide_true, decide_false, Bool.false_eq_true, false_and, true_and,
      if_true, if_false]
  · have hb' : b ≤ cfg.threshold := not_lt.1 hb
    simp only [h, hw, hb, hb', decide_true, decide_false, Bool.false_eq_true, false_and, true_and,
      if_true, if_false]

/-- One cell: a larger shelter index and a larger upwind slope never take snow away. -/
theorem C173_cell (cfg : WindCfg) (hc : GoodCfg cfg) (ha : Apart cfg) (vf : List (Nat × ℝ))
    (hv : PositiveVeg vf) (b b' : ℝ) (hb : b ≤ b') (c c' : CellIn) (hs : MoreSheltered c c')
    (hp : 0 ≤ c.precip) : driftCell cfg vf (some b) c ≤ driftCell cfg vf (some b') c' := by
  obtain ⟨e1, e2, -, e4, e5, hm⟩ := hs
  cases ht : c.temp with
  | none =>
    rw [(C34_nan_fails cfg vf (some b) c 0).1 ht, (C34_nan_fails cfg vf (some b') c' 0).1 (e2.trans ht)]
  | some t =>
    rcases le_or_gt (1 / 2) t with hw | hw
    · rw [C34_warm_unchanged cfg vf _ c t ht hw, C34_warm_unchanged cfg vf _ c' t (e2.trans ht) hw, e1]
    · rw [driftCell_cold cfg vf b c t ht hw, driftCell_cold cfg vf b' c' t (e2.trans ht) hw, e1, e4, e5]
      refine mul_le_mul_of_nonneg_right ?_ hp
      by_cases q : cfg.threshold < b
      · rw [if_pos q, if_pos (lt_of_lt_of_le q hb)]
      · rw [if_neg q]
        by_cases q' : cfg.threshold < b'
        · rw [if_pos q']
          exact le_trans (clampTo_range _ _ _ hc.1).2 (le_trans ha (clampTo_range _ _ _ hc.2).1)
        · rw [if_neg q']
          exact clampTo_mono _ _ (vegetate_mono _ vf hv (scourPoly_mono hm))

/-- C173 as stated: for every usable configuration, terrain with larger shelter indices and larger
upwind slopes gives no cell less precipitation. -/
def C173_full : Prop :=
  ∀ (cfg : WindCfg) (vf : List (Nat × ℝ)) (dirs : List ℝ) (tb tb' : Nat → Nat → ℝ)
    (cells cells' : List CellIn) (r r' : List ℝ), GoodCfg cfg → PositiveVeg vf →
    (∀ i j, tb i j ≤ tb' i j) → List.Forall₂ MoreSheltered cells cells' →
    (∀ c ∈ cells, 0 ≤ c.precip) →
    distPrecipWind cfg vf dirs (fun i j => some (tb i j)) cells = .ok r →
    distPrecipWind cfg vf dirs (fun i j => some (tb' i j)) cells' = .ok r' →
    List.Forall₂ (· ≤ ·) r r'

/-- What a successful call returns. -/
theorem drift_ok (cfg : WindCfg) (vf : List (Nat × ℝ)) (dirs : List ℝ) (tb : Nat → Nat → ℝ)
    (cells : List CellIn) (r : List ℝ)
    (h : distPrecipWind cfg vf dirs (fun i j => some (tb i j)) cells = .ok r) :
    (∀ c ∈ cells, c.dir ∈ dirs) ∧ r.length = cells.length ∧
    ∀ (j : Nat) (c : CellIn), cells[j]? = some c → ∃ i : Nat, dirIndex dirs c.dir = some i ∧
      r[j]? = some (driftCell cfg vf (some (tb i j)) c) := by
  have hd : ∀ c ∈ cells, c.dir ∈ dirs := by
    intro c hc
    by_contra hn
    rw [(C34_local cfg vf dirs _ cells).2 ⟨c, hc, hn⟩] at h
    cases h
  have h0 := h
  unfold distPrecipWind at h
  split at h
  · rename_i hall
    simp only [Except.ok.injEq] at h
    refine ⟨hd, by rw [← h]; simp, fun j c hj => ?_⟩
    have hs := List.all_eq_true.1 hall c (List.mem_of_getElem? hj)
    obtain ⟨i, hi⟩ := Option.isSome_iff_exists.1 hs
    refine ⟨i, hi, ?_⟩
    rw [← h, List.getElem?_mapIdx, hj]
    simp only [Option.map_some, hi, Option.bind_some]
  · cases h

/-- The whole image, when the limits are apart (the defaults are). Missing: configurations whose
`max_scour` exceeds `min_drift` (`C173_limits_fails`). -/
theorem C173_image_partial (cfg : WindCfg) (hc : GoodCfg cfg) (ha : Apart cfg)
    (vf : List (Nat × ℝ)) (hv : PositiveVeg vf) (dirs : List ℝ) (tb tb' : Nat → Nat → ℝ)
    (ht : ∀ i j, tb i j ≤ tb' i j) (cells cells' : List CellIn) (r r' : List ℝ)
    (hs : List.Forall₂ MoreSheltered cells cells') (hp : ∀ c ∈ cells, 0 ≤ c.precip)
    (h : distPrecipWind cfg vf dirs (fun i j => some (tb i j)) cells = .ok r)
    (h' : distPrecipWind cfg vf dirs (fun i j => some (tb' i j)) cells' = .ok r') :
    List.Forall₂ (· ≤ ·) r r' := by
  obtain ⟨-, hl, hg⟩ := drift_ok cfg vf dirs tb cells r h
  obtain ⟨-, hl', hg'⟩ := drift_ok cfg vf dirs tb' cells' r' h'
  have hlen := hs.length_eq
  rw [List.forall₂_iff_get]
  refine ⟨by rw [hl, hl', hlen], fun j hj hj' => ?_⟩
  have jc : j < cells.length := hl ▸ hj
  have jc' : j < cells'.length := hl' ▸ hj'
  have hsj := (List.forall₂_iff_get.1 hs).2 j jc jc'
  obtain ⟨i, hi, hr⟩ := hg j cells[j] (List.getElem?_eq_getElem jc)
  obtain ⟨i', hi', hr'⟩ := hg' j cells'[j] (List.getElem?_eq_getElem jc')
  simp only [List.get_eq_getElem] at hsj ⊢
  rw [hsj.2.2.1, hi] at hi'
  cases hi'
  rw [List.getElem?_eq_getElem hj, Option.some.injEq] at hr
  rw [List.getElem?_eq_getElem hj', Option.some.injEq] at hr'
  rw [hr, hr']
  exact C173_cell cfg hc ha vf hv _ _ (ht i j) _ _ hsj (hp _ (List.getElem_mem jc))

/-- With the default limits and no interference factor, every cold exposed cell whose upwind slope is
at most 15 degrees loses exactly 45 percent, however exposed it is; at 20 degrees it loses nothing. -/
theorem C173_floor (b t m : ℝ) (c : CellIn) (ht : c.temp = some t) (h : t < 1 / 2) (hb : b ≤ 7)
    (hv : c.veg ∉ [3055, 3053, 42]) (hm : c.maxus = m) :
    (m ≤ 15 → driftCell defaultCfg [] (some b) c = 55 / 100 * c.precip) ∧
    (20 ≤ m → driftCell defaultCfg [] (some b) c = c.precip) := by
  have hq : ¬ defaultCfg.threshold < b := by unfold defaultCfg; simp only; exact not_lt.2 hb
  have hv' : ¬ (c.veg = 3055 ∨ c.veg = 3053 ∨ c.veg = 42) := by simpa using hv
  have hve : vegetate [] c.veg (scourPoly c.maxus) = scourPoly m := by
    unfold vegetate
    simp only [List.foldl_nil, if_neg hv', hm]
  rw [driftCell_cold defaultCfg [] b c t ht h, if_neg hq, hve]
  constructor
  · intro h15
    have h1 := scourPoly_mono h15
    have h2 : scourPoly 15 ≤ 55 / 100 := by unfold scourPoly; norm_num
    have h3 : clampTo defaultCfg.minScour defaultCfg.maxScour (scourPoly m) = 55 / 100 := by
      unfold clampTo defaultCfg
      simp only
      have q : scourPoly m ≤ 55 / 100 := le_trans h1 h2
      rw [if_pos q, if_neg (by norm_num)]
    rw [h3]
  · intro h20
    have h1 := scourPoly_mono h20
    have h2 : 1 ≤ scourPoly 20 := by unfold scourPoly; norm_num
    have h3 : clampTo defaultCfg.minScour defaultCfg.maxScour (scourPoly m) = 1 := by
      unfold clampTo defaultCfg
      simp only
      have q : ¬ scourPoly m ≤ 55 / 100 := by intro q; linarith
      rw [if_neg q, if_pos (le_trans h2 h1)]
    rw [h3, one_mul]

/-- When `max_scour` exceeds `min_drift`, a cell that becomes sheltered can lose snow: exposed with a
slope whose factor reaches the maximum, then sheltered in a wind whose factor stays at the minimum. -/
theorem C173_limits_fails (cfg : WindCfg) (hc : GoodCfg cfg) (hov : cfg.minDrift < cfg.maxScour)
    (p w m t b b' : ℝ) (hp : 0 < p) (ht : t < 1 / 2) (hb : b ≤ cfg.threshold)
    (hb' : cfg.threshold < b') (hw : driftFactor w ≤ cfg.minDrift)
    (hm : cfg.maxScour ≤ scourPoly m) (d : ℝ) :
    driftCell cfg [] (some b') ⟨p, some t, d, w, m, 0⟩ <
      driftCell cfg [] (some b) ⟨p, some t, d, w, m, 0⟩ := by
  rw [driftCell_cold cfg [] b _ t rfl ht, driftCell_cold cfg [] b' _ t rfl ht, if_pos hb',
    if_neg (not_lt.2 hb)]
  have e : vegetate [] 0 (scourPoly m) = scourPoly m := by
    unfold vegetate
    simp
  simp only [e]
  have h1 : clampTo cfg.minDrift cfg.maxDrift (driftFactor w) = cfg.minDrift := by
    unfold clampTo
    simp only
    rw [if_pos hw]
    split
    · exact le_antisymm ‹_› hc.2
    · rfl
  have h2 : clampTo cfg.minScour cfg.maxScour (scourPoly m) = cfg.maxScour := by
    unfold clampTo
    simp only
    by_cases q : scourPoly m ≤ cfg.minScour
    · rw [if_pos q, if_pos (le_trans hm q)]
    · rw [if_neg q, if_pos hm]
  rw [h1, h2]
  exact mul_lt_mul_of_pos_right hov hp

/-- Limits that overlap: exposed cells may gain up to 20 percent. -/
noncomputable def overlapCfg : WindCfg := ⟨7, 55 / 100, 12 / 10, 101 / 100, 35 / 10⟩

theorem calm_drift : driftFactor 0 = 1000761 / 1000000 := by
  unfold driftFactor
  norm_num

theorem dirIndex_one : dirIndex [0] 0 = some 0 := by
  unfold dirIndex
  simp

theorem C173_fails : ¬ C173_full := by
  intro h
  have hok : ∀ b : ℝ, distPrecipWind overlapCfg [] [0] (fun _ _ => some b) [⟨10, some (-5), 0, 0, 30, 0⟩] =
      .ok [driftCell overlapCfg [] (some b) ⟨10, some (-5), 0, 0, 30, 0⟩] := by
    intro b
    unfold distPrecipWind
    simp [dirIndex_one]
  have h1 := h overlapCfg [] [0] (fun _ _ => 0) (fun _ _ => 8) [⟨10, some (-5), 0, 0, 30, 0⟩]
    [⟨10, some (-5), 0, 0, 30, 0⟩] _ _ (by constructor <;> (unfold overlapCfg; norm_num))
    (by intro v hv; cases hv) (by intro _ _; norm_num)
    (List.Forall₂.cons ⟨rfl, rfl, rfl, rfl, rfl, le_refl _⟩ List.Forall₂.nil)
    (by intro c hc; rw [List.mem_singleton.1 hc]; norm_num) (hok 0) (hok 8)
  have h2 := C173_limits_fails overlapCfg (by constructor <;> (unfold overlapCfg; norm_num))
    (by unfold overlapCfg; norm_num) 10 0 30 (-5) 0 8 (by norm_num) (by norm_num)
    (by unfold overlapCfg; norm_num) (by unfold overlapCfg; norm_num)
    (by rw [calm_drift]; unfold overlapCfg; norm_num)
    (by unfold overlapCfg scourPoly; norm_num) 0
  cases h1 with
  | cons h3 _ => exact absurd h3 (not_le.2 h2)

/-- The defaults meet the hypotheses of `C173_image_partial`; from an exposed gentle slope to a
sheltered cell in a wind of 4 m/s. -/
example : GoodCfg defaultCfg ∧ Apart defaultCfg ∧ PositiveVeg [(41, 1)] ∧
    driftCell defaultCfg [(41, 1)] (some 3) ⟨10, some (-5), 0, 4, 5, 41⟩ ≤
      driftCell defaultCfg [(41, 1)] (some 9) ⟨10, some (-5), 0, 4, 12, 41⟩ := by
  have h1 : GoodCfg defaultCfg := by constructor <;> (unfold defaultCfg; norm_num)
  have h2 : Apart defaultCfg := by unfold Apart defaultCfg; norm_num
  have h3 : PositiveVeg [(41, 1)] := by
    intro v hv
    rw [List.mem_singleton.1 hv]
    norm_num
  exact ⟨h1, h2, h3, C173_cell defaultCfg h1 h2 _ h3 3 9 (by norm_num) _ _
    ⟨rfl, rfl, rfl, rfl, rfl, by norm_num⟩ (by norm_num)⟩

/-- A cell with an upwind slope of 10 degrees meets the hypotheses of `C173_floor`. -/
example : driftCell defaultCfg [] (some 2) ⟨10, some (-5), 0, 4, 10, 41⟩ = 55 / 100 * 10 :=
  (C173_floor 2 (-5) 10 ⟨10, some (-5), 0, 4, 10, 41⟩ rfl (by norm_num) (by norm_num) (by decide)
    rfl).1 (by norm_num)

end Verif.Precip
