import Verif.Precip
import Mathlib.Analysis.Complex.ExponentialBounds
import Mathlib.Tactic.Linarith
import Mathlib.Tactic.NormNum
import Mathlib.Tactic.Positivity
import Mathlib.Tactic.Ring

/-! C33 - C35: undercatch, redistribution by wind, the step of the precipitation class. -/

namespace Verif.Precip

/-! ### C33 -/

/-- The gauge types with a correction. -/
def KnownGauge (ty : String) : Prop := ty = "us_nws_8_shielded" ∨ ty = "us_nws_8_unshielded"

/-- A ratio exists exactly for the known gauge types; all others are rejected. -/
theorem C33_unknown_rejected (ws : Option ℝ) (ty : String) (sn : Bool) :
    (KnownGauge ty → ∃ cr, catchmentRatio ws ty sn = .ok cr) ∧
    (¬ KnownGauge ty → catchmentRatio ws ty sn = .error .valueError) := by
  unfold catchmentRatio KnownGauge
  constructor
  · rintro (rfl | rfl)
    · exact ⟨_, by rw [if_pos rfl]⟩
    · exact ⟨_, by rw [if_neg (by decide), if_pos rfl]⟩
  · intro h
    rw [not_or] at h
    rw [if_neg h.1, if_neg h.2]

theorem ratio_cases (w : ℝ) (ty : String) (sn : Bool) (cr : ℝ)
    (h : catchmentRatio (some w) ty sn = .ok cr) :
    (sn = true ∧ cr = Real.exp (461 / 100 - 4 / 100 * w ^ (175 / 100 : ℝ)) / 100 ∧
      ty = "us_nws_8_shielded") ∨
    (sn = false ∧ cr = (10104 / 100 - 562 / 100 * w) / 100 ∧ ty = "us_nws_8_shielded") ∨
    (sn = true ∧ cr = Real.exp (461 / 100 - 16 / 100 * w ^ (128 / 100 : ℝ)) / 100 ∧
      ty = "us_nws_8_unshielded") ∨
    (sn = false ∧ cr = (10077 / 100 - 834 / 100 * w) / 100 ∧ ty = "us_nws_8_unshielded") := by
  unfold catchmentRatio at h
  split at h
  · cases sn <;> simp at h
    · right; left; exact ⟨rfl, by linarith, ‹_›⟩
    · left; exact ⟨rfl, by linarith, ‹_›⟩
  · split at h
    · cases sn <;> simp at h
      · right; right; right; exact ⟨rfl, by linarith, ‹_›⟩
      · right; right; left; exact ⟨rfl, by linarith, ‹_›⟩
    · cases h

/-- `0 ≤ w ≤ 6` after capping. -/
theorem cap_range (w : ℝ) (h : 0 ≤ w) : ∃ v, capWind (some w) = some v ∧ 0 ≤ v ∧ v ≤ 6 ∧ v = min w 6 := by
  unfold capWind
  by_cases h6 : 6 < w
  · exact ⟨6, by simp [h6], by norm_num, le_refl _, by rw [min_eq_right h6.le]⟩
  · exact ⟨w, by simp [h6], h, not_lt.1 h6, by rw [min_eq_left (not_lt.1 h6)]⟩

/-- The catch ratio is positive for every wind speed. -/
theorem C33_ratio_positive (w : ℝ) (hw : 0 ≤ w) (ty : String) (sn : Bool) (cr : ℝ)
    (h : catchmentRatio (capWind (some w)) ty sn = .ok cr) : 0 < cr := by
  obtain ⟨v, hv, h0, h6, -⟩ := cap_range w hw
  rw [hv] at h
  rcases ratio_cases v ty sn cr h with ⟨-, rfl, -⟩ | ⟨-, rfl, -⟩ | ⟨-, rfl, -⟩ | ⟨-, rfl, -⟩
  · positivity
  · linarith
  · positivity
  · linarith

/-- More wind, less catch. -/
theorem C33_ratio_antitone (w w' : ℝ) (hw : 0 ≤ w) (hww : w ≤ w') (ty : String) (sn : Bool)
    (cr cr' : ℝ) (h : catchmentRatio (capWind (some w)) ty sn = .ok cr)
    (h' : catchmentRatio (capWind (some w')) ty sn = .ok cr') : cr' ≤ cr := by
  obtain ⟨v, hv, h0, h6, e⟩ := cap_range w hw
  obtain ⟨v', hv', h0', h6', e'⟩ := cap_range w' (le_trans hw hww)
  have hvv : v ≤ v' := by rw [e, e']; exact min_le_min_right _ hww
  rw [hv] at h
  rw [hv'] at h'
  rcases ratio_cases v ty sn cr h with ⟨hs, rfl, ht⟩ | ⟨hs, rfl, ht⟩ | ⟨hs, rfl, ht⟩ | ⟨hs, rfl, ht⟩ <;>
  rcases ratio_cases v' ty sn cr' h' with ⟨hs', rfl, ht'⟩ | ⟨hs', rfl, ht'⟩ | ⟨hs', rfl, ht'⟩ | ⟨hs', rfl, ht'⟩ <;>
  first
  | (rw [hs] at hs'; cases hs'; done)
  | (rw [ht] at ht'; exact absurd ht' (by decide))
  | skip
  · have := Real.rpow_le_rpow h0 hvv (show (0 : ℝ) ≤ 175 / 100 by norm_num)
    exact div_le_div_of_nonneg_right (Real.exp_le_exp.2 (by linarith)) (by norm_num)
  · linarith
  · have := Real.rpow_le_rpow h0 hvv (show (0 : ℝ) ≤ 128 / 100 by norm_num)
    exact div_le_div_of_nonneg_right (Real.exp_le_exp.2 (by linarith)) (by norm_num)
  · linarith

theorem exp_46 : Real.exp (46 / 10) ≤ 100 := by
  have h1 : Real.exp (46 / 10) ^ 5 = Real.exp 1 ^ 23 := by
    rw [← Real.exp_nat_mul, ← Real.exp_nat_mul]; norm_num
  have h2 : Real.exp 1 ^ 23 ≤ (2.7182818286 : ℝ) ^ 23 :=
    pow_le_pow_left₀ (Real.exp_pos 1).le Real.exp_one_lt_d9.le 23
  have h3 : (2.7182818286 : ℝ) ^ 23 ≤ 100 ^ 5 := by norm_num
  have h4 : Real.exp (46 / 10) ^ 5 ≤ 100 ^ 5 := by rw [h1]; exact le_trans h2 h3
  exact le_of_pow_le_pow_left₀ (by norm_num) (by norm_num) h4

/-- From half a metre per second on no gauge is taken to catch more than fell. -/
theorem ratio_le_one (w : ℝ) (hw : 1 / 2 ≤ w) (ty : String) (sn : Bool) (cr : ℝ)
    (h : catchmentRatio (capWind (some w)) ty sn = .ok cr) : cr ≤ 1 := by
  obtain ⟨v, hv, h0, h6, e⟩ := cap_range w (by linarith)
  have hv2 : 1 / 2 ≤ v := by rw [e]; exact le_min hw (by norm_num)
  rw [hv] at h
  have key : ∀ p : ℝ, 0 ≤ p → p ≤ 2 → 1 / 4 ≤ v ^ p := by
    intro p hp0 hp
    have h1 : ((1 : ℝ) / 2) ^ p ≤ v ^ p := Real.rpow_le_rpow (by norm_num) hv2 hp0
    have h2 : ((1 : ℝ) / 2) ^ (2 : ℝ) ≤ ((1 : ℝ) / 2) ^ p :=
      Real.rpow_le_rpow_of_exponent_ge (by norm_num) (by norm_num) hp
    have h3 : ((1 : ℝ) / 2) ^ (2 : ℝ) = 1 / 4 := by
      rw [show (2 : ℝ) = ((2 : ℕ) : ℝ) by norm_num, Real.rpow_natCast]; norm_num
    linarith
  rcases ratio_cases v ty sn cr h with ⟨-, rfl, -⟩ | ⟨-, rfl, -⟩ | ⟨-, rfl, -⟩ | ⟨-, rfl, -⟩
  · have h1 := key (175 / 100) (by norm_num) (by norm_num)
    have h2 : Real.exp (461 / 100 - 4 / 100 * v ^ (175 / 100 : ℝ)) ≤ Real.exp (46 / 10) :=
      Real.exp_le_exp.2 (by linarith)
    have := exp_46
    rw [div_le_one (by norm_num)]
    linarith
  · rw [div_le_one (by norm_num)]; linarith
  · have h1 := key (128 / 100) (by norm_num) (by norm_num)
    have h2 : Real.exp (461 / 100 - 16 / 100 * v ^ (128 / 100 : ℝ)) ≤ Real.exp (46 / 10) :=
      Real.exp_le_exp.2 (by linarith)
    have := exp_46
    rw [div_le_one (by norm_num)]
    linarith
  · rw [div_le_one (by norm_num)]; linarith

/-- C33 as stated, the part on the corrected value. -/
def C33_full : Prop :=
  ∀ (g : Gauges) (sta : String) (p q w t : ℝ), 0 ≤ p → g.wind sta = some (some w) → 0 ≤ w →
    g.temp sta = some (some t) → adjustStation g sta (some p) = .ok (some q) → p ≤ q

/-- The correction never reduces a reading when the wind is at least 0.5 m/s. Missing: weaker wind,
where the fitted curves exceed 100 percent (`C33_calm_fails`). -/
theorem C33_increase_partial (g : Gauges) (sta : String) (p q w : ℝ) (t : Option ℝ) (hp : 0 ≤ p)
    (hw : g.wind sta = some (some w)) (hw2 : 1 / 2 ≤ w) (ht : g.temp sta = some t)
    (h : adjustStation g sta (some p) = .ok (some q)) : p ≤ q := by
  unfold adjustStation at h
  rw [ht, hw] at h
  simp only at h
  split at h
  · cases h
  · split at h
    · cases h
    · rename_i ty _ cr hcr
      simp only [Option.map_some, Except.ok.injEq, Option.some.injEq] at h
      have h1 := C33_ratio_positive w (by linarith) _ _ _ hcr
      have h2 := ratio_le_one w hw2 _ _ _ hcr
      rw [← h, le_div_iff₀ h1]
      nlinarith

/-- In calm air a rain reading is reduced: ratio 1.0104 for the shielded gauge. -/
theorem C33_calm_fails (g : Gauges) (sta : String) (p t : ℝ) (hp : 0 < p)
    (hw : g.wind sta = some (some 0)) (ht : g.temp sta = some (some t)) (h0 : 0 ≤ t)
    (hg : g.gauge sta = some "us_nws_8_shielded") :
    ∃ q, adjustStation g sta (some p) = .ok (some q) ∧ q < p := by
  refine ⟨p / (10104 / 10000), ?_, ?_⟩
  · unfold adjustStation gaugeType
    rw [ht, hw, hg]
    have hs : isSnowing (some t) = false := by
      unfold isSnowing; simp; linarith
    simp only [hs]
    unfold capWind catchmentRatio
    norm_num
  · rw [div_lt_iff₀ (by norm_num)]
    linarith

def demoGauges : Gauges where
  wind s := if s = "A" then some (some 0) else if s = "B" then some (some 3) else none
  temp _ := some (some 1)
  gauge _ := some "us_nws_8_shielded"
  default := none

theorem C33_fails : ¬ C33_full := by
  intro h
  obtain ⟨q, hq, hlt⟩ := C33_calm_fails demoGauges "A" 10 1 (by norm_num) (by simp [demoGauges])
    (by simp [demoGauges]) (by norm_num) (by simp [demoGauges])
  have := h demoGauges "A" 10 q 0 1 (by norm_num) (by simp [demoGauges]) (by norm_num)
    (by simp [demoGauges]) hq
  linarith

/-- The documented catch in percent: snow below -0.5 C, otherwise rain; wind limited to 6 m/s. -/
noncomputable def documentedCatch (shielded : Bool) (t w : ℝ) : ℝ :=
  if t < -1 / 2 then
    (if shielded then Real.exp (461 / 100 - 4 / 100 * min w 6 ^ (175 / 100 : ℝ))
     else Real.exp (461 / 100 - 16 / 100 * min w 6 ^ (128 / 100 : ℝ)))
  else
    (if shielded then 10104 / 100 - 562 / 100 * min w 6 else 10077 / 100 - 834 / 100 * min w 6)

/-- A station with temperature and wind is divided by the documented catch of its own gauge, or of
the default gauge when it has none. -/
theorem C33_documented (g : Gauges) (sta : String) (p t w : ℝ) (sh : Bool) (hw0 : 0 ≤ w)
    (hw : g.wind sta = some (some w)) (ht : g.temp sta = some (some t))
    (hg : g.gauge sta = some (if sh then "us_nws_8_shielded" else "us_nws_8_unshielded") ∨
      (g.gauge sta = none ∧
        g.default = some (if sh then "us_nws_8_shielded" else "us_nws_8_unshielded"))) :
    adjustStation g sta (some p) = .ok (some (p / (documentedCatch sh t w / 100))) := by
  obtain ⟨v, hv, -, -, hvm⟩ := cap_range w hw0
  have hty : gaugeType g sta = .ok (if sh then "us_nws_8_shielded" else "us_nws_8_unshielded") := by
    unfold gaugeType
    rcases hg with h | ⟨h, h'⟩
    · rw [h]
    · rw [h, h']
  have hcr : catchmentRatio (some v) (if sh then "us_nws_8_shielded" else "us_nws_8_unshielded")
      (isSnowing (some t)) = .ok (documentedCatch sh t w / 100) := by
    unfold catchmentRatio documentedCatch isSnowing
    rw [← hvm]
    by_cases hc : t < -1 / 2
    · cases sh <;> simp [hc]
    · cases sh <;> simp [hc]
  unfold adjustStation
  rw [ht, hw]
  simp only [hty, hv, hcr, Option.map_some]

/-- Stations without a temperature or wind record are unchanged; so are stations whose wind is
NaN. -/
theorem C33_missing_unchanged (g : Gauges) (sta : String) (p : Option ℝ) :
    (g.temp sta = none ∨ g.wind sta = none → adjustStation g sta p = .ok p) ∧
    (∀ q, g.wind sta = some none → adjustStation g sta p = .ok q → q = p) := by
  constructor
  · rintro (h | h)
    · unfold adjustStation; rw [h]
    · unfold adjustStation
      cases g.temp sta with
      | none => rfl
      | some t => simp only [h]
  · intro q hw h
    unfold adjustStation at h
    cases ht : g.temp sta with
    | none => rw [ht] at h; simp at h; exact h.symm
    | some t =>
      rw [ht, hw] at h
      simp only at h
      split at h
      · cases h
      · split at h
        · cases h
        · rename_i ty _ cr hcr
          have : cr = 1 := by
            unfold catchmentRatio capWind at hcr
            split at hcr
            · simp at hcr; linarith
            · split at hcr
              · simp at hcr; linarith
              · cases hcr
          subst this
          cases p <;> simp at h
          · exact h.symm
          · exact h.symm

/-- The whole vector: same stations in the same order, each corrected on its own; the call fails
exactly when one station's correction does. -/
theorem C33_all_stations (g : Gauges) (ps : List (String × Option ℝ)) :
    (∀ r, adjustForUndercatch g ps = .ok r →
      List.Forall₂ (fun a b => b.1 = a.1 ∧ adjustStation g a.1 a.2 = .ok b.2) ps r) ∧
    ((∃ e, adjustForUndercatch g ps = .error e) ↔
      ∃ a ∈ ps, ∃ e, adjustStation g a.1 a.2 = .error e) := by
  induction ps with
  | nil =>
    constructor
    · intro r h; cases h; exact List.Forall₂.nil
    · simp [adjustForUndercatch]
  | cons a ps ih =>
    obtain ⟨sta, p⟩ := a
    obtain ⟨ih1, ih2⟩ := ih
    constructor
    · intro r h
      unfold adjustForUndercatch at h
      split at h
      · cases h
      · rename_i q hq
        split at h
        · cases h
        · rename_i r' hr'
          cases h
          exact List.Forall₂.cons ⟨rfl, hq⟩ (ih1 r' hr')
    · simp only [List.mem_cons, exists_eq_or_imp]
      rw [← ih2]
      rw [adjustForUndercatch.eq_def g ((sta, p) :: ps)]
      simp only
      cases h1 : adjustStation g sta p with
      | error e => simp
      | ok q =>
        cases h2 : adjustForUndercatch g ps with
        | error e => simp
        | ok r => simp

example : ∃ q, adjustStation demoGauges "B" (some 5) = .ok (some q) ∧ (5 : ℝ) ≤ q := by
  obtain ⟨cr, hcr⟩ := (C33_unknown_rejected (capWind (some 3)) "us_nws_8_shielded"
    (isSnowing (some 1))).1 (.inl rfl)
  have h : adjustStation demoGauges "B" (some 5) = .ok (some (5 / cr)) := by
    unfold adjustStation gaugeType
    have h1 : demoGauges.temp "B" = some (some 1) := rfl
    have h2 : demoGauges.wind "B" = some (some 3) := by simp [demoGauges]
    have h3 : demoGauges.gauge "B" = some "us_nws_8_shielded" := rfl
    rw [h1, h2, h3]
    simp only [hcr]
    rfl
  exact ⟨_, h, C33_increase_partial demoGauges "B" 5 _ 3 _ (by norm_num) (by simp [demoGauges])
    (by norm_num) rfl h⟩

/-! ### C34 -/

theorem clampTo_range (lo hi x : ℝ) (h : lo ≤ hi) : lo ≤ clampTo lo hi x ∧ clampTo lo hi x ≤ hi := by
  unfold clampTo
  simp only
  split <;> split <;> constructor <;> linarith

theorem clampTo_id (lo hi x : ℝ) (h1 : lo ≤ x) (h2 : x ≤ hi) : clampTo lo hi x = x := by
  unfold clampTo
  simp only
  split <;> split <;> linarith

/-- The configured bounds are usable. -/
def GoodCfg (cfg : WindCfg) : Prop := cfg.minScour ≤ cfg.maxScour ∧ cfg.minDrift ≤ cfg.maxDrift

/-- Cells at or above 0.5 C keep their precipitation. -/
theorem C34_warm_unchanged (cfg : WindCfg) (vf : List (Nat × ℝ)) (tb : Option ℝ) (c : CellIn) (t : ℝ)
    (ht : c.temp = some t) (h : 1 / 2 ≤ t) : driftCell cfg vf tb c = c.precip := by
  unfold driftCell
  simp [ht, h]
  intro h'; linarith

/-- A cold sheltered cell is scaled by a factor within the drift bounds. -/
theorem C34_drift_bounds (cfg : WindCfg) (hc : GoodCfg cfg) (vf : List (Nat × ℝ)) (b : ℝ) (c : CellIn)
    (t : ℝ) (ht : c.temp = some t) (h : t < 1 / 2) (hb : cfg.threshold < b) :
    ∃ f, cfg.minDrift ≤ f ∧ f ≤ cfg.maxDrift ∧ driftCell cfg vf (some b) c = f * c.precip ∧
      (cfg.minDrift ≤ driftFactor c.wind → driftFactor c.wind ≤ cfg.maxDrift →
        f = driftFactor c.wind) := by
  refine ⟨clampTo cfg.minDrift cfg.maxDrift (driftFactor c.wind), (clampTo_range _ _ _ hc.2).1,
    (clampTo_range _ _ _ hc.2).2, ?_, clampTo_id _ _ _⟩
  unfold driftCell
  simp only [ht]
  rw [if_neg (by simpa using h), if_neg (by simp [not_le.2 hb]), if_pos (by simp [hb]; linarith)]

/-- The drift factor: calm air leaves the snow almost as it is, two winds differ by the factor
`exp((w' - w)(0.0289 (w + w') - 0.0956))`, and above 1.654 m/s more wind means more drift in a cold sheltered cell. -/
theorem C34_drift_shape (cfg : WindCfg) (vf : List (Nat × ℝ)) (b : ℝ) (c : CellIn) (t : ℝ) (ht : c.temp = some t)
    (h : t < 1 / 2) (hb : cfg.threshold < b) (hp : 0 ≤ c.precip) :
    driftFactor 0 = 1000761 / 1000000 ∧
    (∀ w w', driftFactor w' = driftFactor w * Real.exp ((w' - w) * (289 / 10000 * (w + w') - 956 / 10000))) ∧
    ∀ w w', 956 / 578 ≤ w → w < w' → driftFactor w < driftFactor w' ∧
      driftCell cfg vf (some b) { c with wind := w } ≤ driftCell cfg vf (some b) { c with wind := w' } := by
  have ratio : ∀ w w', driftFactor w' = driftFactor w * Real.exp ((w' - w) * (289 / 10000 * (w + w') - 956 / 10000)) := by
    intro w w'
    unfold driftFactor
    rw [mul_assoc, ← Real.exp_add]
    ring_nf
  refine ⟨by unfold driftFactor; simp, ratio, fun w w' h0 hlt => ?_⟩
  have hpos : 0 < driftFactor w := by unfold driftFactor; positivity
  have hlt' : driftFactor w < driftFactor w' := by
    rw [ratio w w']
    refine lt_mul_of_one_lt_right hpos (Real.one_lt_exp_iff.2 (mul_pos (by linarith) (by linarith)))
  refine ⟨hlt', ?_⟩
  unfold driftCell
  simp only [ht]
  rw [if_neg (by simpa using h), if_neg (by simp [not_le.2 hb]), if_pos (by simp [hb]; linarith),
    if_neg (by simpa using h), if_neg (by simp [not_le.2 hb]), if_pos (by simp [hb]; linarith)]
  refine mul_le_mul_of_nonneg_right ?_ hp
  unfold clampTo
  simp only
  split_ifs <;> linarith

/-- A cold exposed cell is scaled by a factor within the scour bounds; in pine the factor is 1. -/
theorem C34_scour_bounds (cfg : WindCfg) (hc : GoodCfg cfg) (vf : List (Nat × ℝ)) (b : ℝ) (c : CellIn)
    (t : ℝ) (ht : c.temp = some t) (h : t < 1 / 2) (hb : b ≤ cfg.threshold) :
    ∃ f, cfg.minScour ≤ f ∧ f ≤ cfg.maxScour ∧ driftCell cfg vf (some b) c = f * c.precip ∧
      (c.veg ∈ [3055, 3053, 42] → cfg.minScour ≤ 1 → 1 ≤ cfg.maxScour → f = 1) := by
  refine ⟨clampTo cfg.minScour cfg.maxScour (vegetate vf c.veg (scourPoly c.maxus)),
    (clampTo_range _ _ _ hc.1).1, (clampTo_range _ _ _ hc.1).2, ?_, ?_⟩
  · unfold driftCell
    simp only [ht]
    rw [if_neg (by simpa using h), if_pos (by simp [hb]; linarith)]
  · intro hv h1 h2
    have : vegetate vf c.veg (scourPoly c.maxus) = 1 := by
      unfold vegetate
      simp only
      rw [if_pos (by simpa using hv)]
    rw [this]
    exact clampTo_id _ _ _ h1 h2

/-- No negative precipitation (bounds at least zero), whatever the inputs, NaN included. -/
theorem C34_nonneg (cfg : WindCfg) (hc : GoodCfg cfg) (hs : 0 ≤ cfg.minScour) (hd : 0 ≤ cfg.minDrift)
    (vf : List (Nat × ℝ)) (tb : Option ℝ) (c : CellIn) (hp : 0 ≤ c.precip) :
    0 ≤ driftCell cfg vf tb c := by
  unfold driftCell
  simp only
  have h1 := (clampTo_range cfg.minDrift cfg.maxDrift (driftFactor c.wind) hc.2).1
  have h2 := (clampTo_range cfg.minScour cfg.maxScour
    (vegetate vf c.veg (scourPoly c.maxus)) hc.1).1
  have h3 := mul_nonneg (le_trans hd h1) hp
  have h4 := mul_nonneg (le_trans hs h2) hp
  generalize clampTo cfg.minDrift cfg.maxDrift (driftFactor c.wind) * c.precip = x at *
  generalize clampTo cfg.minScour cfg.maxScour
    (vegetate vf c.veg (scourPoly c.maxus)) * c.precip = y at *
  cases c.temp <;> cases tb <;> simp only <;> (repeat' split) <;>
    first | exact hp | exact h3 | exact h4 | exact le_refl _

/-- Every cell with a defined temperature and tbreak is assigned: its value is the precipitation
times 1, a drift factor or a scour factor. -/
theorem C34_assigned (cfg : WindCfg) (hc : GoodCfg cfg) (vf : List (Nat × ℝ)) (b t : ℝ) (c : CellIn)
    (ht : c.temp = some t) :
    ∃ f, driftCell cfg vf (some b) c = f * c.precip ∧
      (f = 1 ∨ (cfg.minDrift ≤ f ∧ f ≤ cfg.maxDrift) ∨ (cfg.minScour ≤ f ∧ f ≤ cfg.maxScour)) := by
  rcases le_or_gt (1 / 2) t with h | h
  · exact ⟨1, by rw [C34_warm_unchanged cfg vf _ c t ht h, one_mul], .inl rfl⟩
  · rcases le_or_gt b cfg.threshold with hb | hb
    · obtain ⟨f, h1, h2, h3, -⟩ := C34_scour_bounds cfg hc vf b c t ht h hb
      exact ⟨f, h3, .inr (.inr ⟨h1, h2⟩)⟩
    · obtain ⟨f, h1, h2, h3, -⟩ := C34_drift_bounds cfg hc vf b c t ht h hb
      exact ⟨f, h3, .inr (.inl ⟨h1, h2⟩)⟩

/-- A cold cell whose tbreak is NaN, or a cell whose temperature is NaN, silently gets 0. -/
theorem C34_nan_fails (cfg : WindCfg) (vf : List (Nat × ℝ)) (tb : Option ℝ) (c : CellIn) (t : ℝ) :
    (c.temp = none → driftCell cfg vf tb c = 0) ∧
    (c.temp = some t → t < 1 / 2 → driftCell cfg vf none c = 0) := by
  constructor
  · intro h; unfold driftCell; simp [h]
  · intro h ht
    unfold driftCell
    simp only [h]
    rw [if_neg (by simpa using ht)]
    simp

/-- The grid: every cell is computed from that cell alone and the tbreak layer of its direction; the
call fails exactly when a direction is not in the tbreak file. -/
theorem C34_local (cfg : WindCfg) (vf : List (Nat × ℝ)) (dirs : List ℝ) (tb : Nat → Nat → Option ℝ)
    (cells : List CellIn) :
    ((∀ c ∈ cells, c.dir ∈ dirs) → ∃ r, distPrecipWind cfg vf dirs tb cells = .ok r ∧
      r.length = cells.length ∧ ∀ j c, cells[j]? = some c → ∃ i : Nat, dirs[i]? = some c.dir ∧
        r[j]? = some (driftCell cfg vf (tb i j) c)) ∧
    ((∃ c ∈ cells, c.dir ∉ dirs) → distPrecipWind cfg vf dirs tb cells = .error .indexError) := by
  have hidx : ∀ d, (dirIndex dirs d).isSome = true ↔ d ∈ dirs := by
    intro d
    unfold dirIndex
    rw [List.findIdx?_isSome]
    simp
  have hget : ∀ d i, dirIndex dirs d = some i → dirs[i]? = some d := by
    intro d i h
    unfold dirIndex at h
    rw [List.findIdx?_eq_some_iff_getElem] at h
    obtain ⟨hi, h1, -⟩ := h
    rw [List.getElem?_eq_getElem hi]
    simpa using h1
  constructor
  · intro h
    have hall : cells.all (fun c => (dirIndex dirs c.dir).isSome) = true := by
      rw [List.all_eq_true]; intro c hc; exact (hidx _).2 (h c hc)
    unfold distPrecipWind
    rw [if_pos hall]
    refine ⟨_, rfl, by simp, fun j c hj => ?_⟩
    have hc : c ∈ cells := List.mem_iff_getElem?.2 ⟨j, hj⟩
    obtain ⟨i, hi⟩ := Option.isSome_iff_exists.1 ((hidx c.dir).2 (h c hc))
    refine ⟨i, hget _ _ hi, ?_⟩
    rw [List.getElem?_mapIdx, hj]
    simp [hi]
  · rintro ⟨c, hc, hd⟩
    unfold distPrecipWind
    rw [if_neg]
    intro hall
    rw [List.all_eq_true] at hall
    exact hd ((hidx _).1 (hall c hc))

/-- The published cubic for exposed cells, with its constant term. -/
noncomputable def publishedScour (m : ℝ) : ℝ :=
  5929 / 10000 + 3265 / 100000 * m - 2549 / 1000000 * m ^ 2 + 1737 / 10000000 * m ^ 3

/-- C34 as stated, the part on the exposed-cell factor. -/
def C34_full : Prop :=
  ∀ (cfg : WindCfg) (b t : ℝ) (c : CellIn), GoodCfg cfg → c.temp = some t → t < 1 / 2 →
    b ≤ cfg.threshold → c.veg ∉ [3055, 3053, 42] →
    cfg.minScour ≤ publishedScour c.maxus → publishedScour c.maxus ≤ cfg.maxScour →
    driftCell cfg [] (some b) c = publishedScour c.maxus * c.precip

/-- The code's cubic is the published one lowered by a constant. -/
theorem C34_cubic_offset (m : ℝ) : publishedScour m - scourPoly m = 5927263 / 10000000 := by
  unfold publishedScour scourPoly; ring

/-- The exposed-cell factor is not the published cubic: `a` is used in place of `d`. -/
theorem C34_cubic_fails : ¬ C34_full := by
  intro h
  have h1 := h ⟨0, 0, 10, 1, 2⟩ 0 0 ⟨1, some 0, 0, 0, 0, 7⟩ (by constructor <;> norm_num) rfl
    (by norm_num) (le_refl _) (by decide) (by unfold publishedScour; norm_num)
    (by unfold publishedScour; norm_num)
  unfold driftCell vegetate at h1
  simp only [List.foldl_nil] at h1
  rw [if_neg (by norm_num), if_pos (by norm_num), if_neg (by decide),
    clampTo_id _ _ _ (by unfold scourPoly; norm_num) (by unfold scourPoly; norm_num)] at h1
  unfold scourPoly publishedScour at h1
  norm_num at h1

/-- A cold sheltered cell with default-like bounds. -/
example : ∃ f, (1 : ℝ) ≤ f ∧ f ≤ 3.5 ∧
    driftCell ⟨7, 0.55, 1, 1, 3.5⟩ [] (some 9) ⟨4, some (-3), 90, 5, 2, 41⟩ = f * 4 := by
  obtain ⟨f, h1, h2, h3, -⟩ := C34_drift_bounds ⟨7, 0.55, 1, 1, 3.5⟩ (by constructor <;> norm_num) [] 9
    ⟨4, some (-3), 90, 5, 2, 41⟩ (-3) rfl (by norm_num) (by norm_num)
  exact ⟨f, h1, h2, h3⟩

/-! ### C35 -/

section
variable {ι D : Type} [Fintype ι]

/-- C35 as stated: precipitation, percent snow and density after a step are determined by the step's
inputs, whatever was published before. -/
def C35_full : Prop :=
  ∀ (cfg : PCfg) (env : PEnv Unit ℝ) (inp : PIn Unit ℝ) (s s' : PState Unit),
    (pptStep cfg env inp s).precip = (pptStep cfg env inp s').precip ∧
    (pptStep cfg env inp s).perc = (pptStep cfg env inp s').perc ∧
    (pptStep cfg env inp s).den = (pptStep cfg env inp s').den

/-- The configurations in which a step does anything: gridded data, the marks2017 model, or the
undercatch correction switched on. -/
def Refreshing (cfg : PCfg) : Prop := cfg.grid = true ∨ cfg.marks = true ∨ cfg.undercatch = true

theorem susong_indep (cfg : PCfg) (env : PEnv ι D) (d : D) (temp : ι → ℝ) (s s' : PState ι) :
    (susongStep cfg env d temp s).precip = (susongStep cfg env d temp s').precip ∧
    (susongStep cfg env d temp s).perc = (susongStep cfg env d temp s').perc ∧
    (susongStep cfg env d temp s).den = (susongStep cfg env d temp s').den := by
  unfold susongStep
  split <;> exact ⟨rfl, rfl, rfl⟩

theorem marks_indep (cfg : PCfg) (env : PEnv ι D) (d : D) (st : Bool) (tot : Option (ι → ℝ))
    (temp : ι → ℝ) (s s' : PState ι) :
    (marksStep cfg env d st tot temp s).precip = (marksStep cfg env d st tot temp s').precip ∧
    (marksStep cfg env d st tot temp s).perc = (marksStep cfg env d st tot temp s').perc ∧
    (marksStep cfg env d st tot temp s).den = (marksStep cfg env d st tot temp s').den := by
  unfold marksStep
  split
  · exact ⟨rfl, rfl, rfl⟩
  · exact ⟨rfl, rfl, rfl⟩

/-- In the refreshing configurations the published images depend on the step's inputs only. -/
theorem C35_refreshed_partial (cfg : PCfg) (hc : Refreshing cfg) (env : PEnv ι D) (inp : PIn ι D)
    (s s' : PState ι) :
    (pptStep cfg env inp s).precip = (pptStep cfg env inp s').precip ∧
    (pptStep cfg env inp s).perc = (pptStep cfg env inp s').perc ∧
    (pptStep cfg env inp s).den = (pptStep cfg env inp s').den := by
  have key : ∀ f : PState ι → PState ι, ((f s).precip = (f s').precip ∧ (f s).perc = (f s').perc ∧
      (f s).den = (f s').den) → ∀ (P : Prop) [Decidable P],
      ((if P then { f s with precip := inp.redist (f s).precip } else f s).precip =
        (if P then { f s' with precip := inp.redist (f s').precip } else f s').precip) ∧
      ((if P then { f s with precip := inp.redist (f s).precip } else f s).perc =
        (if P then { f s' with precip := inp.redist (f s').precip } else f s').perc) ∧
      ((if P then { f s with precip := inp.redist (f s).precip } else f s).den =
        (if P then { f s' with precip := inp.redist (f s').precip } else f s').den) := by
    intro f hf P _
    obtain ⟨h1, h2, h3⟩ := hf
    split
    · exact ⟨by simp only [h1], h2, h3⟩
    · exact ⟨h1, h2, h3⟩
  unfold pptStep
  simp only
  cases hg : cfg.grid with
  | true =>
    simp only [Bool.true_eq_false, if_false]
    exact key _ (susong_indep cfg env inp.data inp.temp s s') _
  | false =>
    cases hm : cfg.marks with
    | true =>
      simp only [if_true]
      exact key _ (marks_indep cfg env _ _ _ _ s s') _
    | false =>
      have hu : cfg.undercatch = true := by
        rcases hc with h | h | h
        · rw [hg] at h; cases h
        · rw [hm] at h; cases h
        · exact h
      simp only [if_true, hu, Bool.false_eq_true, if_false]
      exact key _ (susong_indep cfg env _ inp.temp s s') _

/-- In the refreshing configurations, without redistribution by wind: a step without measured
precipitation publishes zeros and advances the clock by the time step. -/
theorem C35_dry_step_partial (cfg : PCfg) (hc : Refreshing cfg) (hw : cfg.winstral = false)
    (env : PEnv ι D) (inp : PIn ι D) (s : PState ι)
    (hd : ∀ d, env.sum d ≤ 0) (i : ι) :
    (pptStep cfg env inp s).precip i = 0 ∧ (pptStep cfg env inp s).perc i = 0 ∧
    (pptStep cfg env inp s).den i = 0 ∧
    (pptStep cfg env inp s).days i = s.days i + cfg.timeStep / 60 / 24 := by
  unfold pptStep
  simp only [hw, Bool.false_eq_true, false_and, if_false]
  cases hg : cfg.grid with
  | true =>
    simp only [Bool.true_eq_false, if_false]
    unfold susongStep
    rw [if_neg (not_lt.2 (hd _))]
    simp
  | false =>
    cases hm : cfg.marks with
    | true =>
      simp only [if_true]
      unfold marksStep
      rw [if_neg (not_lt.2 (hd _))]
      simp
    | false =>
      have hu : cfg.undercatch = true := by
        rcases hc with h | h | h
        · rw [hg] at h; cases h
        · rw [hm] at h; cases h
        · exact h
      simp only [if_true, hu, Bool.false_eq_true, if_false]
      unfold susongStep
      rw [if_neg (not_lt.2 (hd _))]
      simp

/-- The measurements a step is meant to use: gridded data as they come; the storm-corrected row for
marks2017; station readings adjusted when the correction is on. -/
def stepData (cfg : PCfg) (env : PEnv ι D) (inp : PIn ι D) : D :=
  match cfg.grid, cfg.marks, cfg.undercatch with
  | true, _, _ => inp.data
  | false, true, true => env.adjust inp.clipped
  | false, true, false => inp.clipped
  | false, false, true => env.adjust inp.data
  | false, false, false => inp.data

/-- In the refreshing configurations, without redistribution by wind: a step with measured
precipitation publishes the distributed measurements of that step, and phase and density computed
from them and from the step's temperature (for marks2017 zeros outside storms or when no cell is
below 2 C). -/
theorem C35_wet_step_partial (cfg : PCfg) (hc : Refreshing cfg) (hw : cfg.winstral = false)
    (env : PEnv ι D) (inp : PIn ι D) (s : PState ι) (hd : 0 < env.sum (stepData cfg env inp)) :
    (pptStep cfg env inp s).precip = env.dist (stepData cfg env inp) ∧
    ((cfg.grid = true ∨ cfg.marks = false ∨ (inp.storming = true ∧ ∃ i, inp.temp i < 2)) →
      (pptStep cfg env inp s).den = (env.phase inp.temp (env.dist (stepData cfg env inp))).1 ∧
      (pptStep cfg env inp s).perc = (env.phase inp.temp (env.dist (stepData cfg env inp))).2) ∧
    (cfg.grid = false → cfg.marks = true → ¬ (inp.storming = true ∧ ∃ i, inp.temp i < 2) →
      (pptStep cfg env inp s).den = (fun _ => 0) ∧ (pptStep cfg env inp s).perc = fun _ => 0) := by
  unfold pptStep
  simp only [hw, Bool.false_eq_true, false_and, if_false]
  cases hg : cfg.grid with
  | true =>
    have e : stepData cfg env inp = inp.data := by unfold stepData; rw [hg]
    rw [e] at hd ⊢
    simp only [Bool.true_eq_false, if_false]
    unfold susongStep
    rw [if_pos hd]
    simp
  | false =>
    cases hm : cfg.marks with
    | true =>
      have e : stepData cfg env inp =
          if cfg.undercatch = true then env.adjust inp.clipped else inp.clipped := by
        unfold stepData
        rw [hg, hm]
        cases cfg.undercatch <;> rfl
      rw [e] at hd ⊢
      simp only [if_true]
      generalize (if cfg.undercatch = true then env.adjust inp.clipped else inp.clipped) = d at hd ⊢
      unfold marksStep
      rw [if_pos hd]
      refine ⟨rfl, fun h => ?_, fun _ _ h => ?_⟩
      · have h' : inp.storming = true ∧ ∃ i, inp.temp i < 2 := by simpa using h
        simp only [if_pos h']
        exact ⟨trivial, trivial⟩
      · simp only [if_neg h]
        exact ⟨trivial, trivial⟩
    | false =>
      have hu : cfg.undercatch = true := by
        rcases hc with h | h | h
        · rw [hg] at h; cases h
        · rw [hm] at h; cases h
        · exact h
      have e : stepData cfg env inp = env.adjust inp.data := by
        unfold stepData; rw [hg, hm, hu]
      rw [e] at hd ⊢
      simp only [if_true, hu, Bool.false_eq_true, if_false]
      unfold susongStep
      rw [if_pos hd]
      simp

/-- In every other configuration no step ever changes anything (redistribution off): the published
images stay what they were initialised with, for every sequence of steps. -/
theorem C35_stale_fails (cfg : PCfg) (hg : cfg.grid = false) (hm : cfg.marks = false)
    (hu : cfg.undercatch = false) (hw : cfg.winstral = false) (env : PEnv ι D)
    (inps : List (PIn ι D)) (s : PState ι) :
    inps.foldl (fun s inp => pptStep cfg env inp s) s = s := by
  have h1 : ∀ inp s, pptStep cfg env inp s = s := by
    intro inp s
    unfold pptStep
    simp [hg, hm, hu, hw]
  induction inps with
  | nil => rfl
  | cons a l ih => rw [List.foldl_cons, h1, ih]

end

theorem C35_fails : ¬ C35_full := by
  intro h
  have h1 := (h ⟨false, false, false, false, 60, 1, 6⟩ ⟨id, fun d _ => d, fun _ p => (p, p), id⟩
    ⟨5, 5, false, none, fun _ => -1, fun _ => -1, id⟩
    ⟨fun _ => 0, fun _ => 0, fun _ => 0, fun _ => 0, fun _ => 0⟩
    ⟨fun _ => 1, fun _ => 0, fun _ => 0, fun _ => 0, fun _ => 0⟩).1
  have h2 := congrFun h1 ()
  unfold pptStep at h2
  simp at h2

example : Refreshing ⟨false, true, false, false, 60, 1, 6⟩ := .inr (.inl rfl)

end Verif.Precip
