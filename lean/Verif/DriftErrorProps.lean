import Verif.PrecipProps

/-! C188: what errors in precipitation, wind, temperature and terrain do to the snow redistributed by
wind (`smrf/envphys/precip.py:99-211`). -/

namespace Verif.Precip

/-- The claim at full strength, for one configuration: the redistributed snow changes at most in
proportion to errors in temperature, wind and shelter. -/
def C188_full (cfg : WindCfg) : Prop :=
  ∀ W : ℝ, ∃ L : ℝ, ∀ (c : CellIn) (t t' w w' b b' : ℝ), 0 ≤ c.precip → 0 ≤ w → w ≤ W → 0 ≤ w' → w' ≤ W →
    |driftCell cfg [] (some b') { c with temp := some t', wind := w' } -
        driftCell cfg [] (some b) { c with temp := some t, wind := w }| ≤
      c.precip * (L * (|t' - t| + |w' - w| + |b' - b|))

/-- The redistributed snow is proportional to the precipitation. -/
theorem drift_linear (cfg : WindCfg) (vf : List (Nat × ℝ)) (tb : Option ℝ) (c : CellIn) (p : ℝ) :
    driftCell cfg vf tb { c with precip := p } = driftCell cfg vf tb { c with precip := 1 } * p := by
  unfold driftCell
  simp only
  split_ifs <;> ring

/-- An error in the precipitation grows at most by the largest factor of the configuration. -/
theorem C188_precip (cfg : WindCfg) (hc : GoodCfg cfg) (hs : 0 ≤ cfg.minScour) (hd : 0 ≤ cfg.minDrift)
    (vf : List (Nat × ℝ)) (tb : Option ℝ) (c : CellIn) (p p' : ℝ) :
    |driftCell cfg vf tb { c with precip := p' } - driftCell cfg vf tb { c with precip := p }| ≤
      max 1 (max cfg.maxDrift cfg.maxScour) * |p' - p| := by
  rw [drift_linear, drift_linear cfg vf tb c p, ← mul_sub, abs_mul]
  refine mul_le_mul_of_nonneg_right ?_ (abs_nonneg _)
  rw [abs_of_nonneg (C34_nonneg cfg hc hs hd vf tb _ zero_le_one)]
  have h1 := (clampTo_range cfg.minDrift cfg.maxDrift (driftFactor c.wind) hc.2).2
  have h2 := (clampTo_range cfg.minScour cfg.maxScour (vegetate vf c.veg (scourPoly c.maxus)) hc.1).2
  have m1 : cfg.maxDrift ≤ max 1 (max cfg.maxDrift cfg.maxScour) := le_max_of_le_right (le_max_left _ _)
  have m2 : cfg.maxScour ≤ max 1 (max cfg.maxDrift cfg.maxScour) := le_max_of_le_right (le_max_right _ _)
  have m0 : (1 : ℝ) ≤ max 1 (max cfg.maxDrift cfg.maxScour) := le_max_left _ _
  generalize max 1 (max cfg.maxDrift cfg.maxScour) = M at *
  unfold driftCell
  simp only [mul_one]
  generalize clampTo cfg.minDrift cfg.maxDrift (driftFactor c.wind) = x at *
  generalize clampTo cfg.minScour cfg.maxScour (vegetate vf c.veg (scourPoly c.maxus)) = y at *
  split_ifs <;> linarith

/-- Limits that are not negative keep a bound by a factor. -/
theorem clampTo_scale (lo hi x y k : ℝ) (h0 : 0 ≤ lo) (h : lo ≤ hi) (hk : 1 ≤ k) (hxy : y ≤ x * k) :
    clampTo lo hi y ≤ clampTo lo hi x * k := by
  have a : lo ≤ lo * k := le_mul_of_one_le_right h0 hk
  have b : hi ≤ hi * k := le_mul_of_one_le_right (h0.trans h) hk
  unfold clampTo
  simp only
  by_cases p : y ≤ lo <;> by_cases q : x ≤ lo <;> simp only [p, q, if_true, if_false]
  · split_ifs <;> linarith
  · have : lo * k ≤ x * k := mul_le_mul_of_nonneg_right (not_le.1 q).le (by linarith)
    split_ifs <;> linarith
  · have : x * k ≤ lo * k := mul_le_mul_of_nonneg_right q (by linarith)
    split_ifs <;> linarith
  · split_ifs <;> linarith

/-- Part: an error in the wind changes the redistributed snow by a factor that depends only on the error
and the largest wind. -/
theorem C188_wind_partial (cfg : WindCfg) (hc : GoodCfg cfg) (hs : 0 ≤ cfg.minScour) (hd : 0 ≤ cfg.minDrift)
    (vf : List (Nat × ℝ)) (tb : Option ℝ) (c : CellIn) (hp : 0 ≤ c.precip) (W w w' : ℝ) (h0 : 0 ≤ w) (h1 : w ≤ W)
    (h0' : 0 ≤ w') (h1' : w' ≤ W) :
    driftCell cfg vf tb { c with wind := w' } ≤
      driftCell cfg vf tb { c with wind := w } * Real.exp ((956 / 10000 + 578 / 10000 * W) * |w' - w|) := by
  have hW : 0 ≤ 956 / 10000 + 578 / 10000 * W := by linarith
  have one : 1 ≤ Real.exp ((956 / 10000 + 578 / 10000 * W) * |w' - w|) :=
    Real.one_le_exp (mul_nonneg hW (abs_nonneg _))
  have step : driftFactor w' ≤ driftFactor w * Real.exp ((956 / 10000 + 578 / 10000 * W) * |w' - w|) := by
    have r : driftFactor w' = driftFactor w * Real.exp ((w' - w) * (289 / 10000 * (w + w') - 956 / 10000)) := by
      unfold driftFactor
      rw [mul_assoc, ← Real.exp_add]
      ring_nf
    have hpos : 0 ≤ driftFactor w := by unfold driftFactor; positivity
    rw [r]
    refine mul_le_mul_of_nonneg_left (Real.exp_le_exp.2 ?_) hpos
    refine (le_abs_self _).trans ?_
    rw [abs_mul, mul_comm]
    refine mul_le_mul_of_nonneg_right ?_ (abs_nonneg _)
    rw [_root_.abs_le]
    constructor <;> linarith
  have n := clampTo_scale cfg.minDrift cfg.maxDrift _ _ _ hd hc.2 one step
  have n' := mul_le_mul_of_nonneg_right n hp
  have sc : 0 ≤ clampTo cfg.minScour cfg.maxScour (vegetate vf c.veg (scourPoly c.maxus)) * c.precip :=
    mul_nonneg (hs.trans (clampTo_range _ _ _ hc.1).1) hp
  generalize Real.exp ((956 / 10000 + 578 / 10000 * W) * |w' - w|) = k at *
  unfold driftCell
  simp only
  generalize clampTo cfg.minScour cfg.maxScour (vegetate vf c.veg (scourPoly c.maxus)) * c.precip = y at *
  generalize clampTo cfg.minDrift cfg.maxDrift (driftFactor w') = x' at *
  generalize clampTo cfg.minDrift cfg.maxDrift (driftFactor w) = x at *
  split_ifs <;> nlinarith

theorem clampTo_near (lo hi x y : ℝ) : |clampTo lo hi x - clampTo lo hi y| ≤ |x - y| := by
  have e1 (z : ℝ) : clampTo lo hi z = min hi (max lo z) := by
    unfold clampTo
    simp only
    have a : (if z ≤ lo then lo else z) = max lo z := by
      split
      · rename_i h; rw [max_eq_left h]
      · rename_i h; rw [max_eq_right (not_le.1 h).le]
    rw [a]
    split
    · rename_i h; rw [min_eq_left h]
    · rename_i h; rw [min_eq_right (not_le.1 h).le]
  rw [e1, e1]
  have h1 := abs_min_sub_min_le_max hi (max lo x) hi (max lo y)
  have h2 := abs_max_sub_max_le_max lo x lo y
  rw [sub_self, abs_zero, max_eq_right (abs_nonneg (max lo x - max lo y))] at h1
  rw [sub_self, abs_zero, max_eq_right (abs_nonneg (x - y))] at h2
  exact h1.trans h2

/-- What the vegetation of a class multiplies the scour by. -/
noncomputable def vegShare (vf : List (Nat × ℝ)) (veg : Nat) : ℝ := (vf.map fun v => if veg = v.1 then 1 / v.2 else 1).prod

theorem vegetate_eq (vf : List (Nat × ℝ)) (veg : Nat) (x : ℝ) :
    vegetate vf veg x = if veg = 3055 ∨ veg = 3053 ∨ veg = 42 then 1 else x * vegShare vf veg := by
  have e : ∀ (l : List (Nat × ℝ)) (x : ℝ),
      l.foldl (fun x v => if veg = v.1 then x * 1 / v.2 else x) x = x * vegShare l veg := by
    intro l
    induction l with
    | nil => intro x; simp [vegShare]
    | cons v l ih =>
      intro x
      rw [List.foldl_cons, ih]
      unfold vegShare
      rw [List.map_cons, List.prod_cons]
      split <;> ring
  unfold vegetate
  simp only [e]

/-- An error in the slope changes the snow of a cell in proportion. -/
theorem C188_slope (cfg : WindCfg) (vf : List (Nat × ℝ)) (tb : Option ℝ) (c : CellIn) (hp : 0 ≤ c.precip)
    (m m' : ℝ) (h : |m| ≤ 32) (h' : |m'| ≤ 32) :
    |driftCell cfg vf tb { c with maxus := m' } - driftCell cfg vf tb { c with maxus := m }| ≤
      73 / 100 * |vegShare vf c.veg| * c.precip * |m' - m| := by
  rw [_root_.abs_le] at h h'
  have poly : |scourPoly m' - scourPoly m| ≤ 73 / 100 * |m' - m| := by
    have e : scourPoly m' - scourPoly m =
        (3265 / 100000 - 2549 / 1000000 * (m' + m) + 1737 / 10000000 * (m' ^ 2 + m' * m + m ^ 2)) * (m' - m) := by
      unfold scourPoly; ring
    rw [e, abs_mul]
    refine mul_le_mul_of_nonneg_right ?_ (abs_nonneg _)
    have q1 : m ^ 2 ≤ 1024 := by nlinarith
    have q2 : m' ^ 2 ≤ 1024 := by nlinarith
    rw [_root_.abs_le]
    constructor <;> nlinarith [sq_nonneg (m' + m), sq_nonneg (m' - m)]
  have veg : |vegetate vf c.veg (scourPoly m') - vegetate vf c.veg (scourPoly m)| ≤
      73 / 100 * |vegShare vf c.veg| * |m' - m| := by
    rw [vegetate_eq, vegetate_eq]
    split
    · rw [sub_self, abs_zero]; positivity
    · rw [← sub_mul, abs_mul]
      have := mul_le_mul_of_nonneg_right poly (abs_nonneg (vegShare vf c.veg))
      linarith
  have lim := (clampTo_near cfg.minScour cfg.maxScour _ _).trans veg
  have b0 : 0 ≤ 73 / 100 * |vegShare vf c.veg| * c.precip * |m' - m| := by positivity
  have sc : |clampTo cfg.minScour cfg.maxScour (vegetate vf c.veg (scourPoly m')) * c.precip -
      clampTo cfg.minScour cfg.maxScour (vegetate vf c.veg (scourPoly m)) * c.precip| ≤
      73 / 100 * |vegShare vf c.veg| * c.precip * |m' - m| := by
    rw [← sub_mul, abs_mul, abs_of_nonneg hp]
    have := mul_le_mul_of_nonneg_right lim hp
    linarith
  unfold driftCell
  simp only
  split_ifs <;> first | exact sc | (rw [sub_self, abs_zero]; exact b0)

theorem strong_wind (hi : ℝ) (h2 : hi ≤ 5) : clampTo 1 hi (driftFactor 10) = hi := by
  have : 5 ≤ driftFactor 10 := by
    unfold driftFactor
    have e : Real.exp (-(956 / 10000) * 10 + 289 / 10000 * 10 ^ 2) = Real.exp (967 / 1000) ^ 2 := by
      rw [← Real.exp_nat_mul]; norm_num
    have l := Real.quadratic_le_exp_of_nonneg (show (0 : ℝ) ≤ 967 / 1000 by norm_num)
    have l' : (2434 / 1000 : ℝ) ≤ Real.exp (967 / 1000) := by norm_num at l ⊢; linarith
    rw [e]
    nlinarith
  unfold clampTo
  simp only
  rw [if_neg (show ¬ driftFactor 10 ≤ 1 by linarith), if_pos (by linarith)]

/-- Just below half a degree the snow of a sheltered cell in strong wind jumps to the largest drift. -/
theorem C188_temperature_fails (th lo hi e p : ℝ) (he : 0 < e) (h2 : hi ≤ 5) :
    driftCell ⟨th, lo, 1, 1, hi⟩ [] (some (th + 1)) ⟨p, some (1 / 2), 0, 10, 0, 0⟩ = p ∧
      driftCell ⟨th, lo, 1, 1, hi⟩ [] (some (th + 1)) ⟨p, some (1 / 2 - e), 0, 10, 0, 0⟩ = hi * p := by
  constructor
  · exact C34_warm_unchanged _ _ _ _ (1 / 2) rfl le_rfl
  · unfold driftCell
    simp only [strong_wind hi h2]
    rw [if_neg (by simpa using he), if_neg (by simp), if_pos (by simp; linarith)]

/-- At the threshold of the shelter a cold cell changes from scour to drift in one step. -/
theorem C188_shelter_fails (th lo hi e p : ℝ) (he : 0 < e) (h0 : lo ≤ 1) (h2 : hi ≤ 5) (hp : 0 ≤ p) :
    driftCell ⟨th, lo, 1, 1, hi⟩ [] (some th) ⟨p, some (-3), 0, 10, 0, 0⟩ ≤ p ∧
      driftCell ⟨th, lo, 1, 1, hi⟩ [] (some (th + e)) ⟨p, some (-3), 0, 10, 0, 0⟩ = hi * p := by
  constructor
  · unfold driftCell
    simp only
    rw [if_neg (by norm_num), if_pos (by norm_num)]
    exact mul_le_of_le_one_left hp (clampTo_range _ _ _ h0).2
  · unfold driftCell
    simp only [strong_wind hi h2]
    rw [if_neg (by norm_num), if_neg (by simp [he]), if_pos (by norm_num [he])]

/-- With the default limits, whatever the threshold, the claim is false. -/
theorem C188_fails (th : ℝ) : ¬ C188_full ⟨th, 0.55, 1, 1, 3.5⟩ := by
  intro h
  obtain ⟨L, h⟩ := h 10
  have e0 : 0 < 1 / (1 + |L|) := by positivity
  obtain ⟨a, b⟩ := C188_temperature_fails th 0.55 3.5 _ 1 e0 (by norm_num)
  have k := h ⟨1, none, 0, 0, 0, 0⟩ (1 / 2) (1 / 2 - 1 / (1 + |L|)) 10 10 (th + 1) (th + 1) zero_le_one (by norm_num)
    (by norm_num) (by norm_num) (by norm_num)
  simp only at k
  rw [a, b, sub_self, sub_self, abs_zero, add_zero, add_zero, one_mul, sub_sub_cancel_left, abs_neg, abs_of_pos e0] at k
  have h4 : L * (1 / (1 + |L|)) ≤ 1 := by
    rw [mul_one_div, div_le_one (by positivity)]
    have := le_abs_self L
    linarith
  norm_num at k h4
  linarith

/-- A sheltered cold cell with 4 mm: an error of 0.5 m/s in winds up to 8 m/s. -/
example : driftCell ⟨7, 0.55, 1, 1, 3.5⟩ [] (some 9) ⟨4, some (-3), 90, 6.5, 2, 41⟩ ≤
    driftCell ⟨7, 0.55, 1, 1, 3.5⟩ [] (some 9) ⟨4, some (-3), 90, 6, 2, 41⟩ * Real.exp (279 / 1000) := by
  have := C188_wind_partial ⟨7, 0.55, 1, 1, 3.5⟩ ⟨by norm_num, by norm_num⟩ (by norm_num) (by norm_num) [] (some 9)
    ⟨4, some (-3), 90, 0, 2, 41⟩ (by norm_num) 8 6 6.5 (by norm_num) (by norm_num) (by norm_num) (by norm_num)
  have e : (956 / 10000 + 578 / 10000 * 8) * |(6.5 : ℝ) - 6| = 279 / 1000 := by
    rw [abs_of_pos (by norm_num)]; norm_num
  rw [e] at this
  exact this

/-- An exposed cell in sagebrush, whose factor is 2: slopes of 5 and 6 degrees. -/
example : |driftCell ⟨7, 0.55, 1, 1, 3.5⟩ [(41, 2)] (some 3) ⟨4, some (-3), 90, 6, 6, 41⟩ -
    driftCell ⟨7, 0.55, 1, 1, 3.5⟩ [(41, 2)] (some 3) ⟨4, some (-3), 90, 6, 5, 41⟩| ≤ 146 / 100 := by
  have := C188_slope ⟨7, 0.55, 1, 1, 3.5⟩ [(41, 2)] (some 3) ⟨4, some (-3), 90, 6, 5, 41⟩ (by norm_num) 5 6
    (by norm_num) (by norm_num)
  have e : vegShare [(41, 2)] 41 = 1 / 2 := by simp [vegShare]
  simp only [e] at this
  refine this.trans ?_
  norm_num

end Verif.Precip
