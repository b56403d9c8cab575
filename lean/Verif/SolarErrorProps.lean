import Verif.SolarResponseProps

/-!
How much an error in the cloud factor or in the albedo can change the net solar radiation of a cell (C182). No new model: the corrections and the net of
`Solar.day`.
-/

namespace Verif.Solar

/-- C182 in full: there is a factor such that an error in the cloud factor changes the net radiation by at most the factor times the light times the error. -/
def C182_full : Prop :=
  ∃ L : ℝ, ∀ (r : Rad) (cf cf' illum : ℝ) (s : Surface), r.Sound → s.Sound → 0 ≤ cf → cf ≤ 1 → 0 ≤ cf' → cf' ≤ 1 → 0 < illum →
    |netOf (some 0) (some 800) r cf' illum s - netOf (some 0) (some 800) r cf illum s| ≤ L * (r.visBeam + r.irBeam) * |cf' - cf|

theorem clamp_near (lo hi : Option ℝ) (x y : ℝ) : |clamp lo hi x - clamp lo hi y| ≤ |x - y| := by
  have up : ∀ u a b : ℝ, |(if u ≤ a then u else a) - if u ≤ b then u else b| ≤ |a - b| := by
    intro u a b
    by_cases p : u ≤ a <;> by_cases q : u ≤ b <;> simp only [p, q, if_true, if_false]
    · rw [sub_self, abs_zero]; exact abs_nonneg _
    · rw [abs_of_nonneg (by linarith), abs_of_nonneg (by linarith)]; linarith
    · rw [abs_of_nonpos (by linarith), abs_of_nonpos (by linarith)]; linarith
    · exact le_rfl
  have dn : ∀ l a b : ℝ, |(if a ≤ l then l else a) - if b ≤ l then l else b| ≤ |a - b| := by
    intro u a b
    by_cases p : a ≤ u <;> by_cases q : b ≤ u <;> simp only [p, q, if_true, if_false]
    · rw [sub_self, abs_zero]; exact abs_nonneg _
    · rw [abs_of_nonpos (by linarith), abs_of_nonpos (by linarith)]; linarith
    · rw [abs_of_nonneg (by linarith), abs_of_nonneg (by linarith)]; linarith
    · exact le_rfl
  unfold clamp
  rcases lo with _ | l <;> rcases hi with _ | u <;> simp only [Option.elim]
  · exact le_rfl
  · exact up _ _ _
  · exact dn _ _ _
  · exact (up _ _ _).trans (dn _ _ _)

/-- The limits do not increase an error. -/
theorem net_near (lo hi : Option ℝ) (r r' : Rad) (a a' b b' : ℝ) : |calcNet lo hi r' a' b' - calcNet lo hi r a b| ≤
    |(r'.visBeam + r'.visDiffuse) * (1 - a') - (r.visBeam + r.visDiffuse) * (1 - a)| + |(r'.irBeam + r'.irDiffuse) * (1 - b') - (r.irBeam + r.irDiffuse) * (1 - b)| := by
  unfold calcNet
  simp only
  refine (clamp_near lo hi _ _).trans ?_
  have v := clamp_near lo hi ((r'.visBeam + r'.visDiffuse) * (1 - a')) ((r.visBeam + r.visDiffuse) * (1 - a))
  have i := clamp_near lo hi ((r'.irBeam + r'.irDiffuse) * (1 - b')) ((r.irBeam + r.irDiffuse) * (1 - b))
  rw [add_sub_add_comm]
  exact (abs_add_le _ _).trans (add_le_add v i)

/-- The diffuse share of cloudy light. -/
noncomputable def cloudyShare (c : ℝ) : ℝ := c * (1 - if c ≤ 15 / 100 then 0 else 138 / 100 * (c - 15 / 100) ^ 2)

theorem share_step (c c' : ℝ) (h0 : 0 ≤ c) (h : c ≤ c') (h1 : c' ≤ 99 / 100) : |cloudyShare c' - cloudyShare c| ≤ 227 / 100 * (c' - c) := by
  have poly : ∀ x, 15 / 100 ≤ x → x ≤ c' → |(c' - 138 / 100 * (c' * (c' - 15 / 100) ^ 2)) - (x - 138 / 100 * (x * (x - 15 / 100) ^ 2))| ≤ 227 / 100 * (c' - x) := by
    intro x hx hxc
    have e : (c' - 138 / 100 * (c' * (c' - 15 / 100) ^ 2)) - (x - 138 / 100 * (x * (x - 15 / 100) ^ 2)) =
        (c' - x) * (1 - 138 / 100 * (c' ^ 2 + c' * x + x ^ 2 - 30 / 100 * (c' + x) + (15 / 100) ^ 2)) := by ring
    rw [e, abs_mul, abs_of_nonneg (sub_nonneg.2 hxc), mul_comm]
    refine mul_le_mul_of_nonneg_right ?_ (by linarith)
    have q1 : c' ^ 2 + c' * x + x ^ 2 - 30 / 100 * (c' + x) + (15 / 100) ^ 2 ≤ 236880 / 100000 := by
      nlinarith [mul_nonneg (sub_nonneg.2 hx) (sub_nonneg.2 h1), mul_nonneg (sub_nonneg.2 hx) (sub_nonneg.2 hxc)]
    have q2 : 0 ≤ c' ^ 2 + c' * x + x ^ 2 - 30 / 100 * (c' + x) + (15 / 100) ^ 2 := by
      nlinarith [mul_nonneg (sub_nonneg.2 hx) (sub_nonneg.2 hxc), sq_nonneg (c' - 15 / 100), sq_nonneg (x - 15 / 100)]
    rw [_root_.abs_le]
    constructor <;> linarith
  unfold cloudyShare
  by_cases g' : c' ≤ 15 / 100
  · rw [if_pos g', if_pos (h.trans g'), abs_of_nonneg (by linarith)]; linarith
  · rw [if_neg g']
    by_cases g : c ≤ 15 / 100
    · rw [if_pos g]
      have := _root_.abs_le.1 (poly (15 / 100) le_rfl (not_le.1 g').le)
      rw [_root_.abs_le]
      constructor <;> nlinarith
    · rw [if_neg g]
      have := _root_.abs_le.1 (poly c (not_le.1 g).le h)
      rw [_root_.abs_le]
      constructor <;> nlinarith

/-- On the same side of 0.99 the diffuse light changes by at most 2.27 times the light times the error. -/
theorem diffuse_step (b d c c' : ℝ) (hd : 0 ≤ d) (hb : d ≤ b) (h0 : 0 ≤ c) (h0' : 0 ≤ c') (h : c ≤ 99 / 100 ↔ c' ≤ 99 / 100) :
    |(cfCloud b d c').2 - (cfCloud b d c).2| ≤ 227 / 100 * b * |c' - c| := by
  have hb0 := hd.trans hb
  by_cases g : c ≤ 99 / 100
  · have g' := h.1 g
    rw [cloudy_diffuse b d c g, cloudy_diffuse b d c' g', ← mul_sub, abs_mul, abs_of_nonneg hb0]
    have : |cloudyShare c' - cloudyShare c| ≤ 227 / 100 * |c' - c| := by
      rcases le_total c c' with hc | hc
      · rw [abs_of_nonneg (sub_nonneg.2 hc)]
        exact share_step c c' h0 hc g'
      · rw [abs_sub_comm, abs_sub_comm c', abs_of_nonneg (sub_nonneg.2 hc)]
        exact share_step c' c h0' hc g
    have := mul_le_mul_of_nonneg_left this hb0
    unfold cloudyShare at this
    linarith
  · have g' := fun x => g (h.2 x)
    have e : ∀ x, ¬ x ≤ 99 / 100 → (cfCloud b d x).2 = d * x := by
      intro x hx
      unfold cfCloud
      simp only [if_pos (not_le.1 hx)]
    rw [e c g, e c' g', ← mul_sub, abs_mul, abs_of_nonneg hd]
    exact mul_le_mul_of_nonneg_right (by linarith) (abs_nonneg _)

/-- An error in the cloud factor that does not cross 0.99 changes the net radiation by at most a factor times the light that the snow takes up times the error; the factor is
what passes the canopy of the beam, plus 2.27 times what passes of the diffuse light. Missing: errors across 0.99. -/
theorem C182_cloud_partial (lo hi : Option ℝ) (r : Rad) (hr : r.Sound) (cf cf' illum : ℝ) (s : Surface) (hs : s.Sound) (h0 : 0 ≤ cf) (h0' : 0 ≤ cf')
    (h : cf ≤ 99 / 100 ↔ cf' ≤ 99 / 100) :
    |netOf lo hi r cf' illum s - netOf lo hi r cf illum s| ≤
      (pass illum s + 227 / 100 * s.tau) * (r.visBeam * (1 - s.albV) + r.irBeam * (1 - s.albIr)) * |cf' - cf| ∧
    pass illum s + 227 / 100 * s.tau ≤ 327 / 100 := by
  have key : ∀ (b d a : ℝ), d ≤ b → 0 ≤ d → a ≤ 1 →
      |(b * cf' * pass illum s + s.tau * (cfCloud b d cf').2) * (1 - a) - (b * cf * pass illum s + s.tau * (cfCloud b d cf).2) * (1 - a)| ≤
        (pass illum s + 227 / 100 * s.tau) * (b * (1 - a)) * |cf' - cf| := by
    intro b d a hb hd ha
    have st := diffuse_step b d cf cf' hd hb h0 h0' h
    have e : (b * cf' * pass illum s + s.tau * (cfCloud b d cf').2) * (1 - a) - (b * cf * pass illum s + s.tau * (cfCloud b d cf).2) * (1 - a) =
        (b * pass illum s * (cf' - cf) + s.tau * ((cfCloud b d cf').2 - (cfCloud b d cf).2)) * (1 - a) := by ring
    rw [e, abs_mul, abs_of_nonneg (sub_nonneg.2 ha)]
    have p0 := mul_nonneg (hd.trans hb) (pass_pos illum s).le
    have t1 : |b * pass illum s * (cf' - cf) + s.tau * ((cfCloud b d cf').2 - (cfCloud b d cf).2)| ≤
        b * pass illum s * |cf' - cf| + s.tau * (227 / 100 * b * |cf' - cf|) := by
      refine (abs_add_le _ _).trans ?_
      rw [abs_mul (b * pass illum s), abs_mul s.tau, abs_of_nonneg p0, abs_of_nonneg hs.tau.1]
      exact add_le_add le_rfl (mul_le_mul_of_nonneg_left st hs.tau.1)
    have := mul_le_mul_of_nonneg_right t1 (sub_nonneg.2 ha)
    linarith
  constructor
  · unfold netOf
    rw [below_canopy, below_canopy]
    have v := key _ _ _ hr.visB hr.visD hs.albV.2
    have i := key _ _ _ hr.irB hr.irD hs.albIr.2
    refine (net_near lo hi _ _ _ _ _ _).trans ?_
    simp only
    linarith
  · have := pass_le_one illum s hs
    linarith [hs.tau.2]

/-- An error in the albedo changes the net radiation by at most twice the light times the error, under any cloud. -/
theorem C182_albedo (lo hi : Option ℝ) (r : Rad) (hr : r.Sound) (cf illum : ℝ) (s : Surface) (hs : s.Sound) (h0 : 0 ≤ cf) (h1 : cf ≤ 1) (a a' : ℝ) :
    |netOf lo hi r cf illum { s with albV := a, albIr := a' } - netOf lo hi r cf illum s| ≤ 2 * (r.visBeam * |a - s.albV| + r.irBeam * |a' - s.albIr|) := by
  have key : ∀ (b d x y : ℝ), d ≤ b → 0 ≤ d →
      |(b * cf * pass illum s + s.tau * (cfCloud b d cf).2) * (1 - x) - (b * cf * pass illum s + s.tau * (cfCloud b d cf).2) * (1 - y)| ≤ 2 * (b * |x - y|) := by
    intro b d x y hb hd
    have hb0 := hd.trans hb
    have q := diffuse_nonneg b d cf hb hd h0 h1
    have q2 : (cfCloud b d cf).2 ≤ b := by
      by_cases g : cf ≤ 99 / 100
      · rw [cloudy_diffuse b d cf g]
        have : cf * (1 - if cf ≤ 15 / 100 then 0 else 138 / 100 * (cf - 15 / 100) ^ 2) ≤ 1 := by
          have : 0 ≤ (if cf ≤ 15 / 100 then 0 else 138 / 100 * (cf - 15 / 100) ^ 2 : ℝ) := by split <;> positivity
          nlinarith
        nlinarith
      · unfold cfCloud
        simp only [if_pos (not_le.1 g)]
        nlinarith
    have p0 := (pass_pos illum s).le
    have p1 := pass_le_one illum s hs
    have e : (b * cf * pass illum s + s.tau * (cfCloud b d cf).2) * (1 - x) - (b * cf * pass illum s + s.tau * (cfCloud b d cf).2) * (1 - y) =
        (b * cf * pass illum s + s.tau * (cfCloud b d cf).2) * (y - x) := by ring
    have t0 : 0 ≤ b * cf * pass illum s + s.tau * (cfCloud b d cf).2 := add_nonneg (mul_nonneg (mul_nonneg hb0 h0) p0) (mul_nonneg hs.tau.1 q)
    have t1 : b * cf * pass illum s ≤ b := by
      have u1 : b * cf ≤ b := by nlinarith
      have u2 := mul_nonneg hb0 h0
      nlinarith
    have t2 : s.tau * (cfCloud b d cf).2 ≤ b := by nlinarith [hs.tau.2, hs.tau.1]
    rw [e, abs_mul, abs_of_nonneg t0, abs_sub_comm y x]
    have := mul_le_mul_of_nonneg_right (show b * cf * pass illum s + s.tau * (cfCloud b d cf).2 ≤ 2 * b by linarith) (abs_nonneg (x - y))
    linarith
  unfold netOf
  have v := key r.visBeam r.visDiffuse a s.albV hr.visB hr.visD
  have i := key r.irBeam r.irDiffuse a' s.albIr hr.irB hr.irD
  rw [below_canopy r cf illum s]
  refine (net_near lo hi _ _ _ _ _ _).trans ?_
  simp only
  linarith

/-- At the cloud factor 0.99 the diffuse light jumps from 2.6272 percent of the whole light, times the factor, to the diffuse light of the clear sky, times the factor. -/
theorem C182_step (b d t : ℝ) (ht : 0 < t) :
    (cfCloud b d (99 / 100)).2 = 26272 / 1000000 * (b * (99 / 100)) ∧ (cfCloud b d (99 / 100 + t)).2 = d * (99 / 100 + t) := by
  unfold cfCloud
  have h : 99 / 100 < 99 / 100 + t := by linarith
  constructor
  · norm_num
    ring
  · simp only [if_pos h]

theorem clamp_inside (x : ℝ) (h0 : 0 < x) (h1 : x < 800) : clamp (some 0) (some 800) x = x := by
  unfold clamp
  simp only [Option.elim, if_neg (not_le.2 h0), if_neg (not_le.2 h1)]

/-- In an open cell with limits 0 and 800, a tenth of the visible clear light being diffuse: for every factor there are cloud factors within any distance whose net
radiations differ by more than the factor times the distance. -/
theorem C182_jump_fails (L e : ℝ) (he : 0 < e) : ∃ cf', 99 / 100 < cf' ∧ cf' ≤ 1 ∧ cf' - 99 / 100 < e ∧
    L * (cf' - 99 / 100) < |netOf (some 0) (some 800) ⟨500, 50, 400, 40⟩ cf' 1 (openCell (1 / 2) (1 / 2)) -
      netOf (some 0) (some 800) ⟨500, 50, 400, 40⟩ (99 / 100) 1 (openCell (1 / 2) (1 / 2))| := by
  have hL : 0 < |L| + 1 := by positivity
  have hp : 0 < 32 / (|L| + 1) := by positivity
  obtain ⟨t, ht, t1, t2, t3⟩ : ∃ t : ℝ, 0 < t ∧ t ≤ 1 / 100 ∧ t < e ∧ t ≤ 32 / (|L| + 1) :=
    ⟨min (min (1 / 100) (e / 2)) (32 / (|L| + 1)), lt_min (lt_min (by norm_num) (by linarith)) hp, (min_le_left _ _).trans (min_le_left _ _),
      lt_of_le_of_lt ((min_le_left _ _).trans (min_le_right _ _)) (by linarith), min_le_right _ _⟩
  refine ⟨99 / 100 + t, by linarith, by linarith, by linarith, ?_⟩
  have hLt : L * t < 32 := by
    have a1 : L * t ≤ |L| * t := mul_le_mul_of_nonneg_right (le_abs_self L) ht.le
    have a2 : t * (|L| + 1) ≤ 32 := (le_div_iff₀ hL).1 t3
    linarith
  have v1 : netOf (some 0) (some 800) ⟨500, 50, 400, 40⟩ (99 / 100 + t) 1 (openCell (1 / 2) (1 / 2)) = 49005 / 100 + 495 * t := by
    unfold netOf calcNet
    rw [below_canopy, pass_open, (C182_step _ _ t ht).2, (C182_step _ _ t ht).2]
    simp only [openCell]
    rw [clamp_inside ((500 * (99 / 100 + t) * 1 + 1 * (50 * (99 / 100 + t))) * (1 - 1 / 2)) (by linarith) (by linarith), clamp_inside ((400 * (99 / 100 + t) * 1 + 1 * (40 * (99 / 100 + t))) * (1 - 1 / 2)) (by linarith) (by linarith), clamp_inside] <;> linarith
  have v2 : netOf (some 0) (some 800) ⟨500, 50, 400, 40⟩ (99 / 100) 1 (openCell (1 / 2) (1 / 2)) ≤ 4573 / 10 := by
    unfold netOf calcNet
    rw [below_canopy, pass_open, (C182_step _ _ t ht).1, (C182_step _ _ t ht).1]
    simp only [openCell]
    rw [clamp_inside ((500 * (99 / 100) * 1 + 1 * (26272 / 1000000 * (500 * (99 / 100)))) * (1 - 1 / 2)) (by norm_num) (by norm_num), clamp_inside ((400 * (99 / 100) * 1 + 1 * (26272 / 1000000 * (400 * (99 / 100)))) * (1 - 1 / 2)) (by norm_num) (by norm_num), clamp_inside] <;> norm_num
  refine lt_of_lt_of_le ?_ (le_abs_self _)
  rw [v1]
  linarith

theorem C182_fails : ¬ C182_full := by
  rintro ⟨L, hL⟩
  obtain ⟨cf', h1, h2, -, h4⟩ := C182_jump_fails (L * 900) 1 one_pos
  have := hL ⟨500, 50, 400, 40⟩ (99 / 100) cf' 1 (openCell (1 / 2) (1 / 2)) ⟨by norm_num, by norm_num, by norm_num, by norm_num⟩
    ⟨le_rfl, zero_le_one, ⟨zero_le_one, le_rfl⟩, ⟨by norm_num [openCell], by norm_num [openCell]⟩, ⟨by norm_num [openCell], by norm_num [openCell]⟩⟩
    (by norm_num) (by norm_num) (by linarith) h2 one_pos
  rw [abs_of_pos (sub_pos.2 h1)] at this
  norm_num at this h4
  linarith

/-! ### Examples -/

/-- A forest cell under clouds of 0.8 instead of 0.7, with the usual limits. -/
example : |netOf (some 0) (some 800) ⟨500, 40, 400, 20⟩ (8 / 10) (1 / 2) ⟨10, 1 / 2, 1 / 25, 8 / 10, 7 / 10⟩ -
    netOf (some 0) (some 800) ⟨500, 40, 400, 20⟩ (7 / 10) (1 / 2) ⟨10, 1 / 2, 1 / 25, 8 / 10, 7 / 10⟩| ≤ 327 / 100 * (500 * (1 - 8 / 10) + 400 * (1 - 7 / 10)) * (1 / 10) := by
  have hs : Surface.Sound ⟨10, 1 / 2, 1 / 25, 8 / 10, 7 / 10⟩ := by constructor <;> norm_num
  obtain ⟨h1, h2⟩ := C182_cloud_partial (some 0) (some 800) ⟨500, 40, 400, 20⟩ ⟨by norm_num, by norm_num, by norm_num, by norm_num⟩ (7 / 10) (8 / 10) (1 / 2)
    ⟨10, 1 / 2, 1 / 25, 8 / 10, 7 / 10⟩ hs (by norm_num) (by norm_num) (by norm_num)
  refine h1.trans ?_
  rw [show |(8 / 10 : ℝ) - 7 / 10| = 1 / 10 by norm_num [abs_of_pos]]
  refine mul_le_mul_of_nonneg_right (mul_le_mul_of_nonneg_right h2 ?_) ?_ <;> norm_num

/-- Albedos that are off by 0.05. -/
example : |netOf (some 0) (some 800) ⟨500, 40, 400, 20⟩ (8 / 10) (1 / 2) ⟨10, 1 / 2, 1 / 25, 85 / 100, 75 / 100⟩ -
    netOf (some 0) (some 800) ⟨500, 40, 400, 20⟩ (8 / 10) (1 / 2) ⟨10, 1 / 2, 1 / 25, 8 / 10, 7 / 10⟩| ≤
      2 * (500 * |85 / 100 - 8 / 10| + 400 * |75 / 100 - 7 / 10|) :=
  C182_albedo (some 0) (some 800) ⟨500, 40, 400, 20⟩ ⟨by norm_num, by norm_num, by norm_num, by norm_num⟩ (8 / 10) (1 / 2)
    ⟨10, 1 / 2, 1 / 25, 8 / 10, 7 / 10⟩ (by constructor <;> norm_num) (by norm_num) (by norm_num) _ _

end Verif.Solar
