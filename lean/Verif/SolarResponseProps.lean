import Verif.SolarProps

/-!
How the net solar radiation of a cell follows cloud, canopy and albedo (C170). No new model: the corrections and the net of `Solar.day`.
-/

namespace Verif.Solar

/-- The surface of a cell: its canopy and the albedo of its snow. -/
structure Surface where
  height : ℝ
  tau : ℝ
  k : ℝ
  albV : ℝ
  albIr : ℝ

/-- Heights and extinctions are not negative, the transmissivity and the albedos are fractions. -/
structure Surface.Sound (s : Surface) : Prop where
  height : 0 ≤ s.height
  k : 0 ≤ s.k
  tau : 0 ≤ s.tau ∧ s.tau ≤ 1
  albV : 0 ≤ s.albV ∧ s.albV ≤ 1
  albIr : 0 ≤ s.albIr ∧ s.albIr ≤ 1

/-- Beam (which holds the diffuse part, see C45) and diffuse radiation under a clear sky. -/
structure Rad.Sound (r : Rad) : Prop where
  visD : 0 ≤ r.visDiffuse
  visB : r.visDiffuse ≤ r.visBeam
  irD : 0 ≤ r.irDiffuse
  irB : r.irDiffuse ≤ r.irBeam

/-- The net radiation that a step with both corrections publishes for a cell. -/
noncomputable def netOf (lo hi : Option ℝ) (r : Rad) (cf illum : ℝ) (s : Surface) : ℝ :=
  calcNet lo hi (vegCorrect (cloudCorrect r cf) illum s.height s.tau s.k) s.albV s.albIr

/-- It is the one of the step. -/
theorem netOf_day {ι : Type} (cfg : Cfg) (veg : Veg ι) (st : Var → Attr ι) (clear : ι → Rad) (illum cf albV albIr : ι → ℝ)
    (hc : cfg.correctCloud = true) (hv : cfg.correctVeg = true) :
    day cfg veg st clear illum cf albV albIr .net = .array fun i => netOf cfg.lo cfg.hi (clear i) (cf i) (illum i)
      ⟨veg.height i, veg.tau i, veg.k i, albV i, albIr i⟩ := by
  simp [day, netOf, hc, hv]

/-- The share of the beam that passes the canopy. -/
noncomputable def pass (illum : ℝ) (s : Surface) : ℝ := Real.exp (-s.k * s.height / (if illum ≤ 0 then 1 / 100 else illum))

/-- The radiation below the canopy. -/
theorem below_canopy (r : Rad) (cf illum : ℝ) (s : Surface) :
    vegCorrect (cloudCorrect r cf) illum s.height s.tau s.k =
      ⟨r.visBeam * cf * pass illum s, s.tau * (cfCloud r.visBeam r.visDiffuse cf).2, r.irBeam * cf * pass illum s,
        s.tau * (cfCloud r.irBeam r.irDiffuse cf).2⟩ := by
  have h : ∀ x : ℝ, (if (if x ≤ 0 then (1 / 100 : ℝ) else x) ≤ 0 then (1 / 100 : ℝ) else if x ≤ 0 then 1 / 100 else x) = if x ≤ 0 then 1 / 100 else x := by
    intro x
    by_cases hx : x ≤ 0
    · simp only [if_pos hx]; norm_num
    · simp only [if_neg hx]
  unfold vegCorrect vegBeam cloudCorrect vegDiffuse pass
  simp only [h]
  rfl

theorem clamp_mono (lo hi : Option ℝ) {x y : ℝ} (h : x ≤ y) : clamp lo hi x ≤ clamp lo hi y := by
  have up : ∀ u a b : ℝ, a ≤ b → (if u ≤ a then u else a) ≤ if u ≤ b then u else b := by
    intro u a b hab
    by_cases p : u ≤ a <;> by_cases q : u ≤ b <;> simp only [p, q, if_true, if_false] <;> linarith
  have dn : ∀ l a b : ℝ, a ≤ b → (if a ≤ l then l else a) ≤ if b ≤ l then l else b := by
    intro u a b hab
    by_cases p : a ≤ u <;> by_cases q : b ≤ u <;> simp only [p, q, if_true, if_false] <;> linarith
  unfold clamp
  rcases lo with _ | l <;> rcases hi with _ | u <;> simp only [Option.elim]
  · exact h
  · first | exact up _ _ _ h | exact min_le_min h le_rfl | (show min _ _ ≤ min _ _; exact min_le_min le_rfl h)
  · first | exact dn _ _ _ h | exact max_le_max h le_rfl | (show max _ _ ≤ max _ _; exact max_le_max le_rfl h)
  · first | exact up _ _ _ (dn _ _ _ h) | exact min_le_min (max_le_max h le_rfl) le_rfl

/-- The net radiation follows the two sums. -/
theorem net_mono (lo hi : Option ℝ) (r r' : Rad) (a a' b b' : ℝ) (hV : (r.visBeam + r.visDiffuse) * (1 - a) ≤ (r'.visBeam + r'.visDiffuse) * (1 - a'))
    (hI : (r.irBeam + r.irDiffuse) * (1 - b) ≤ (r'.irBeam + r'.irDiffuse) * (1 - b')) : calcNet lo hi r a b ≤ calcNet lo hi r' a' b' :=
  clamp_mono lo hi (add_le_add (clamp_mono lo hi hV) (clamp_mono lo hi hI))

theorem pass_pos (illum : ℝ) (s : Surface) : 0 < pass illum s := Real.exp_pos _

theorem pass_anti (illum : ℝ) (s s' : Surface) (hs : s.Sound) (hh : s.height ≤ s'.height) (hk : s.k ≤ s'.k) : pass illum s' ≤ pass illum s := by
  unfold pass
  refine Real.exp_le_exp.2 (div_le_div_of_nonneg_right ?_ ?_)
  · have := mul_le_mul hk hh hs.height (hs.k.trans hk)
    linarith
  · split
    · norm_num
    · rename_i h; exact (not_le.1 h).le

theorem pass_le_one (illum : ℝ) (s : Surface) (hs : s.Sound) : pass illum s ≤ 1 := by
  have := pass_anti illum ⟨0, 0, 0, 0, 0⟩ s ⟨le_rfl, le_rfl, ⟨le_rfl, zero_le_one⟩, ⟨le_rfl, zero_le_one⟩, ⟨le_rfl, zero_le_one⟩⟩ hs.height hs.k
  refine this.trans ?_
  unfold pass
  simp

theorem diffuse_nonneg (b d cf : ℝ) (hb : d ≤ b) (hd : 0 ≤ d) (h0 : 0 ≤ cf) (h1 : cf ≤ 1) : 0 ≤ (cfCloud b d cf).2 :=
  (C47_diffuse b d cf (hd.trans hb) hd h0 h1).1

/-- Darker snow, less canopy: more net radiation, under any sky. -/
theorem C170_surface (lo hi : Option ℝ) (r : Rad) (hr : r.Sound) (cf illum : ℝ) (h0 : 0 ≤ cf) (h1 : cf ≤ 1) (s s' : Surface) (hs : s.Sound)
    (hs' : s'.Sound) (hh : s.height ≤ s'.height) (hk : s.k ≤ s'.k) (ht : s'.tau ≤ s.tau) (hv : s.albV ≤ s'.albV) (hi' : s.albIr ≤ s'.albIr) :
    netOf lo hi r cf illum s' ≤ netOf lo hi r cf illum s := by
  have key : ∀ (b d a a' : ℝ), d ≤ b → 0 ≤ d → a ≤ a' → a' ≤ 1 →
      (b * cf * pass illum s' + s'.tau * (cfCloud b d cf).2) * (1 - a') ≤ (b * cf * pass illum s + s.tau * (cfCloud b d cf).2) * (1 - a) := by
    intro b d a a' hb hd ha ha'
    have p := pass_anti illum s s' hs hh hk
    have q := diffuse_nonneg b d cf hb hd h0 h1
    have g : 0 ≤ b * cf := mul_nonneg (hd.trans hb) h0
    refine mul_le_mul (add_le_add (mul_le_mul_of_nonneg_left p g) (mul_le_mul_of_nonneg_right ht q)) (by linarith) (by linarith) ?_
    exact add_nonneg (mul_nonneg g (pass_pos _ _).le) (mul_nonneg hs.tau.1 q)
  unfold netOf
  rw [below_canopy, below_canopy]
  exact net_mono lo hi _ _ _ _ _ _ (key _ _ _ _ hr.visB hr.visD hv hs'.albV.2) (key _ _ _ _ hr.irB hr.irD hi' hs'.albIr.2)

/-- Claimed: under a thinner cloud the net radiation is not smaller. -/
def C170_full : Prop :=
  ∀ (r : Rad) (cf cf' illum : ℝ) (s : Surface), r.Sound → s.Sound → 0 ≤ cf → cf ≤ cf' → cf' ≤ 1 → 0 < illum →
    netOf none none r cf illum s ≤ netOf none none r cf' illum s

/-- The diffuse part of cloudy light. -/
theorem cloudy_diffuse (b d cf : ℝ) (h : cf ≤ 99 / 100) :
    (cfCloud b d cf).2 = b * (cf * (1 - if cf ≤ 15 / 100 then 0 else 138 / 100 * (cf - 15 / 100) ^ 2)) := by
  unfold cfCloud
  simp only [if_neg (not_lt.2 h)]
  split <;> ring

/-- Beam and diffuse part of cloudy light together, for canopies that pass the beam better than the diffuse light. -/
theorem cloudy_mono (E t c c' : ℝ) (ht : 0 ≤ t) (hE : t ≤ E) (h0 : 0 ≤ c) (h : c ≤ c') (h1 : c' ≤ 79 / 100) :
    E * c + t * (c * (1 - if c ≤ 15 / 100 then 0 else 138 / 100 * (c - 15 / 100) ^ 2)) ≤
      E * c' + t * (c' * (1 - if c' ≤ 15 / 100 then 0 else 138 / 100 * (c' - 15 / 100) ^ 2)) := by
  have key : c + c * (1 - if c ≤ 15 / 100 then 0 else 138 / 100 * (c - 15 / 100) ^ 2) ≤
      c' + c' * (1 - if c' ≤ 15 / 100 then 0 else 138 / 100 * (c' - 15 / 100) ^ 2) := by
    by_cases g' : c' ≤ 15 / 100
    · rw [if_pos g', if_pos (h.trans g')]; linarith
    · rw [if_neg g']
      have poly : ∀ x, 15 / 100 ≤ x → x ≤ c' → 2 * x - 138 / 100 * (x * (x - 15 / 100) ^ 2) ≤ 2 * c' - 138 / 100 * (c' * (c' - 15 / 100) ^ 2) := by
        intro x hx hxc
        -- the difference has the factor c' - x
        have e : 2 * c' - 138 / 100 * (c' * (c' - 15 / 100) ^ 2) - (2 * x - 138 / 100 * (x * (x - 15 / 100) ^ 2)) =
            (c' - x) * (2 - 138 / 100 * (c' ^ 2 + c' * x + x ^ 2 - 30 / 100 * (c' + x) + (15 / 100) ^ 2)) := by ring
        have q : c' ^ 2 + c' * x + x ^ 2 - 30 / 100 * (c' + x) + (15 / 100) ^ 2 ≤ 144 / 100 := by
          nlinarith [mul_nonneg (sub_nonneg.2 hx) (sub_nonneg.2 h1), mul_nonneg (sub_nonneg.2 hx) (sub_nonneg.2 hxc)]
        have : 0 ≤ (c' - x) * (2 - 138 / 100 * (c' ^ 2 + c' * x + x ^ 2 - 30 / 100 * (c' + x) + (15 / 100) ^ 2)) :=
          mul_nonneg (by linarith) (by linarith)
        linarith
      by_cases g : c ≤ 15 / 100
      · rw [if_pos g]
        have := poly (15 / 100) le_rfl (not_le.1 g').le
        nlinarith
      · rw [if_neg g]
        have := poly c (not_le.1 g).le h
        nlinarith
  have a : t * (c + c * (1 - if c ≤ 15 / 100 then 0 else 138 / 100 * (c - 15 / 100) ^ 2)) ≤
      t * (c' + c' * (1 - if c' ≤ 15 / 100 then 0 else 138 / 100 * (c' - 15 / 100) ^ 2)) := mul_le_mul_of_nonneg_left key ht
  have b : (E - t) * c ≤ (E - t) * c' := mul_le_mul_of_nonneg_left h (by linarith)
  linarith

/-- Up to a cloud factor of 0.79, where the canopy passes the beam at least as well as the diffuse light, it is so. -/
theorem C170_cloud_partial (lo hi : Option ℝ) (r : Rad) (hr : r.Sound) (cf cf' illum : ℝ) (s : Surface) (hs : s.Sound) (h0 : 0 ≤ cf)
    (h : cf ≤ cf') (h1 : cf' ≤ 79 / 100) (hp : s.tau ≤ pass illum s) : netOf lo hi r cf illum s ≤ netOf lo hi r cf' illum s := by
  have key : ∀ (b d a : ℝ), d ≤ b → 0 ≤ d → a ≤ 1 →
      (b * cf * pass illum s + s.tau * (cfCloud b d cf).2) * (1 - a) ≤ (b * cf' * pass illum s + s.tau * (cfCloud b d cf').2) * (1 - a) := by
    intro b d a hb hd ha
    refine mul_le_mul_of_nonneg_right ?_ (by linarith)
    rw [cloudy_diffuse b d cf (by linarith), cloudy_diffuse b d cf' (by linarith)]
    have := mul_le_mul_of_nonneg_left (cloudy_mono (pass illum s) s.tau cf cf' hs.tau.1 hp h0 h h1) (hd.trans hb)
    linarith
  unfold netOf
  rw [below_canopy, below_canopy]
  exact net_mono lo hi _ _ _ _ _ _ (key _ _ _ hr.visB hr.visD hs.albV.2) (key _ _ _ hr.irB hr.irD hs.albIr.2)

/-- Clouds raise the net radiation above that of the whole clear light by at most 13.4 percent. -/
theorem C170_excess (r : Rad) (hr : r.Sound) (cf illum : ℝ) (s : Surface) (hs : s.Sound) (h0 : 0 ≤ cf) (h1 : cf ≤ 99 / 100) :
    netOf none none r cf illum s ≤ 1134 / 1000 * (r.visBeam * (1 - s.albV) + r.irBeam * (1 - s.albIr)) := by
  have key : ∀ (b d a : ℝ), d ≤ b → 0 ≤ d → a ≤ 1 →
      (b * cf * pass illum s + s.tau * (cfCloud b d cf).2) * (1 - a) ≤ 1134 / 1000 * (b * (1 - a)) := by
    intro b d a hb hd ha
    rw [cloudy_diffuse b d cf h1]
    have p0 := (pass_pos illum s).le
    have p1 := pass_le_one illum s hs
    have hb0 := hd.trans hb
    have poly : cf + cf * (1 - if cf ≤ 15 / 100 then 0 else 138 / 100 * (cf - 15 / 100) ^ 2) ≤ 1134 / 1000 := by
      split
      · linarith
      · nlinarith [mul_nonneg h0 (sq_nonneg (cf - 797 / 1000)), sq_nonneg (cf - 797 / 1000)]
    have w : 0 ≤ cf * (1 - if cf ≤ 15 / 100 then 0 else 138 / 100 * (cf - 15 / 100) ^ 2) := by
      refine mul_nonneg h0 ?_
      split
      · norm_num
      · rename_i g
        nlinarith [not_le.1 g]
    have e1 : cf * pass illum s ≤ cf := by nlinarith
    have e2 : s.tau * (cf * (1 - if cf ≤ 15 / 100 then 0 else 138 / 100 * (cf - 15 / 100) ^ 2)) ≤
        cf * (1 - if cf ≤ 15 / 100 then 0 else 138 / 100 * (cf - 15 / 100) ^ 2) := by
      have := mul_le_mul_of_nonneg_right hs.tau.2 w
      linarith
    have e3 : b * (cf * pass illum s + s.tau * (cf * (1 - if cf ≤ 15 / 100 then 0 else 138 / 100 * (cf - 15 / 100) ^ 2))) ≤ b * (1134 / 1000) :=
      mul_le_mul_of_nonneg_left (by linarith) hb0
    have := mul_le_mul_of_nonneg_right e3 (show 0 ≤ 1 - a by linarith)
    linarith
  unfold netOf calcNet clamp
  rw [below_canopy]
  simp only [Option.elim]
  have v := key _ _ _ hr.visB hr.visD hs.albV.2
  have i := key _ _ _ hr.irB hr.irD hs.albIr.2
  linarith

/-- An open cell. -/
noncomputable def openCell (a b : ℝ) : Surface := ⟨0, 1, 1, a, b⟩

theorem pass_open (illum a b : ℝ) : pass illum (openCell a b) = 1 := by
  unfold pass openCell
  simp

/-- In an open cell a cloud that takes a quarter of the light away gives more net radiation than the clear sky, whenever at most a tenth of the
clear light is diffuse. -/
theorem C170_cloudy_fails (r : Rad) (hv : 0 < r.visBeam) (hi : 0 < r.irBeam) (hvd : r.visDiffuse ≤ r.visBeam / 10)
    (hid : r.irDiffuse ≤ r.irBeam / 10) (illum a b : ℝ) (ha : a < 1) (hb : b < 1) :
    netOf none none r 1 illum (openCell a b) < netOf none none r (3 / 4) illum (openCell a b) := by
  have key : ∀ (g d x : ℝ), 0 < g → d ≤ g / 10 → x < 1 →
      (g * 1 * pass illum (openCell a b) + (openCell a b).tau * (cfCloud g d 1).2) * (1 - x) <
        (g * (3 / 4) * pass illum (openCell a b) + (openCell a b).tau * (cfCloud g d (3 / 4)).2) * (1 - x) := by
    intro g d x hg hd hx
    refine mul_lt_mul_of_pos_right ?_ (by linarith)
    rw [pass_open, show (openCell a b).tau = 1 from rfl]
    unfold cfCloud
    norm_num
    linarith
  unfold netOf calcNet clamp
  rw [below_canopy, below_canopy]
  simp only [Option.elim]
  exact add_lt_add (key _ _ _ hv hvd ha) (key _ _ _ hi hid hb)

theorem C170_fails : ¬ C170_full := by
  intro h
  have r : Rad.Sound ⟨500, 40, 400, 20⟩ := ⟨by norm_num, by norm_num, by norm_num, by norm_num⟩
  have h1 := h ⟨500, 40, 400, 20⟩ (3 / 4) 1 1 (openCell (1 / 2) (1 / 2)) r
    ⟨le_rfl, zero_le_one, ⟨zero_le_one, le_rfl⟩, ⟨by norm_num [openCell], by norm_num [openCell]⟩, ⟨by norm_num [openCell], by norm_num [openCell]⟩⟩
    (by norm_num) (by norm_num) le_rfl one_pos
  have h2 := C170_cloudy_fails ⟨500, 40, 400, 20⟩ (by norm_num) (by norm_num) (by norm_num) (by norm_num) 1 (1 / 2) (1 / 2) (by norm_num) (by norm_num)
  linarith

/-! ### Examples -/

/-- A forest of 10 m against an open cell with darker snow. -/
example : netOf none none ⟨500, 40, 400, 20⟩ (9 / 10) (1 / 2) ⟨10, 1 / 2, 1 / 25, 8 / 10, 7 / 10⟩ ≤
    netOf none none ⟨500, 40, 400, 20⟩ (9 / 10) (1 / 2) ⟨0, 1, 0, 7 / 10, 6 / 10⟩ := by
  apply C170_surface
  any_goals norm_num
  · constructor <;> norm_num
  · constructor <;> norm_num
  · constructor <;> norm_num

/-- Clouds that thin from 0.4 to 0.7 over an open cell. -/
example : netOf none none ⟨500, 40, 400, 20⟩ (4 / 10) (1 / 2) (openCell (8 / 10) (7 / 10)) ≤
    netOf none none ⟨500, 40, 400, 20⟩ (7 / 10) (1 / 2) (openCell (8 / 10) (7 / 10)) := by
  refine C170_cloud_partial none none _ ⟨by norm_num, by norm_num, by norm_num, by norm_num⟩ _ _ _ _ ?_ (by norm_num) (by norm_num) (by norm_num) ?_
  · constructor <;> norm_num [openCell]
  · rw [pass_open]; norm_num [openCell]

end Verif.Solar
