import Verif.AlbedoProps
import Verif.SolarErrorProps

/-! C186: what errors in the age of the snow and in the sun's angle do to the albedo
(`smrf/envphys/albedo.py:35-107`, `smrf/distribute/albedo.py:104-159`). -/

namespace Verif.Albedo

/-- The claim at full strength: one rate bounds the change of both albedos for errors in age and angle
together. -/
def C186_full : Prop :=
  ∀ g m d : ℝ, Accepted g m d → ∃ L : ℝ, ∀ (a a' c c' v v' ir ir' : Unit → ℝ), 0 ≤ a () → 0 ≤ a' () →
    |c ()| ≤ 1 → |c' ()| ≤ 1 → albedo a c g m d = .ok (v, ir) → albedo a' c' g m d = .ok (v', ir') →
    |v' () - v ()| ≤ L * (|a' () - a ()| + |c' () - c ()|) ∧
      |ir' () - ir ()| ≤ L * (|a' () - a ()| + |c' () - c ()|)

/-- The grains grow by at most 0.27 of their range in a day. -/
theorem growth_near (s t : ℝ) (hs : 1 ≤ s) (ht : 1 ≤ t) : |growth t - growth s| ≤ 27 / 100 * |t - s| := by
  have ds := growth_den s
  have dt := growth_den t
  have e : growth t - growth s =
      (t - s) * ((2 * (s + t) + 2 * (s * t) - 2) / ((2 + s + s * s) * (2 + t + t * t))) := by
    rw [growth_eq s ds, growth_eq t dt]
    have := ds.ne'
    have := dt.ne'
    rw [div_sub_div _ _ dt.ne' ds.ne', ← mul_div_assoc, div_eq_div_iff (by positivity) (by positivity)]
    ring
  have hu : 0 ≤ s - 1 := by linarith
  have hv : 0 ≤ t - 1 := by linarith
  have huv := mul_nonneg hu hv
  have n0 : 0 ≤ 2 * (s + t) + 2 * (s * t) - 2 := by nlinarith
  rw [e, abs_mul, abs_of_nonneg (div_nonneg n0 (by positivity)), mul_comm]
  refine mul_le_mul_of_nonneg_right ?_ (abs_nonneg _)
  rw [div_le_iff₀ (by positivity)]
  obtain ⟨u, rfl⟩ : ∃ u, s = u + 1 := ⟨s - 1, by ring⟩
  obtain ⟨w, rfl⟩ : ∃ w, t = w + 1 := ⟨t - 1, by ring⟩
  simp only [add_sub_cancel_right] at hu hv huv
  have k1 : 0 ≤ (u * w) * (u + w) := mul_nonneg huv (by linarith)
  have k2 : 0 ≤ (u * w) ^ 2 := sq_nonneg _
  nlinarith [sq_nonneg (u - w), sq_nonneg (u + w - 76 / 108)]

theorem grain_near (r m a b : ℝ) (hrm : r ≤ m) (ha : 0 ≤ a) (hb : 0 ≤ b) :
    |grain r m b - grain r m a| ≤ 27 / 100 * (m - r) * |b - a| := by
  unfold grain
  have h := growth_near (a + 1) (b + 1) (by linarith) (by linarith)
  rw [show r + (m - r) * growth (b + 1) - (r + (m - r) * growth (a + 1)) =
    (m - r) * (growth (b + 1) - growth (a + 1)) by ring, abs_mul, abs_of_nonneg (sub_nonneg.2 hrm)]
  rw [show b + 1 - (a + 1) = b - a by ring] at h
  have := mul_le_mul_of_nonneg_left h (sub_nonneg.2 hrm)
  linarith

theorem vis_near (g g' c : ℝ) (hc : c ≤ 1) : |visCell g' c - visCell g c| ≤ |g' - g| / 500 := by
  unfold visCell
  simp only
  split
  · rename_i h
    rw [show 1 - g' / 500 + g' * (1375 / 1000000) * (1 - c) - (1 - g / 500 + g * (1375 / 1000000) * (1 - c))
      = (g' - g) * -(1 / 500 - 1375 / 1000000 * (1 - c)) by ring, abs_mul, abs_neg,
      abs_of_nonneg (show 0 ≤ 1 / 500 - 1375 / 1000000 * (1 - c) by linarith)]
    have := abs_nonneg (g' - g)
    nlinarith
  · rw [show 1 - g' / 500 - (1 - g / 500) = -((g' - g) / 500) by ring, abs_neg, abs_div,
      abs_of_pos (show (0 : ℝ) < 500 by norm_num)]

theorem exp_fall (x y : ℝ) (hx : 0 ≤ x) (hxy : x ≤ y) :
    0 ≤ Real.exp (-x) - Real.exp (-y) ∧ Real.exp (-x) - Real.exp (-y) ≤ y - x := by
  have h1 : Real.exp (-y) ≤ Real.exp (-x) := Real.exp_le_exp.2 (by linarith)
  have h2 : Real.exp (-x) ≤ 1 := Real.exp_le_one_iff.2 (by linarith)
  have h3 := Real.add_one_le_exp (-(y - x))
  have h4 : Real.exp (-y) = Real.exp (-x) * Real.exp (-(y - x)) := by rw [← Real.exp_add]; ring_nf
  refine ⟨by linarith, ?_⟩
  have := Real.exp_pos (-x)
  rw [h4]
  nlinarith

theorem ir_near_le (g g' c : ℝ) (hg : 0 ≤ g) (h : g ≤ g') (hc : c ≤ 1) :
    |irCell g' c - irCell g c| ≤ 1815 / 100000 * (g' - g) := by
  obtain ⟨h1, h2⟩ := exp_fall (2123 / 100000 * g) (2123 / 100000 * g') (by positivity) (by linarith)
  unfold irCell
  simp only [neg_mul]
  have hd : 0 ≤ g' - g := by linarith
  split
  · rename_i h0
    have k : 0 ≤ (g' - g) * (1 - c) := mul_nonneg hd (by linarith)
    have k' : (g' - g) * (1 - c) ≤ g' - g := by nlinarith
    rw [abs_le]
    constructor <;> nlinarith
  · rw [abs_le]
    constructor <;> nlinarith

theorem ir_near (g g' c : ℝ) (hg : 0 ≤ g) (hg' : 0 ≤ g') (hc : c ≤ 1) :
    |irCell g' c - irCell g c| ≤ 1815 / 100000 * |g' - g| := by
  rcases le_total g g' with h | h
  · rw [abs_of_nonneg (show 0 ≤ g' - g by linarith)]
    exact ir_near_le g g' c hg h hc
  · rw [abs_sub_comm, abs_sub_comm g', abs_of_nonneg (show 0 ≤ g - g' by linarith)]
    exact ir_near_le g' g c hg' h hc

/-- The visible albedo moves by this much for a day of age. -/
noncomputable def visRate (g m d : ℝ) : ℝ := 54 / 100000 * (Real.sqrt (d * m) - Real.sqrt (d * g))

/-- The infrared albedo moves by this much for a day of age. -/
noncomputable def irRate (g m : ℝ) : ℝ := 49005 / 10000000 * (Real.sqrt m - Real.sqrt g)

/-- An error in the age of the snow changes the albedo of a cell at most in proportion. -/
theorem C186_age {ι : Type} (a a' c v v' ir ir' : ι → ℝ) (g m d : ℝ) (h : Accepted g m d)
    (hr : albedo a c g m d = .ok (v, ir)) (hr' : albedo a' c g m d = .ok (v', ir')) (i : ι)
    (ha : 0 ≤ a i) (ha' : 0 ≤ a' i) (hc : c i ≤ 1) :
    |v' i - v i| ≤ visRate g m d * |a' i - a i| ∧ |ir' i - ir i| ≤ irRate g m * |a' i - a i| := by
  rw [albedo_ok a c g m d h] at hr
  rw [albedo_ok a' c g m d h] at hr'
  simp only [Except.ok.injEq, Prod.mk.injEq] at hr hr'
  obtain ⟨rfl, rfl⟩ := hr
  obtain ⟨rfl, rfl⟩ := hr'
  obtain ⟨h1, h2, h3, h4, h5⟩ := h
  have sv : Real.sqrt (d * g) ≤ Real.sqrt (d * m) :=
    Real.sqrt_le_sqrt (mul_le_mul_of_nonneg_left h3.le h5)
  have si : Real.sqrt g ≤ Real.sqrt m := Real.sqrt_le_sqrt h3.le
  have gi := grain_range (Real.sqrt g) (Real.sqrt m) (a i) si ha
  have gi' := grain_range (Real.sqrt g) (Real.sqrt m) (a' i) si ha'
  have z := Real.sqrt_nonneg g
  constructor
  · refine (vis_near _ _ _ hc).trans ?_
    have := grain_near _ _ _ _ sv ha ha'
    unfold visRate
    linarith
  · refine (ir_near _ _ _ (by linarith) (by linarith) hc).trans ?_
    have := grain_near _ _ _ _ si ha ha'
    unfold irRate
    linarith

/-- Part: an error in the sun's angle, while the sun is above the horizon of the cell in both runs or in
neither. -/
theorem C186_sun_partial {ι : Type} (a c c' v v' ir ir' : ι → ℝ) (g m d : ℝ) (h : Accepted g m d)
    (hr : albedo a c g m d = .ok (v, ir)) (hr' : albedo a c' g m d = .ok (v', ir')) (i : ι)
    (ha : 0 ≤ a i) (hs : 0 < c i ↔ 0 < c' i) :
    |v' i - v i| ≤ 1375 / 1000000 * Real.sqrt (d * m) * |c' i - c i| ∧
      |ir' i - ir i| ≤ (1 / 10 + Real.sqrt m / 500) * |c' i - c i| := by
  rw [albedo_ok a c g m d h] at hr
  rw [albedo_ok a c' g m d h] at hr'
  simp only [Except.ok.injEq, Prod.mk.injEq] at hr hr'
  obtain ⟨rfl, rfl⟩ := hr
  obtain ⟨rfl, rfl⟩ := hr'
  obtain ⟨h1, h2, h3, h4, h5⟩ := h
  have sv : Real.sqrt (d * g) ≤ Real.sqrt (d * m) :=
    Real.sqrt_le_sqrt (mul_le_mul_of_nonneg_left h3.le h5)
  have si : Real.sqrt g ≤ Real.sqrt m := Real.sqrt_le_sqrt h3.le
  obtain ⟨l1, u1⟩ := grain_range (Real.sqrt (d * g)) (Real.sqrt (d * m)) (a i) sv ha
  obtain ⟨l2, u2⟩ := grain_range (Real.sqrt g) (Real.sqrt m) (a i) si ha
  have z1 := Real.sqrt_nonneg (d * g)
  have z2 := Real.sqrt_nonneg g
  simp only
  generalize grain (Real.sqrt (d * g)) (Real.sqrt (d * m)) (a i) = x at l1 u1 ⊢
  generalize grain (Real.sqrt g) (Real.sqrt m) (a i) = y at l2 u2 ⊢
  have n := abs_nonneg (c' i - c i)
  unfold visCell irCell
  simp only
  by_cases p : 0 < c i
  · have p' := hs.1 p
    simp only [p, p', if_true]
    rw [show 1 - x / 500 + x * (1375 / 1000000) * (1 - c' i) - (1 - x / 500 + x * (1375 / 1000000) * (1 - c i))
        = -(1375 / 1000000 * x * (c' i - c i)) by ring, abs_neg, abs_mul (1375 / 1000000 * x),
        abs_of_nonneg (show 0 ≤ 1375 / 1000000 * x by linarith)]
    rw [add_sub_add_left_eq_sub, show (y * (2 / 1000) + 1 / 10) * (1 - c' i) - (y * (2 / 1000) + 1 / 10) * (1 - c i)
        = -((1 / 10 + y / 500) * (c' i - c i)) by ring, abs_neg, abs_mul (1 / 10 + y / 500),
        abs_of_nonneg (show 0 ≤ 1 / 10 + y / 500 by linarith)]
    exact ⟨mul_le_mul_of_nonneg_right (by linarith) n, mul_le_mul_of_nonneg_right (by linarith) n⟩
  · have p' : ¬ 0 < c' i := fun q => p (hs.2 q)
    simp only [p, p', if_false, sub_self, abs_zero]
    have := Real.sqrt_nonneg (d * m)
    have := Real.sqrt_nonneg m
    constructor <;> positivity

/-- A sun above the horizon by however little makes the snow brighter in the infrared by a twentieth. -/
theorem C186_horizon_fails (g m d a e : ℝ) (h : Accepted g m d) (ha : 0 ≤ a) (he : 0 < e) (he' : e ≤ 1 / 2) :
    ∃ v ir v' ir', albedo (fun _ : Unit => a) (fun _ => 0) g m d = .ok (v, ir) ∧
      albedo (fun _ : Unit => a) (fun _ => e) g m d = .ok (v', ir') ∧ ir () + 1 / 20 ≤ ir' () := by
  refine ⟨_, _, _, _, albedo_ok _ _ g m d h, albedo_ok _ _ g m d h, ?_⟩
  have si : Real.sqrt g ≤ Real.sqrt m := Real.sqrt_le_sqrt h.2.2.1.le
  obtain ⟨l2, -⟩ := grain_range (Real.sqrt g) (Real.sqrt m) a si ha
  have z2 := Real.sqrt_nonneg g
  generalize grain (Real.sqrt g) (Real.sqrt m) a = y at l2 ⊢
  unfold irCell
  simp only [he, if_true, lt_irrefl, if_false]
  have : 0 ≤ y * (1 - e) := mul_nonneg (by linarith) (by linarith)
  nlinarith

/-! ### The published albedo -/

/-- Without litter the published albedos obey the same bounds. -/
theorem C186_published {ι : Type} (cfg : Cfg) (h : Accepted cfg.grain cfg.maxGrain cfg.dirt)
    (hd : cfg.decay ≠ .hardy) (vt : ι → Int) (t : Int) (cz a a' : ι → ℝ) (v v' ir ir' : ι → Option ℝ)
    (hr : distribute cfg vt t (some cz) a = .ok (v, ir)) (hr' : distribute cfg vt t (some cz) a' = .ok (v', ir'))
    (i : ι) (ha : 0 ≤ a i) (ha' : 0 ≤ a' i) (hc : cz i ≤ 1) :
    ∃ x x' y y', v i = some x ∧ v' i = some x' ∧ ir i = some y ∧ ir' i = some y' ∧
      |x' - x| ≤ visRate cfg.grain cfg.maxGrain cfg.dirt * |a' i - a i| ∧
      |y' - y| ≤ irRate cfg.grain cfg.maxGrain * |a' i - a i| := by
  obtain ⟨x1, y1, e1⟩ : ∃ v ir, albedo a cz cfg.grain cfg.maxGrain cfg.dirt = .ok (v, ir) :=
    ⟨_, _, albedo_ok _ _ _ _ _ h⟩
  obtain ⟨x2, y2, e2⟩ : ∃ v ir, albedo a' cz cfg.grain cfg.maxGrain cfg.dirt = .ok (v, ir) :=
    ⟨_, _, albedo_ok _ _ _ _ _ h⟩
  have key := C186_age a a' cz _ _ _ _ _ _ _ h e1 e2 i ha ha' hc
  unfold distribute at hr hr'
  simp only [e1, e2] at hr hr'
  have fin (p q : ℝ) (b : ℝ) (hb : |q - p| ≤ b) :
      |Solar.clamp cfg.lo cfg.hi q - Solar.clamp cfg.lo cfg.hi p| ≤ b := (Solar.clamp_near _ _ _ _).trans hb
  cases hk : cfg.decay with
  | hardy => exact absurd hk hd
  | none =>
    rw [hk] at hr hr'
    simp only [Except.ok.injEq, Prod.mk.injEq] at hr hr'
    obtain ⟨rfl, rfl⟩ := hr
    obtain ⟨rfl, rfl⟩ := hr'
    exact ⟨_, _, _, _, Solar.clamp_eq _ _ _, Solar.clamp_eq _ _ _, Solar.clamp_eq _ _ _, Solar.clamp_eq _ _ _,
      fin _ _ _ key.1, fin _ _ _ key.2⟩
  | date start stop pwr =>
    rw [hk] at hr hr'
    simp only at hr hr'
    unfold decayAlbPower at hr hr'
    cases hq : albDec cfg.veg vt start stop t pwr with
    | error e => rw [hq] at hr; simp at hr
    | ok dec =>
      rw [hq] at hr hr'
      simp only [Except.ok.injEq, Prod.mk.injEq] at hr hr'
      obtain ⟨rfl, rfl⟩ := hr
      obtain ⟨rfl, rfl⟩ := hr'
      refine ⟨_, _, _, _, Solar.clamp_eq _ _ _, Solar.clamp_eq _ _ _, Solar.clamp_eq _ _ _, Solar.clamp_eq _ _ _,
        fin _ _ _ ?_, fin _ _ _ ?_⟩
      · rw [sub_sub_sub_cancel_right]; exact key.1
      · rw [sub_sub_sub_cancel_right]; exact key.2

/-! ### Litter -/

theorem assign_cover (d : Dict) (vt : Int) (r day : ℝ) :
    assign (d.map fun kv => (kv.1, snowCover kv.2 day)) vt (snowCover r day) = snowCover (assign d vt r) day := by
  unfold assign
  induction d generalizing r with
  | nil => rfl
  | cons kv d ih =>
    simp only [List.map_cons, List.foldl_cons]
    by_cases h : kv.1 = Key.cls vt
    · simp only [h, if_true]; exact ih _
    · simp only [h, if_false]; exact ih _

theorem cover_near (r a b : ℝ) (h0 : 0 ≤ r) (h1 : r < 1) (ha : 0 ≤ a) (hb : 0 ≤ b) :
    |snowCover r b - snowCover r a| ≤ -Real.log (1 - r) * |b - a| := by
  have hl : 0 ≤ -Real.log (1 - r) := by
    have := Real.log_nonpos (show 0 ≤ 1 - r by linarith) (by linarith)
    linarith
  have e (x : ℝ) : snowCover r x = Real.exp (-(-Real.log (1 - r) * x)) := by
    unfold snowCover
    rw [Real.rpow_def_of_pos (by linarith)]
    ring_nf
  rw [e, e]
  generalize -Real.log (1 - r) = k at hl
  rcases le_total a b with h | h
  · obtain ⟨p, q⟩ := exp_fall (k * a) (k * b) (by positivity) (mul_le_mul_of_nonneg_left h hl)
    rw [abs_sub_comm, abs_of_nonneg p, abs_of_nonneg (by linarith)]
    linarith
  · obtain ⟨p, q⟩ := exp_fall (k * b) (k * a) (by positivity) (mul_le_mul_of_nonneg_left h hl)
    rw [abs_of_nonneg p, abs_sub_comm, abs_of_nonneg (by linarith)]
    linarith

/-- With litter, the rate of the class of the cell adds its own decay. -/
theorem C186_litter {ι : Type} (cfg : Cfg) (h : Accepted cfg.grain cfg.maxGrain cfg.dirt) (hd10 : cfg.dirt ≤ 10)
    (hd : cfg.decay = .hardy) (vt : ι → Int) (t : Int) (cz a a' : ι → ℝ) (v v' ir ir' : ι → Option ℝ)
    (hr : distribute cfg vt t (some cz) a = .ok (v, ir)) (hr' : distribute cfg vt t (some cz) a' = .ok (v', ir'))
    (dflt al : ℝ) (hw : cfg.litter.get (.word "default") = .ok dflt) (hal : cfg.litter.get (.word "albedo") = .ok al)
    (hal0 : 0 ≤ al) (hal1 : al ≤ 1) (ha : ∀ j, 0 ≤ a j) (ha' : ∀ j, 0 ≤ a' j) (hc : ∀ j, -1 ≤ cz j ∧ cz j ≤ 1)
    (i : ι) (h0 : 0 ≤ assign cfg.litter (vt i) dflt) (h1 : assign cfg.litter (vt i) dflt < 1) :
    ∃ x x' y y', v i = some x ∧ v' i = some x' ∧ ir i = some y ∧ ir' i = some y' ∧
      |x' - x| ≤ (visRate cfg.grain cfg.maxGrain cfg.dirt - Real.log (1 - assign cfg.litter (vt i) dflt)) * |a' i - a i| ∧
      |y' - y| ≤ (irRate cfg.grain cfg.maxGrain - Real.log (1 - assign cfg.litter (vt i) dflt)) * |a' i - a i| := by
  obtain ⟨x1, y1, e1⟩ : ∃ v ir, albedo a cz cfg.grain cfg.maxGrain cfg.dirt = .ok (v, ir) :=
    ⟨_, _, albedo_ok _ _ _ _ _ h⟩
  obtain ⟨x2, y2, e2⟩ : ∃ v ir, albedo a' cz cfg.grain cfg.maxGrain cfg.dirt = .ok (v, ir) :=
    ⟨_, _, albedo_ok _ _ _ _ _ h⟩
  have key := C186_age a a' cz _ _ _ _ _ _ _ h e1 e2 i (ha i) (ha' i) (hc i).2
  have phys := C36_physical a cz _ _ _ _ _ h hd10 ha hc e1 i
  unfold distribute at hr hr'
  simp only [e1, e2, hd] at hr hr'
  have cn := cover_near _ (a i) (a' i) h0 h1 (ha i) (ha' i)
  have c0 : 0 ≤ snowCover (assign cfg.litter (vt i) dflt) (a' i) := by
    unfold snowCover; exact Real.rpow_nonneg (by linarith) _
  have c1 : snowCover (assign cfg.litter (vt i) dflt) (a' i) ≤ 1 := by
    unfold snowCover; exact Real.rpow_le_one (by linarith) (by linarith) (ha' i)
  have fin (p q b : ℝ) (hp0 : 0 ≤ p) (hp1 : p ≤ 1) (hb : |q - p| ≤ b * |a' i - a i|) (s s' : ℝ) (hs0 : 0 ≤ s') (hs1 : s' ≤ 1)
      (k : ℝ) (hk : |s' - s| ≤ -k * |a' i - a i|) :
      |Solar.clamp cfg.lo cfg.hi (q * s' + al * (1 - s')) - Solar.clamp cfg.lo cfg.hi (p * s + al * (1 - s))| ≤
        (b - k) * |a' i - a i| := by
    refine (Solar.clamp_near _ _ _ _).trans ?_
    rw [show q * s' + al * (1 - s') - (p * s + al * (1 - s)) = (q - p) * s' + (p - al) * (s' - s) by ring]
    refine (abs_add_le _ _).trans ?_
    rw [abs_mul, abs_mul, abs_of_nonneg hs0]
    have m1 : |q - p| * s' ≤ |q - p| := mul_le_of_le_one_right (abs_nonneg _) hs1
    have m2 : |p - al| * |s' - s| ≤ |s' - s| :=
      mul_le_of_le_one_left (abs_nonneg _) (_root_.abs_le.2 ⟨by linarith, by linarith⟩)
    linarith
  unfold decayAlbHardy at hr hr'
  simp only [hw, hal, assign_cover, Except.ok.injEq, Prod.mk.injEq] at hr hr'
  obtain ⟨rfl, rfl⟩ := hr
  obtain ⟨rfl, rfl⟩ := hr'
  exact ⟨_, _, _, _, Solar.clamp_eq _ _ _, Solar.clamp_eq _ _ _, Solar.clamp_eq _ _ _, Solar.clamp_eq _ _ _,
    fin _ _ _ phys.1.le phys.2.1 key.1 _ _ c0 c1 _ cn,
    fin _ _ _ phys.2.2.1.le phys.2.2.2.le key.2 _ _ c0 c1 _ cn⟩

theorem accepted_default : Accepted 100 700 2 := by norm_num [Accepted]

theorem C186_fails : ¬ C186_full := by
  intro h
  obtain ⟨L, h⟩ := h 100 700 2 accepted_default
  have e0 : 0 < 1 / (21 * (1 + |L|)) := by positivity
  have e1 : 1 / (21 * (1 + |L|)) ≤ 1 / 2 := by
    rw [div_le_div_iff₀ (by positivity) (by norm_num)]
    have := abs_nonneg L; linarith
  obtain ⟨v, ir, v', ir', r, r', hj⟩ := C186_horizon_fails 100 700 2 1 _ accepted_default (by norm_num) e0 e1
  have hb := (h _ _ _ _ v v' ir ir' (by norm_num) (by norm_num) (by norm_num)
    (by rw [abs_of_pos e0]; linarith) r r').2
  simp only [sub_self, abs_zero, zero_add, sub_zero] at hb
  rw [abs_of_pos e0] at hb
  have h4 : L * (1 / (21 * (1 + |L|))) ≤ 1 / 21 := by
    rw [mul_one_div, div_le_div_iff₀ (by positivity) (by norm_num)]
    have := le_abs_self L
    linarith
  have h5 := le_abs_self (ir' () - ir ())
  linarith

/-- With the grain sizes and dirt of the default configuration a day of age moves the visible albedo by
at most 0.013 and the infrared albedo by at most 0.081. -/
example {a a' c v v' ir ir' : Unit → ℝ} (ha : a = fun _ => 3) (ha' : a' = fun _ => 4) (hc : c = fun _ => 1 / 2)
    (hr : albedo a c 100 700 2 = .ok (v, ir)) (hr' : albedo a' c 100 700 2 = .ok (v', ir')) :
    |v' () - v ()| ≤ 13 / 1000 ∧ |ir' () - ir ()| ≤ 81 / 1000 := by
  subst ha; subst ha'; subst hc
  have h := C186_age _ _ _ v v' ir ir' 100 700 2 accepted_default hr hr' () (by norm_num) (by norm_num) (by norm_num)
  have s1 : Real.sqrt (2 * 700) ≤ 3742 / 100 := by rw [Real.sqrt_le_left (by norm_num)]; norm_num
  have s2 : Real.sqrt 700 ≤ 2646 / 100 := by rw [Real.sqrt_le_left (by norm_num)]; norm_num
  have s3 : 1414 / 100 ≤ Real.sqrt (2 * 100) := Real.le_sqrt_of_sq_le (by norm_num)
  have s4 : 10 ≤ Real.sqrt 100 := Real.le_sqrt_of_sq_le (by norm_num)
  unfold visRate irRate at h
  norm_num at h s1 s3 ⊢
  constructor <;> linarith [h.1, h.2]

example : ∃ v ir, albedo (fun _ : Unit => (3 : ℝ)) (fun _ => 1 / 2) 100 700 2 = .ok (v, ir) :=
  ⟨_, _, albedo_ok _ _ _ _ _ accepted_default⟩

/-- A configuration with litter: class 41 loses 0.6 percent of its clean snow a day. -/
noncomputable def pines : Cfg :=
  ⟨100, 700, 2, .hardy, [], [(.word "default", 3 / 1000), (.word "albedo", 2 / 10), (.cls 41, 6 / 1000)], some 0, some 1⟩

/-- In such a run the age enters the visible albedo of a pine cell with `visRate - log 0.994`. -/
example : ∃ v ir v' ir', distribute pines (fun _ : Unit => 41) 0 (some fun _ => 1 / 2) (fun _ => 3) = .ok (v, ir) ∧
    distribute pines (fun _ : Unit => 41) 0 (some fun _ => 1 / 2) (fun _ => 4) = .ok (v', ir') ∧
    ∃ x x', v () = some x ∧ v' () = some x' ∧ |x' - x| ≤ (visRate 100 700 2 - Real.log (994 / 1000)) * 1 := by
  have run (a : Unit → ℝ) : ∃ v ir, distribute pines (fun _ : Unit => 41) 0 (some fun _ => 1 / 2) a = .ok (v, ir) := by
    unfold distribute
    simp only [albedo_ok _ _ _ _ _ (show Accepted pines.grain pines.maxGrain pines.dirt from accepted_default)]
    exact ⟨_, _, rfl⟩
  obtain ⟨v, ir, r⟩ := run fun _ => 3
  obtain ⟨v', ir', r'⟩ := run fun _ => 4
  have as : assign pines.litter 41 (3 / 1000) = 6 / 1000 := by
    simp [assign, pines]
  obtain ⟨x, x', y, y', e, e', -, -, b, -⟩ := C186_litter pines accepted_default (by norm_num [pines]) rfl _ 0 _ _ _ v v' ir ir'
    r r' (3 / 1000) (2 / 10) rfl rfl (by norm_num) (by norm_num) (fun _ => by norm_num) (fun _ => by norm_num)
    (fun _ => by norm_num) () (by rw [as]; norm_num) (by rw [as]; norm_num)
  refine ⟨v, ir, v', ir', r, r', x, x', e, e', ?_⟩
  rw [as] at b
  rw [show (1 : ℝ) - 6 / 1000 = 994 / 1000 by norm_num, show |(4 : ℝ) - 3| = 1 by norm_num] at b
  exact b

end Verif.Albedo
