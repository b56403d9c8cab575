import Verif.Pykrige
import Verif.IdwProps
import Verif.OrderProps

/-!
Property C141: generic kriging estimates every cell at its own place and elevation from the stations with data, with the
configured options.
-/

namespace Verif.Pykrige
open Verif.Idw (Station points constrain LeastSquares)

/-! ### Specification -/

/-- The stations that have a value. -/
def present (sta : List Station) : List (ℝ × ℝ × ℝ × ℝ) := sta.filterMap fun s => s.val.map fun v => (s.x, s.y, s.z, v)

/-- The line of the elevations: no line for plain kriging. -/
noncomputable def line (cfg : Config) (fit : List (ℝ × ℝ) → ℝ × ℝ) (l : List (ℝ × ℝ × ℝ × ℝ)) : ℝ × ℝ :=
  if cfg.detrend = true then fit (l.map fun q => (q.2.2.1, q.2.2.2)) else (0, 0)

/-- The options as configured. -/
def asConfigured (cfg : Config) : Options := ⟨cfg.variogram, cfg.nlags, cfg.weight, cfg.scaling, cfg.angle, cfg.coordinates⟩

/-- The estimate for one cell: the residuals of the stations that have a value, estimated at the place of the cell, and the line at the
elevation of the cell. -/
noncomputable def estimate (ok : Ordinary) (o : Options) (fit : List (ℝ × ℝ) → ℝ × ℝ) (cfg : Config) (l : List (ℝ × ℝ × ℝ × ℝ))
    (x y z : ℝ) : ℝ :=
  (ok o (l.map fun q => (q.1, q.2.1, q.2.2.2 - ((line cfg fit l).1 * q.2.2.1 + (line cfg fit l).2))) (x, y)).1 +
    ((line cfg fit l).1 * z + (line cfg fit l).2)

/-- The image: cell `(i, j)` lies at `x j`, `y i`. -/
noncomputable def picture (ok : Ordinary) (o : Options) (fit : List (ℝ × ℝ) → ℝ × ℝ) (cfg : Config) (l : List (ℝ × ℝ × ℝ × ℝ))
    (ny nx : Nat) (x y : Nat → ℝ) (dem : Nat → Nat → ℝ) : List (List ℝ) :=
  (List.range ny).map fun i => (List.range nx).map fun j => estimate ok o fit cfg l (x j) (y i) (dem i j)

/-- The variances of the estimates, without the line. -/
noncomputable def spread (ok : Ordinary) (o : Options) (fit : List (ℝ × ℝ) → ℝ × ℝ) (cfg : Config) (l : List (ℝ × ℝ × ℝ × ℝ))
    (ny nx : Nat) (x y : Nat → ℝ) : List (List ℝ) :=
  (List.range ny).map fun i => (List.range nx).map fun j =>
    (ok o (l.map fun q => (q.1, q.2.1, q.2.2.2 - ((line cfg fit l).1 * q.2.2.1 + (line cfg fit l).2))) (x j, y i)).2

/-! ### Helpers -/

theorem points_present (sta : List Station) : points sta = (present sta).map fun q => (q.2.2.1, q.2.2.2) := by
  unfold Idw.points present
  rw [List.map_filterMap]
  congr 1
  funext s
  cases s.val <;> rfl

theorem known_resid (sta : List Station) (pv : ℝ × ℝ) :
    known (sta.map fun s => { s with val := s.val.map (· - (s.z * pv.1 + pv.2)) }) =
      (present sta).map fun q => (q.1, q.2.1, q.2.2.2 - (pv.1 * q.2.2.1 + pv.2)) := by
  unfold known present
  rw [List.filterMap_map, List.map_filterMap]
  congr 1
  funext s
  simp only [Function.comp]
  cases s.val with
  | none => rfl
  | some v => simp [mul_comm]

theorem known_plain (sta : List Station) : known sta = (present sta).map fun q => (q.1, q.2.1, q.2.2.2) := by
  unfold known present
  rw [List.map_filterMap]
  congr 1
  funext s
  cases s.val <;> rfl

theorem no_constraint (pv : ℝ × ℝ) : constrain 0 pv = pv := by simp [Idw.constrain]

theorem mapIdx_range {α β : Type} (n : Nat) (f : Nat → α) (h : Nat → α → β) :
    ((List.range n).map f).mapIdx h = (List.range n).map fun i => h i (f i) := by
  apply List.ext_getElem
  · simp
  · intro i h1 h2
    simp

/-- What `calculate` does on a meshgrid, whatever trend the instance holds. -/
theorem calculate_eq (ok : Ordinary) (fit : List (ℝ × ℝ) → ℝ × ℝ) (ny nx : Nat) (x y : Nat → ℝ) (dem : Nat → Nat → ℝ) (k : Instance)
    (sta : List Station) (hd : present sta ≠ []) : ∃ pv,
    calculate ok fit (meshgrid ny nx x y dem) k sta =
      .ok (picture ok k.options fit k.config (present sta) ny nx x y dem, spread ok k.options fit k.config (present sta) ny nx x y,
        ⟨k.config, pv⟩) := by
  have hp : points sta ≠ [] := by
    rw [points_present]
    simpa using hd
  by_cases h : k.config.detrend = true
  · refine ⟨some (fit (points sta)), ?_⟩
    unfold calculate detrendData
    simp only [h, if_true, if_neg hp, bind, Except.bind, retrendData, no_constraint, known_resid, execute, Instance.options,
      List.map_map]
    rw [Except.ok.injEq, Prod.mk.injEq, Prod.mk.injEq]
    refine ⟨?_, ?_, rfl⟩
    · rw [mapIdx_range]
      unfold picture
      apply List.map_congr_left
      intro i _
      simp only [Function.comp]
      rw [List.map_map, mapIdx_range]
      apply List.map_congr_left
      intro j _
      simp only [estimate, line, h, if_true, meshgrid, points_present, Function.comp]
      ring
    · unfold spread
      apply List.map_congr_left
      intro i _
      simp only [Function.comp]
      rw [List.map_map]
      apply List.map_congr_left
      intro j _
      simp only [line, h, if_true, meshgrid, points_present, Function.comp]
  · refine ⟨k.pv, ?_⟩
    unfold calculate
    simp only [if_neg h, bind, Except.bind, execute, List.map_map]
    rw [Except.ok.injEq, Prod.mk.injEq, Prod.mk.injEq]
    refine ⟨?_, ?_, rfl⟩
    · unfold picture
      apply List.map_congr_left
      intro i _
      simp only [Function.comp]
      rw [List.map_map]
      apply List.map_congr_left
      intro j _
      simp [estimate, line, h, meshgrid, known_plain]
    · unfold spread
      apply List.map_congr_left
      intro i _
      simp only [Function.comp]
      rw [List.map_map]
      apply List.map_congr_left
      intro j _
      simp [line, h, meshgrid, known_plain]

/-! ### Property -/

/-- The image of a step, whatever the instance did before: the estimate of every cell at its own place and elevation, from the stations
that have a value. Missing: the option `krig_coordinates_type = geographic` (`C141_coordinates_fails`). -/
theorem C141_image_partial (ok : Ordinary) (fit : List (ℝ × ℝ) → ℝ × ℝ) (ny nx : Nat) (x y : Nat → ℝ) (dem : Nat → Nat → ℝ)
    (k : Instance) (hk : k.config.coordinates = .euclidean) (sta : List Station) (hd : ∃ s ∈ sta, s.val ≠ none) :
    ∃ k', calculate ok fit (meshgrid ny nx x y dem) k sta =
      .ok (picture ok (asConfigured k.config) fit k.config (present sta) ny nx x y dem,
        spread ok (asConfigured k.config) fit k.config (present sta) ny nx x y, k') := by
  obtain ⟨s, hs, hv⟩ := hd
  obtain ⟨v, hv⟩ := Option.ne_none_iff_exists'.1 hv
  obtain ⟨pv, h⟩ := calculate_eq ok fit ny nx x y dem k sta
    (List.ne_nil_of_mem (List.mem_filterMap.2 ⟨s, hs, by rw [hv]; rfl⟩ : (s.x, s.y, s.z, v) ∈ present sta))
  have : k.options = asConfigured k.config := by unfold Instance.options asConfigured; rw [hk]
  exact ⟨_, by rw [h, this]⟩

/-- A run: every step has the image of its own data. -/
theorem C141_run_partial (ok : Ordinary) (fit : List (ℝ × ℝ) → ℝ × ℝ) (ny nx : Nat) (x y : Nat → ℝ) (dem : Nat → Nat → ℝ)
    (k : Instance) (hk : k.config.coordinates = .euclidean) (sta : List Station) (steps : List (List (Option ℝ)))
    (hd : ∀ d ∈ steps, ∃ s ∈ sta.zip d, s.2 ≠ none) :
    run ok fit (meshgrid ny nx x y dem) sta k steps = .ok (steps.map fun d =>
      picture ok (asConfigured k.config) fit k.config ((sta.zip d).filterMap fun q => q.2.map fun v => (q.1.x, q.1.y, q.1.z, v))
        ny nx x y dem) := by
  induction steps generalizing k with
  | nil => rfl
  | cons d steps ih =>
    have hp : present (List.zipWith (fun s x => { s with val := x }) sta d) =
        (sta.zip d).filterMap fun q => q.2.map fun v => (q.1.x, q.1.y, q.1.z, v) := by
      unfold present
      rw [← List.map_uncurry_zip_eq_zipWith, List.filterMap_map]
      rfl
    obtain ⟨q, hq, hv⟩ := hd d List.mem_cons_self
    obtain ⟨v, hv⟩ := Option.ne_none_iff_exists'.1 hv
    have hne : present (List.zipWith (fun s x => { s with val := x }) sta d) ≠ [] := by
      rw [hp]
      exact List.ne_nil_of_mem (List.mem_filterMap.2 ⟨q, hq, by rw [hv]; rfl⟩ : (q.1.x, q.1.y, q.1.z, v) ∈ _)
    obtain ⟨pv, h⟩ := calculate_eq ok fit ny nx x y dem k _ hne
    have ho : k.options = asConfigured k.config := by unfold Instance.options asConfigured; rw [hk]
    have hr := ih ⟨k.config, pv⟩ hk fun d hd' => hd d (List.mem_cons_of_mem _ hd')
    unfold run
    rw [h]
    simp only [bind, Except.bind]
    rw [hr, hp, ho]
    rfl

/-- A step without any value ends with an exception if a trend is asked for (and before that in `_distribute`, C99). -/
theorem C141_no_data (ok : Ordinary) (fit : List (ℝ × ℝ) → ℝ × ℝ) (g : Grid) (k : Instance) (hk : k.config.detrend = true)
    (sta : List Station) (hd : ∀ s ∈ sta, s.val = none) : calculate ok fit g k sta = .error .typeError := by
  have : points sta = [] := by
    unfold Idw.points
    rw [List.filterMap_eq_nil_iff]
    intro s hs
    rw [hd s hs]; rfl
  unfold calculate detrendData
  simp [hk, this, bind, Except.bind]

/-- The estimate is a weighted sum of the values, with weights that may depend on everything (pykrige fits the variogram to the
values). -/
def Linear (ok : Ordinary) : Prop := ∀ o pts p, ∃ w : List ℝ, (ok o pts p).1 = (List.zipWith (· * ·) w (pts.map fun q => q.2.2)).sum

/-- Data that are an affine function of the elevation, at two elevations at least: the image is that function of the elevation. -/
theorem C141_affine (ok : Ordinary) (hok : Linear ok) (fit : List (ℝ × ℝ) → ℝ × ℝ) (hf : LeastSquares fit) (ny nx : Nat)
    (x y : Nat → ℝ) (dem : Nat → Nat → ℝ) (k : Instance) (hk : k.config.detrend = true) (sta : List Station)
    (hs : Order.Slope sta) (a b : ℝ) (hv : ∀ s ∈ sta, ∀ v, s.val = some v → v = a * s.z + b) :
    ∃ ss k', calculate ok fit (meshgrid ny nx x y dem) k sta =
      .ok ((List.range ny).map fun i => (List.range nx).map fun j => a * dem i j + b, ss, k') := by
  obtain ⟨s, h1, t, h2, v1, v2, hz⟩ := hs
  obtain ⟨u, hu⟩ := Option.isSome_iff_exists.1 v1
  obtain ⟨v, hv'⟩ := Option.isSome_iff_exists.1 v2
  have hsm : (s.x, s.y, s.z, u) ∈ present sta := List.mem_filterMap.2 ⟨s, h1, by rw [hu]; rfl⟩
  have htm : (t.x, t.y, t.z, v) ∈ present sta := List.mem_filterMap.2 ⟨t, h2, by rw [hv']; rfl⟩
  obtain ⟨pv, h⟩ := calculate_eq ok fit ny nx x y dem k sta (List.ne_nil_of_mem hsm)
  refine ⟨spread ok k.options fit k.config (present sta) ny nx x y, ⟨k.config, pv⟩, h.trans ?_⟩
  have hall : ∀ q ∈ present sta, q.2.2.2 = a * q.2.2.1 + b := by
    intro q hq
    obtain ⟨s, hs, e⟩ := List.mem_filterMap.1 hq
    obtain ⟨w, hw, rfl⟩ := Option.map_eq_some_iff.1 e
    exact hv s hs w hw
  have hl : line k.config fit (present sta) = (a, b) := by
    unfold line
    rw [if_pos hk]
    refine Idw.fit_exact fit hf _ a b (fun q hq => ?_) (s.z, u) (t.z, v) (List.mem_map.2 ⟨_, hsm, rfl⟩) (List.mem_map.2 ⟨_, htm, rfl⟩) hz
    obtain ⟨r, hr, rfl⟩ := List.mem_map.1 hq
    exact hall r hr
  congr 2
  unfold picture
  apply List.map_congr_left
  intro i _
  apply List.map_congr_left
  intro j _
  unfold estimate
  rw [hl]
  obtain ⟨w, hw⟩ := hok k.options ((present sta).map fun q => (q.1, q.2.1, q.2.2.2 - (a * q.2.2.1 + b))) (x j, y i)
  simp only
  rw [hw, List.map_map]
  have hzero : ∀ (l : List (ℝ × ℝ × ℝ × ℝ)) (w : List ℝ), (∀ q ∈ l, q.2.2.2 = a * q.2.2.1 + b) →
      (List.zipWith (· * ·) w (l.map ((fun q : ℝ × ℝ × ℝ => q.2.2) ∘ fun q => (q.1, q.2.1, q.2.2.2 - (a * q.2.2.1 + b))))).sum = 0 := by
    intro l
    induction l with
    | nil => intro w _; simp
    | cons q l ih =>
      intro w hq
      cases w with
      | nil => simp
      | cons c w =>
        rw [List.map_cons, List.zipWith_cons_cons, List.sum_cons, ih w fun r hr => hq r (List.mem_cons_of_mem _ hr)]
        simp [hq q List.mem_cons_self]
  rw [hzero _ w hall, zero_add]

/-- A station without a value has no influence: the image is that of the stations without it. -/
theorem C141_gaps (ok : Ordinary) (fit : List (ℝ × ℝ) → ℝ × ℝ) (ny nx : Nat) (x y : Nat → ℝ) (dem : Nat → Nat → ℝ) (k k' : Instance)
    (hk : k'.config = k.config) (l r : List Station) (s : Station) (hs : s.val = none) (hd : ∃ t ∈ l ++ r, t.val ≠ none) :
    (calculate ok fit (meshgrid ny nx x y dem) k (l ++ s :: r)).map Prod.fst =
      (calculate ok fit (meshgrid ny nx x y dem) k' (l ++ r)).map Prod.fst := by
  have hp : present (l ++ s :: r) = present (l ++ r) := by
    unfold present
    rw [List.filterMap_append, List.filterMap_append, List.filterMap_cons_none (by rw [hs]; rfl)]
  obtain ⟨t, ht, hv⟩ := hd
  obtain ⟨v, hv⟩ := Option.ne_none_iff_exists'.1 hv
  have hne : present (l ++ r) ≠ [] := List.ne_nil_of_mem (List.mem_filterMap.2 ⟨t, ht, by rw [hv]; rfl⟩ : (t.x, t.y, t.z, v) ∈ _)
  obtain ⟨_, h1⟩ := calculate_eq ok fit ny nx x y dem k _ (hp ▸ hne)
  obtain ⟨_, h2⟩ := calculate_eq ok fit ny nx x y dem k' _ hne
  have : k'.options = k.options := by unfold Instance.options; rw [hk]
  rw [h1, h2, hp, this, hk]
  rfl

/-- C141 fails: with `krig_coordinates_type = geographic` the image is that of plane coordinates. -/
theorem C141_coordinates_fails (ok : Ordinary) (fit : List (ℝ × ℝ) → ℝ × ℝ) (ny nx : Nat) (x y : Nat → ℝ) (dem : Nat → Nat → ℝ)
    (k : Instance) (sta : List Station) (hd : ∃ s ∈ sta, s.val ≠ none) :
    ∃ ss k', calculate ok fit (meshgrid ny nx x y dem) { k with config := { k.config with coordinates := .geographic } } sta =
      .ok (picture ok (asConfigured { k.config with coordinates := .euclidean }) fit k.config (present sta) ny nx x y dem, ss, k') := by
  obtain ⟨s, hs, hv⟩ := hd
  obtain ⟨v, hv⟩ := Option.ne_none_iff_exists'.1 hv
  obtain ⟨pv, h⟩ := calculate_eq ok fit ny nx x y dem { k with config := { k.config with coordinates := .geographic } } sta
    (List.ne_nil_of_mem (List.mem_filterMap.2 ⟨s, hs, by rw [hv]; rfl⟩ : (s.x, s.y, s.z, v) ∈ present sta))
  exact ⟨_, _, by rw [h]; rfl⟩

/-- The full claim. -/
def C141_full : Prop := ∀ (ok : Ordinary) (fit : List (ℝ × ℝ) → ℝ × ℝ) (ny nx : Nat) (x y : Nat → ℝ) (dem : Nat → Nat → ℝ) (k : Instance)
  (sta : List Station), (∃ s ∈ sta, s.val ≠ none) → ∃ k', calculate ok fit (meshgrid ny nx x y dem) k sta =
    .ok (picture ok (asConfigured k.config) fit k.config (present sta) ny nx x y dem,
      spread ok (asConfigured k.config) fit k.config (present sta) ny nx x y, k')

/-- An estimator that shows which kind of coordinates it was told. -/
def told : Ordinary := fun o pts _ => ((if o.coordinates = .geographic then 2 else 1) * (pts.map fun q => q.2.2).sum, 0)

theorem C141_fails : ¬ C141_full := by
  intro h
  let k : Instance := ⟨⟨false, .linear, 6, false, 1, 0, .geographic⟩, none⟩
  have hd : ∃ s ∈ [(⟨0, 0, 0, some 1⟩ : Station)], s.val ≠ none := ⟨_, List.mem_cons_self, by simp⟩
  obtain ⟨_, h1⟩ := h told (fun _ => (0, 0)) 1 1 (fun _ => 0) (fun _ => 0) (fun _ _ => 0) k _ hd
  obtain ⟨_, _, h2⟩ := C141_coordinates_fails told (fun _ => (0, 0)) 1 1 (fun _ => 0) (fun _ => 0) (fun _ _ => 0) k _ hd
  have h3 := h1.symm.trans h2
  simp [picture, estimate, line, told, asConfigured, present, k] at h3

/-! ### Cases -/

/-- The mean of the values is a weighted sum. -/
noncomputable def mean : Ordinary := fun _ pts _ => ((pts.map fun q => q.2.2).sum / pts.length, 0)

theorem mean_linear : Linear mean := by
  intro o pts p
  refine ⟨List.replicate pts.length (1 / pts.length), ?_⟩
  unfold mean
  simp only
  have : ∀ (c : ℝ) (l : List ℝ), (List.zipWith (· * ·) (List.replicate l.length c) l).sum = c * l.sum := by
    intro c l
    induction l with
    | nil => simp
    | cons a l ih => simp [List.replicate_succ, ih, mul_add]
  have e := this (1 / pts.length) (pts.map fun q => q.2.2)
  rw [List.length_map] at e
  rw [e]
  ring

/-- Two stations and a gap, with a lapse of -2 per unit: at elevation 5 the image is 0. -/
example (k : Instance) (hk : k.config.detrend = true) : ∃ ss k',
    calculate mean Idw.closedForm (meshgrid 1 2 (fun j => j) (fun i => i) fun _ j => 4 + j) k
      [⟨0, 0, 0, some 10⟩, ⟨1, 0, 1, some 8⟩, ⟨2, 0, 2, none⟩] = .ok ([[2, 0]], ss, k') := by
  obtain ⟨ss, k', h⟩ := C141_affine mean mean_linear Idw.closedForm Idw.closedForm_least 1 2 (fun j => j) (fun i => i)
    (fun _ j => 4 + j) k hk [⟨0, 0, 0, some 10⟩, ⟨1, 0, 1, some 8⟩, ⟨2, 0, 2, none⟩]
    ⟨_, List.mem_cons_self, _, List.mem_cons_of_mem _ List.mem_cons_self, rfl, rfl, by norm_num⟩ (-2) 10 (by
      intro s hs v hv
      simp only [List.mem_cons, List.not_mem_nil, or_false] at hs
      rcases hs with rfl | rfl | rfl
      · simp at hv; simp [← hv]
      · simp at hv; norm_num [← hv]
      · simp at hv)
  refine ⟨ss, k', h.trans ?_⟩
  congr 2
  norm_num [List.range_succ]

end Verif.Pykrige
