import Verif.TbreakLemmas
import Verif.Precip

/-!
C122: the topographic break of a cell is the slope near the cell less the slope beyond. Also a stronger form of C64.
-/

namespace Verif.Tbreak

open Verif.Horizon Verif.Window

/-- `m` is the largest value of `f` on `P`. -/
def IsMax (P : Nat → Prop) (f : Nat → ℝ) (m : ℝ) : Prop := (∃ k, P k ∧ f k = m) ∧ ∀ k, P k → f k ≤ m

/-- The cells of the ray that are more than `a` and at most `b` steps away, in the grid and nearer than 500 cells. -/
def Between (g : Dem) (s u : Int × Int) (a b k : Nat) : Prop := a < k ∧ k ≤ b ∧ k < 500 ∧ Bres.InGrid g.nx g.ny (ray s u k)

/-- Columns and rows are evenly spaced. -/
structure Even (g : Dem) (x0 y0 dx dy : ℝ) : Prop where
  x : ∀ i, g.x i = x0 + i * dx
  y : ∀ i, g.y i = y0 + i * dy
  dx : dx ≠ 0
  dy : dy ≠ 0

/-- A cell, a direction along a row, a column or a diagonal, and the two search distances, `n1` and `n2` steps. -/
structure Search (g : Dem) (sepdist dmax angle : ℝ) (s u : Int × Int) (n1 n2 : Nat) : Prop where
  step : Step u
  near : farEnd g.dx g.dy sepdist angle s.1 s.2 = ray s u n1
  far : farEnd g.dx g.dy dmax angle s.1 s.2 = ray s u n2
  pos : 0 < n1
  le : n1 ≤ n2
  inside : Bres.InGrid g.nx g.ny s
  next : Bres.InGrid g.nx g.ny (ray s u 1)
  fits1 : Bres.Fits s.1 s.2 (ray s u n1).1 (ray s u n1).2
  fits2 : Bres.Fits s.1 s.2 (ray s u n2).1 (ray s u n2).2

/-- No cell of the search is below a slope of 57, so that no value is set to zero for being its own horizon. -/
def NoCliff (g : Dem) (dx dy : ℝ) (s u : Int × Int) (h : ℝ) (n : Nat) : Prop :=
  ∀ k, Between g s u 0 n k → -57 ≤ raySlope g.nx dx dy g.z s u h k

/-- The claim: with the instrument on the ground, the break is the angle of the steepest cell up to the separation distance less that of
the steepest cell beyond it. -/
def C122_full : Prop :=
  ∀ (g : Dem) (x0 y0 dx dy sepdist dmax a : ℝ) (s u : Int × Int) (n1 n2 : Nat) (m1 m2 : Junk) (M1 M2 : ℝ),
    Even g x0 y0 dx dy → Search g sepdist dmax a s u n1 n2 → NoCliff g dx dy s u 0 n2 →
    IsMax (Between g s u 0 n1) (raySlope g.nx dx dy g.z s u 0) M1 →
    IsMax (Between g s u n1 n2) (raySlope g.nx dx dy g.z s u 0) M2 →
    tbreakCell g 0 sepdist dmax a s m1 m2 = some (some (angle M1 - angle M2))

/-- C64 for all directions along rows, columns and diagonals and for every height: the value of a cell is the angle of a cell of the
search, and no cell of the search is steeper by more than the height of the instrument divided by the step. -/
theorem C64_ray_partial (g : Dem) (x0 y0 dx dy : ℝ) (ev : Even g x0 y0 dx dy) (s u : Int × Int) (hu : Step u) (n : Nat) (hn : 0 < n)
    (f : Bres.Fits s.1 s.2 (ray s u n).1 (ray s u n).2) (hs : Bres.InGrid g.nx g.ny s) (hnext : Bres.InGrid g.nx g.ny (ray s u 1))
    (h : ℝ) (hh : 0 ≤ h) (m : Junk) :
    ∃ v, Between g s u 0 n v ∧
      cellMaxus g.nx g.ny g.x g.y g.z s (ray s u n) h m.line m.arrays m.horizon =
        some (correct (some (angle (raySlope g.nx dx dy g.z s u h v)))) ∧
      ∀ k, Between g s u 0 n k → raySlope g.nx dx dy g.z s u h k ≤ raySlope g.nx dx dy g.z s u h v + h / stepLen dx dy u := by
  obtain ⟨v, a, b, c, d, e, f'⟩ := ray_bound g.nx g.ny g.x g.y g.z x0 y0 dx dy ev.x ev.y ev.dx ev.dy s u hu n hn f hs hnext h hh
    m.line m.arrays m.horizon
  exact ⟨v, ⟨a, b, c, d⟩, e, fun k ⟨k1, k2, k3, k4⟩ => f' k k1 k2 k3 k4⟩

/-- Both searches of a cell. -/
theorem both {g : Dem} {x0 y0 dx dy sepdist dmax a : ℝ} {s u : Int × Int} {n1 n2 : Nat} (ev : Even g x0 y0 dx dy)
    (se : Search g sepdist dmax a s u n1 n2) (h : ℝ) (hh : 0 ≤ h) (nc : NoCliff g dx dy s u h n2) (m1 m2 : Junk) :
    ∃ v w, Between g s u 0 n1 v ∧ Between g s u 0 n2 w ∧
      tbreakCell g h sepdist dmax a s m1 m2 =
        some (some (angle (raySlope g.nx dx dy g.z s u h v) - angle (raySlope g.nx dx dy g.z s u h w))) ∧
      (∀ k, Between g s u 0 n1 k → raySlope g.nx dx dy g.z s u h k ≤ raySlope g.nx dx dy g.z s u h v + h / stepLen dx dy u) ∧
      ∀ k, Between g s u 0 n2 k → raySlope g.nx dx dy g.z s u h k ≤ raySlope g.nx dx dy g.z s u h w + h / stepLen dx dy u := by
  have hp := se.pos
  have hl := se.le
  obtain ⟨v, v1, v2, v3⟩ := C64_ray_partial g x0 y0 dx dy ev s u se.step n1 se.pos se.fits1 se.inside se.next h hh m2
  obtain ⟨w, w1, w2, w3⟩ := C64_ray_partial g x0 y0 dx dy ev s u se.step n2 (by omega) se.fits2 se.inside se.next h hh m1
  refine ⟨v, w, v1, w1, ?_, v3, w3⟩
  unfold tbreakCell maxusAngle
  rw [se.near, se.far, v2, w2, C86_kept _ (nc v ⟨v1.1, by have := v1.2.1; omega, v1.2.2⟩), C86_kept _ (nc w w1)]
  rfl

theorem angle_mono {a b : ℝ} (h : a ≤ b) : angle a ≤ angle b := angle_strictMono.monotone h

/-- C122, what the code computes: the far search begins at the cell itself, so the break is the claimed difference where that is negative,
and zero where it is positive. -/
theorem C122_formula_partial (g : Dem) (x0 y0 dx dy sepdist dmax a : ℝ) (s u : Int × Int) (n1 n2 : Nat) (m1 m2 : Junk) (M1 M2 : ℝ)
    (ev : Even g x0 y0 dx dy) (se : Search g sepdist dmax a s u n1 n2) (nc : NoCliff g dx dy s u 0 n2)
    (h1 : IsMax (Between g s u 0 n1) (raySlope g.nx dx dy g.z s u 0) M1)
    (h2 : IsMax (Between g s u n1 n2) (raySlope g.nx dx dy g.z s u 0) M2) :
    tbreakCell g 0 sepdist dmax a s m1 m2 = some (some (min 0 (angle M1 - angle M2))) := by
  obtain ⟨v, w, v1, w1, e, v3, w3⟩ := both ev se 0 le_rfl nc m1 m2
  simp only [zero_div, add_zero] at v3 w3
  have hl := se.le
  obtain ⟨⟨k1, b1, e1⟩, b2⟩ := h1
  obtain ⟨⟨k2, c1, e2⟩, c2⟩ := h2
  have hv : raySlope g.nx dx dy g.z s u 0 v = M1 := le_antisymm (b2 v v1) (e1 ▸ v3 k1 b1)
  have hw : raySlope g.nx dx dy g.z s u 0 w = max M1 M2 := by
    apply le_antisymm
    · by_cases hw : w ≤ n1
      · exact le_max_of_le_left (b2 w ⟨w1.1, hw, w1.2.2⟩)
      · exact le_max_of_le_right (c2 w ⟨by omega, w1.2⟩)
    · refine max_le ?_ ?_
      · rw [← e1]; exact w3 k1 ⟨b1.1, by have := b1.2.1; omega, b1.2.2⟩
      · rw [← e2]; exact w3 k2 ⟨by have := c1.1; omega, c1.2⟩
  rw [e, hv, hw]
  congr 2
  rcases le_total M1 M2 with h | h
  · rw [max_eq_right h, min_eq_right]; linarith [angle_mono h]
  · rw [max_eq_left h, sub_self, min_eq_left]; linarith [angle_mono h]

/-- C122, with no cell of the grid beyond the separation distance the break is zero. -/
theorem C122_edge (g : Dem) (x0 y0 dx dy sepdist dmax a : ℝ) (s u : Int × Int) (n1 n2 : Nat) (m1 m2 : Junk)
    (ev : Even g x0 y0 dx dy) (se : Search g sepdist dmax a s u n1 n2) (nc : NoCliff g dx dy s u 0 n2)
    (h2 : ∀ k, ¬ Between g s u n1 n2 k) : tbreakCell g 0 sepdist dmax a s m1 m2 = some (some 0) := by
  obtain ⟨v, w, v1, w1, e, v3, w3⟩ := both ev se 0 le_rfl nc m1 m2
  simp only [zero_div, add_zero] at v3 w3
  have hl := se.le
  have hw : w ≤ n1 := by
    by_contra hw
    exact h2 w ⟨by omega, w1.2⟩
  have := le_antisymm (v3 w ⟨w1.1, hw, w1.2.2⟩) (w3 v ⟨v1.1, by have := v1.2.1; omega, v1.2.2⟩)
  rw [e, this, sub_self]

/-- C122, any height: the break is never more than the angle that the height makes over one step, whatever the terrain. -/
theorem C122_height_partial (g : Dem) (x0 y0 dx dy sepdist dmax a : ℝ) (s u : Int × Int) (n1 n2 : Nat) (m1 m2 : Junk) (h : ℝ) (hh : 0 ≤ h)
    (ev : Even g x0 y0 dx dy) (se : Search g sepdist dmax a s u n1 n2) (nc : NoCliff g dx dy s u h n2) :
    ∃ t, tbreakCell g h sepdist dmax a s m1 m2 = some (some t) ∧ t ≤ h / stepLen dx dy u / 3.141592654 * 180 := by
  obtain ⟨v, w, v1, w1, e, v3, w3⟩ := both ev se h hh nc m1 m2
  have hl := se.le
  refine ⟨_, e, ?_⟩
  have h1 := w3 v ⟨v1.1, by have := v1.2.1; omega, v1.2.2⟩
  have h2 := arctan_lip h1 (div_nonneg hh (stepLen_pos ev.dx ev.dy se.step).le)
  unfold angle
  rw [← sub_mul, ← sub_div]
  have : (0 : ℝ) < 3.141592654 := by norm_num
  gcongr
  linarith

/-- C122, the use of the breaks: with an instrument of two metres, steps of at least 17 metres and the default threshold of 7 degrees, no
cold cell is ever a drift cell for a wind along a row, a column or a diagonal. All of them get the factor of scour. -/
theorem C122_drift_fails (g : Dem) (x0 y0 dx dy sepdist dmax a : ℝ) (s u : Int × Int) (n1 n2 : Nat) (m1 m2 : Junk)
    (ev : Even g x0 y0 dx dy) (se : Search g sepdist dmax a s u n1 n2) (nc : NoCliff g dx dy s u 2 n2) (hδ : 17 ≤ stepLen dx dy u)
    (cfg : Precip.WindCfg) (ht : cfg.threshold = 7) (veg : List (Nat × ℝ)) (c : Precip.CellIn) (temp : ℝ) (hc : c.temp = some temp)
    (hcold : temp < 1 / 2) :
    ∃ t, tbreakCell g 2 sepdist dmax a s m1 m2 = some (some t) ∧
      Precip.driftCell cfg veg (some t) c =
        Precip.clampTo cfg.minScour cfg.maxScour (Precip.vegetate veg c.veg (Precip.scourPoly c.maxus)) * c.precip := by
  obtain ⟨t, h1, h2⟩ := C122_height_partial g x0 y0 dx dy sepdist dmax a s u n1 n2 m1 m2 2 (by norm_num) ev se nc
  refine ⟨t, h1, ?_⟩
  have h3 : t ≤ 7 := by
    have : 2 / stepLen dx dy u ≤ 2 / 17 := by gcongr
    have : 2 / stepLen dx dy u / 3.141592654 * 180 ≤ 2 / 17 / 3.141592654 * 180 := by gcongr
    have : (2 : ℝ) / 17 / 3.141592654 * 180 ≤ 7 := by norm_num
    linarith
  have n1 : ¬ (7 : ℝ) < t := not_lt.2 h3
  have n2 : ¬ (1 / 2 : ℝ) ≤ temp := not_le.2 hcold
  unfold Precip.driftCell
  simp only [hc, ht, h3, n1, n2, hcold, decide_true, decide_false]
  simp

/-! ### The directions -/

theorem floor_add (X : Int) (n : Nat) (d : ℝ) (hd : 0 < d) : ⌊((X : ℝ) * d + n * d) / d + 0.5⌋ = X + n := by
  rw [show ((X : ℝ) * d + n * d) / d + 0.5 = ((X + n : Int) : ℝ) + 0.5 by push_cast; field_simp, Int.floor_intCast_add]
  norm_num

theorem floor_sub (X : Int) (n : Nat) (d : ℝ) (hd : 0 < d) : ⌊((X : ℝ) * d - n * d) / d + 0.5⌋ = X - n := by
  rw [show ((X : ℝ) * d - n * d) / d + 0.5 = ((X - n : Int) : ℝ) + 0.5 by push_cast; field_simp, Int.floor_intCast_add]
  norm_num

theorem floor_same (X : Int) (d : ℝ) (hd : 0 < d) : ⌊((X : ℝ) * d) / d + 0.5⌋ = X := by
  have := floor_add X 0 d hd
  simpa using this

/-- The step for a wind from the north, east, south or west. -/
def Cardinal (angle : ℝ) (u : Int × Int) : Prop :=
  angle = 0 ∧ u = (0, -1) ∨ angle = 90 ∧ u = (1, 0) ∨ angle = 180 ∧ u = (0, 1) ∨ angle = 270 ∧ u = (-1, 0)

/-- C122, the cells searched: for the four winds, a distance of `n` cells ends exactly `n` cells away. -/
theorem C122_cardinal (dx dy dist a : ℝ) (u s : Int × Int) (n : Nat) (hx : 0 < dx) (hy : 0 < dy) (hc : Cardinal a u)
    (h1 : u.2 = 0 → dist = n * dx) (h2 : u.1 = 0 → dist = n * dy) :
    farEnd dx dy dist a s.1 s.2 = ray s u n ∧ Step u := by
  have c := fun t : ℝ => Real.cos_sub_pi_div_two t
  have sn := fun t : ℝ => Real.sin_sub_pi_div_two t
  unfold farEnd ray Step
  simp only [c, sn]
  rcases hc with ⟨ha, hu⟩ | ⟨ha, hu⟩ | ⟨ha, hu⟩ | ⟨ha, hu⟩ <;> subst hu <;> rw [ha]
  · simp only [zero_mul, Real.sin_zero, Real.cos_zero, mul_zero, add_zero, mul_neg, mul_one, h2 rfl, ← sub_eq_add_neg, floor_same _ _ hx,
      floor_sub _ _ _ hy]
    simp
  · rw [show (90 : ℝ) * (Real.pi / 180) = Real.pi / 2 by ring]
    simp only [Real.sin_pi_div_two, Real.cos_pi_div_two, neg_zero, mul_zero, add_zero, mul_one, h1 rfl, floor_same _ _ hy,
      floor_add _ _ _ hx]
    simp
  · rw [show (180 : ℝ) * (Real.pi / 180) = Real.pi by ring]
    simp only [Real.sin_pi, Real.cos_pi, neg_neg, mul_zero, add_zero, mul_one, h2 rfl, floor_same _ _ hx,
      floor_add _ _ _ hy]
    simp
  · rw [show (270 : ℝ) * (Real.pi / 180) = Real.pi / 2 + Real.pi by ring]
    simp only [Real.sin_add_pi, Real.cos_add_pi, Real.sin_pi_div_two, Real.cos_pi_div_two, neg_zero, mul_zero, add_zero, mul_neg, mul_one,
      h1 rfl, ← sub_eq_add_neg, floor_same _ _ hy, floor_sub _ _ _ hx]
    simp

/-- C122, the cells searched in a grid whose axes run in either direction. -/
theorem C122_cells (g : Dem) (x0 y0 dx dy dist a : ℝ) (ev : Even g x0 y0 dx dy) (u s : Int × Int) (n : Nat) (hc : Cardinal a u)
    (h1 : u.2 = 0 → dist = n * |dx|) (h2 : u.1 = 0 → dist = n * |dy|) :
    farEnd g.dx g.dy dist a s.1 s.2 = ray s u n := by
  have e1 : g.dx = |dx| := by unfold Dem.dx; rw [ev.x, ev.x]; push_cast; congr 1; ring
  have e2 : g.dy = |dy| := by unfold Dem.dy; rw [ev.y, ev.y]; push_cast; congr 1; ring
  rw [e1, e2]
  exact (C122_cardinal _ _ dist a u s n (abs_pos.2 ev.dx) (abs_pos.2 ev.dy) hc h1 h2).1

/-- Columns from east to west. -/
example (s : Int × Int) : let g : Dem := ⟨10, 10, fun i => 500 + i * (-30), fun i => i * (-50), fun _ => 0⟩
    farEnd g.dx g.dy 60 90 s.1 s.2 = (s.1 + 2, s.2) := by
  intro g
  have := C122_cells g 500 0 (-30) (-50) 60 90 ⟨fun i => rfl, fun i => by simp [g], by norm_num, by norm_num⟩ (1, 0) s 2
    (Or.inr (Or.inl ⟨rfl, rfl⟩)) (fun _ => by norm_num) (fun h => by simp at h)
  simpa [ray] using this

/-- C122, the guard: a run is accepted exactly if the columns are apart and both distances are whole numbers of columns, and then there is an image for each
direction, in order, each cell of it being the difference of the two searches. -/
theorem C122_guard (g : Dem) (height sepdist dmax : ℝ) (inc : Nat) (m : Rat → Int × Int → Junk × Junk) :
    ((∃ l, tbreak g height sepdist dmax inc m = .ok l) ↔ g.dx ≠ 0 ∧ (∃ a : Int, sepdist = a * g.dx) ∧ ∃ b : Int, dmax = b * g.dx) ∧
    ∀ l, tbreak g height sepdist dmax inc m = .ok l → l.map Prod.fst = directions inc ∧
      ∀ i ∈ l, ∀ s, i.2 s = minus (maxusAngle g height sepdist i.1 s (m i.1 s).2) (maxusAngle g height dmax i.1 s (m i.1 s).1) := by
  have key : ∀ d : ℝ, pmod d g.dx = some 0 ↔ g.dx ≠ 0 ∧ ∃ a : Int, d = a * g.dx := by
    intro d
    unfold pmod
    by_cases hx : g.dx = 0
    · rw [if_pos hx]; simp [hx]
    rw [if_neg hx, and_iff_right hx]
    constructor
    · intro h
      have := Option.some.inj h
      exact ⟨⌊d / g.dx⌋, by linarith⟩
    · rintro ⟨a, rfl⟩
      rw [mul_div_cancel_right₀ _ hx, Int.floor_intCast]
      congr 1; ring
  constructor
  · rw [show (g.dx ≠ 0 ∧ (∃ a : Int, sepdist = a * g.dx) ∧ ∃ b : Int, dmax = b * g.dx) ↔
      pmod sepdist g.dx = some 0 ∧ pmod dmax g.dx = some 0 by rw [key, key]; tauto]
    unfold tbreak
    constructor
    · rintro ⟨l, hl⟩
      split at hl
      · cases hl
      · rename_i h; push Not at h; exact h
    · rintro ⟨a, b⟩
      rw [if_neg (by simp [a, b])]
      exact ⟨_, rfl⟩
  · intro l hl
    unfold tbreak at hl
    split at hl
    · cases hl
    · cases hl
      refine ⟨?_, ?_⟩
      · rw [List.map_map]
        exact (List.map_congr_left (fun _ _ => rfl)).trans (List.map_id _)
      · intro i hi s
        obtain ⟨a, _, rfl⟩ := List.mem_map.1 hi
        rfl

/-- C122, the guard looks at the columns only: with cells of 30 by 50 metres a distance of 60 metres is accepted, and the search to the
north ends after 50 metres. -/
theorem C122_guard_rows_fails (nx ny : Int) (z : Int → ℝ) (h : ℝ) (inc : Nat) (m : Rat → Int × Int → Junk × Junk) (s : Int × Int) :
    let g : Dem := ⟨nx, ny, fun i => i * 30, fun i => i * (-50), z⟩
    (∃ l, tbreak g h 60 300 inc m = .ok l) ∧ farEnd g.dx g.dy 60 0 s.1 s.2 = (s.1, s.2 - 1) ∧
      |g.y (s.2 - 1) - g.y s.2| = 50 := by
  intro g
  have e1 : g.dx = 30 := by simp [g, Dem.dx]
  have e2 : g.dy = 50 := by simp [g, Dem.dy]
  refine ⟨?_, ?_, ?_⟩
  · rw [(C122_guard g h 60 300 inc m).1, e1]
    exact ⟨by norm_num, ⟨2, by norm_num⟩, ⟨10, by norm_num⟩⟩
  · rw [e1, e2]
    unfold farEnd
    simp only [zero_mul, Real.cos_sub_pi_div_two, Real.sin_sub_pi_div_two, Real.sin_zero, Real.cos_zero, mul_zero, add_zero,
      floor_same _ _ (show (0 : ℝ) < 30 by norm_num)]
    rw [show ((s.2 : ℝ) * 50 + 60 * -1) / 50 + 0.5 = ((s.2 - 1 : Int) : ℝ) + 0.3 by push_cast; ring, Int.floor_intCast_add]
    norm_num
  · simp only [g]
    push_cast
    rw [show ((s.2 : ℝ) - 1) * -50 - s.2 * -50 = 50 by ring]
    norm_num

/-! ### A ridge -/

/-- One row of cells of 30 metres: a ridge of 30 metres at column 1, else flat. -/
noncomputable def ridge : Dem := ⟨10, 1, fun i => i * 30, fun i => i * (-30), fun i => if i = 1 then 30 else 0⟩

theorem ridge_even : Even ridge 0 0 30 (-30) :=
  ⟨fun i => by simp [ridge], fun i => by simp [ridge], by norm_num, by norm_num⟩

theorem ridge_d : ridge.dx = 30 ∧ ridge.dy = 30 := by
  constructor <;> simp [ridge, Dem.dx, Dem.dy]

theorem ridge_search : Search ridge 60 150 90 (0, 0) (1, 0) 2 5 := by
  have c1 := C122_cardinal ridge.dx ridge.dy 60 90 (1, 0) (0, 0) 2 (by rw [ridge_d.1]; norm_num) (by rw [ridge_d.2]; norm_num)
    (Or.inr (Or.inl ⟨rfl, rfl⟩)) (fun _ => by rw [ridge_d.1]; norm_num) (fun h => by simp at h)
  have c2 := C122_cardinal ridge.dx ridge.dy 150 90 (1, 0) (0, 0) 5 (by rw [ridge_d.1]; norm_num) (by rw [ridge_d.2]; norm_num)
    (Or.inr (Or.inl ⟨rfl, rfl⟩)) (fun _ => by rw [ridge_d.1]; norm_num) (fun h => by simp at h)
  refine ⟨c1.2, c1.1, c2.1, by norm_num, by norm_num, ?_, ?_, ?_, ?_⟩
  · simp [Bres.InGrid, ridge]
  · simp [Bres.InGrid, ridge, ray]
  · constructor <;> decide
  · constructor <;> decide

theorem ridge_slope (k : Nat) : raySlope ridge.nx 30 (-30) ridge.z (0, 0) (1, 0) 0 k = if k = 1 then 1 else 0 := by
  have hl : stepLen 30 (-30) (1, 0) = 30 := by
    unfold stepLen
    rw [show (((1, 0) : Int × Int).1 * (30 : ℝ)) ^ 2 + (((1, 0) : Int × Int).2 * (-30 : ℝ)) ^ 2 = 30 ^ 2 by push_cast; norm_num]
    exact Real.sqrt_sq (by norm_num)
  unfold raySlope
  rw [hl]
  simp only [ridge, ray]
  by_cases e : k = 1
  · subst e; norm_num
  · simp [e]

theorem ridge_nocliff : NoCliff ridge 30 (-30) (0, 0) (1, 0) 0 5 := by
  intro k _
  rw [ridge_slope]
  split <;> norm_num

theorem ridge_near : IsMax (Between ridge (0, 0) (1, 0) 0 2) (raySlope ridge.nx 30 (-30) ridge.z (0, 0) (1, 0) 0) 1 := by
  refine ⟨⟨1, ⟨by omega, by omega, by omega, by simp [Bres.InGrid, ridge, ray]⟩, by rw [ridge_slope]; simp⟩, fun k _ => ?_⟩
  rw [ridge_slope]; split <;> norm_num

theorem ridge_far : IsMax (Between ridge (0, 0) (1, 0) 2 5) (raySlope ridge.nx 30 (-30) ridge.z (0, 0) (1, 0) 0) 0 := by
  refine ⟨⟨3, ⟨by omega, by omega, by omega, by simp [Bres.InGrid, ridge, ray]⟩, by rw [ridge_slope]; simp⟩, fun k hk => ?_⟩
  have := hk.1
  rw [ridge_slope, if_neg (by omega)]

/-- C122 does not hold: behind a ridge of 45 degrees in flat terrain the break is zero. -/
theorem C122_fails : ¬ C122_full ∧ ∀ m1 m2, tbreakCell ridge 0 60 150 90 (0, 0) m1 m2 = some (some 0) := by
  have ha : 0 < angle 1 - angle 0 := by
    have := angle_strictMono (show (0 : ℝ) < 1 by norm_num)
    linarith
  have hz : ∀ m1 m2, tbreakCell ridge 0 60 150 90 (0, 0) m1 m2 = some (some 0) := by
    intro m1 m2
    rw [C122_formula_partial ridge 0 0 30 (-30) 60 150 90 (0, 0) (1, 0) 2 5 m1 m2 1 0 ridge_even ridge_search ridge_nocliff ridge_near ridge_far,
      min_eq_left ha.le]
  refine ⟨fun h => ?_, hz⟩
  let m : Junk := ⟨Bres.initLine 0 0 0 0, ⟨fun _ => 0, fun _ => 0, fun _ => 0, 0⟩, fun _ => 0⟩
  have h2 := h ridge 0 0 30 (-30) 60 150 90 (0, 0) (1, 0) 2 5 m m 1 0 ridge_even ridge_search ridge_nocliff ridge_near ridge_far
  rw [hz] at h2
  have := Option.some.inj (Option.some.inj h2)
  linarith

/-- The instrument of two metres at the same cell: the break is at most 3.82 degrees, and the cell is no drift cell. -/
theorem ridge_nocliff2 : NoCliff ridge 30 (-30) (0, 0) (1, 0) 2 5 := by
  intro k hk
  have hl : stepLen 30 (-30) (1, 0) = 30 := by
    unfold stepLen
    rw [show (((1, 0) : Int × Int).1 * (30 : ℝ)) ^ 2 + (((1, 0) : Int × Int).2 * (-30 : ℝ)) ^ 2 = 30 ^ 2 by push_cast; norm_num]
    exact Real.sqrt_sq (by norm_num)
  have h0 : (1 : ℝ) ≤ k := by exact_mod_cast hk.1
  unfold raySlope
  rw [hl, le_div_iff₀ (by positivity)]
  simp only [ridge, ray]
  split <;> simp <;> nlinarith

example (m1 m2 : Junk) : ∃ t, tbreakCell ridge 2 60 150 90 (0, 0) m1 m2 = some (some t) ∧
    t ≤ 2 / stepLen 30 (-30) (1, 0) / 3.141592654 * 180 :=
  C122_height_partial ridge 0 0 30 (-30) 60 150 90 (0, 0) (1, 0) 2 5 m1 m2 2 (by norm_num) ridge_even ridge_search ridge_nocliff2

/-- A cell near the eastern edge. -/
example (m1 m2 : Junk) : tbreakCell ridge 0 60 150 90 (8, 0) m1 m2 = some (some 0) := by
  have c1 := C122_cardinal ridge.dx ridge.dy 60 90 (1, 0) (8, 0) 2 (by rw [ridge_d.1]; norm_num) (by rw [ridge_d.2]; norm_num)
    (Or.inr (Or.inl ⟨rfl, rfl⟩)) (fun _ => by rw [ridge_d.1]; norm_num) (fun h => by simp at h)
  have c2 := C122_cardinal ridge.dx ridge.dy 150 90 (1, 0) (8, 0) 5 (by rw [ridge_d.1]; norm_num) (by rw [ridge_d.2]; norm_num)
    (Or.inr (Or.inl ⟨rfl, rfl⟩)) (fun _ => by rw [ridge_d.1]; norm_num) (fun h => by simp at h)
  refine C122_edge ridge 0 0 30 (-30) 60 150 90 (8, 0) (1, 0) 2 5 m1 m2 ridge_even
    ⟨c1.2, c1.1, c2.1, by norm_num, by norm_num, by simp [Bres.InGrid, ridge], by simp [Bres.InGrid, ridge, ray],
      by constructor <;> decide, by constructor <;> decide⟩ ?_ ?_
  · intro k hk
    have h1 : ¬ (8 + (k : Int) = 1) := by omega
    simp [raySlope, ridge, ray, h1]
  · rintro k ⟨h1, _, _, h2⟩
    simp only [Bres.InGrid, ridge, ray] at h2
    omega

end Verif.Tbreak
