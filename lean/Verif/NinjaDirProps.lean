import Verif.NinjaDir
import Verif.NinjaProps
import Verif.WindProps
import Verif.CalendarProps

/-!
C112: wind directions from WindNinja. C113: positions of the values of a WindNinja file. C114: each time step reads its own file.
-/

namespace Verif.NinjaDir
set_option linter.unusedSectionVars false
open Verif.Ninja Verif.Wind

/-! ### C112 -/

theorem directions_ok {X Y : Nat → ℝ} {nr nc : Nat} {T : Nat → Nat → Corners} {ang : Nat → ℝ} {out : Nat → Nat → Option ℝ}
    (h : directions X Y nr nc T ang = .ok out) : ∃ uf vf, fillData X Y nr nc (gridInterp T fun k => uDirection (ang k)) = .ok uf ∧
      fillData X Y nr nc (gridInterp T fun k => vDirection (ang k)) = .ok vf ∧ out = fun r c => angle (uf r c) (vf r c) := by
  unfold directions at h
  cases hu : fillData X Y nr nc (gridInterp T fun k => uDirection (ang k)) with
  | error e => rw [hu] at h; cases h
  | ok uf =>
    cases hv : fillData X Y nr nc (gridInterp T fun k => vDirection (ang k)) with
    | error e => rw [hu, hv] at h; cases h
    | ok vf =>
      rw [hu, hv] at h
      cases h
      exact ⟨uf, vf, rfl, rfl, rfl⟩

/-- Which cells are NaN does not depend on the values. -/
theorem interp_none (T : Nat → Nat → Corners) (f g : Nat → ℝ) (r c : Nat) : gridInterp T f r c = none ↔ gridInterp T g r c = none := by
  unfold gridInterp interpolate
  simp only
  split <;> simp

theorem countNaN_congr (f g : Nat → Option ℝ) (n : Nat) (h : ∀ k, f k = none ↔ g k = none) : countNaN f n = countNaN g n := by
  unfold countNaN
  congr 1
  apply List.filter_congr
  intro k _
  rw [Bool.eq_iff_iff, Option.isNone_iff_eq_none, Option.isNone_iff_eq_none]
  exact h k

theorem extrapolate_none (x0 x1 x : ℝ) (a b a' b' : Option ℝ) (h : a = none ↔ a' = none) (h' : b = none ↔ b' = none) :
    extrapolate x0 x1 a b x = none ↔ extrapolate x0 x1 a' b' x = none := by
  cases a <;> cases a' <;> cases b <;> cases b' <;> simp_all [extrapolate]

/-- Filling succeeds for one image exactly if it does for another with the same missing cells, with the same error otherwise. -/
theorem fill_same (X Y : Nat → ℝ) (nr nc : Nat) (g g' : Nat → Nat → Option ℝ) (h : ∀ r c, g r c = none ↔ g' r c = none) :
    (∃ out, fillData X Y nr nc g = .ok out) ↔ ∃ out, fillData X Y nr nc g' = .ok out := by
  have e1 : countNaN (g 0) nc = countNaN (g' 0) nc := countNaN_congr _ _ _ fun k => h 0 k
  have e2 : countNaN (fun r => g r (countNaN (g' 0) nc + 1)) nr = countNaN (fun r => g' r (countNaN (g' 0) nc + 1)) nr :=
    countNaN_congr _ _ _ fun k => h k _
  unfold fillData
  simp only [e1, e2]
  by_cases h1 : nc ≤ countNaN (g' 0) nc + 1
  · simp [if_pos h1]
  · simp only [if_neg h1]
    by_cases h2 : countNaN (fun r => g' r (countNaN (g' 0) nc + 1)) nr > 0 ∧ nr < countNaN (fun r => g' r (countNaN (g' 0) nc + 1)) nr + 2
    · simp [if_pos h2]
    · simp only [if_neg h2]
      generalize countNaN (fun r => g' r (countNaN (g' 0) nc + 1)) nr = iy
      generalize countNaN (g' 0) nc = ix
      have hl : ∀ r c, (if ix > 0 then fillLeft X ix g else g) r c = none ↔ (if ix > 0 then fillLeft X ix g' else g') r c = none := by
        intro r c
        by_cases hx : ix > 0
        · simp only [if_pos hx, fillLeft]
          split
          · exact extrapolate_none _ _ _ _ _ _ _ (h _ _) (h _ _)
          · exact h r c
        · simp only [if_neg hx]; exact h r c
      have hb : ∀ r c, (if iy > 0 then fillBottom Y nr iy (if ix > 0 then fillLeft X ix g else g)
          else if ix > 0 then fillLeft X ix g else g) r c = none ↔
          (if iy > 0 then fillBottom Y nr iy (if ix > 0 then fillLeft X ix g' else g')
          else if ix > 0 then fillLeft X ix g' else g') r c = none := by
        intro r c
        by_cases hy : iy > 0
        · simp only [if_pos hy, fillBottom]
          split
          · exact extrapolate_none _ _ _ _ _ _ _ (hl _ _) (hl _ _)
          · exact hl r c
        · simp only [if_neg hy]; exact hl r c
      have hp : (∃ r < nr, ∃ c < nc, (if iy > 0 then fillBottom Y nr iy (if ix > 0 then fillLeft X ix g else g)
          else if ix > 0 then fillLeft X ix g else g) r c = none) ↔
          ∃ r < nr, ∃ c < nc, (if iy > 0 then fillBottom Y nr iy (if ix > 0 then fillLeft X ix g' else g')
          else if ix > 0 then fillLeft X ix g' else g') r c = none := by
        simp only [hb]
      by_cases h3 : ∃ r < nr, ∃ c < nc, (if iy > 0 then fillBottom Y nr iy (if ix > 0 then fillLeft X ix g' else g')
          else if ix > 0 then fillLeft X ix g' else g') r c = none
      · rw [if_pos h3, if_pos (hp.2 h3)]
      · rw [if_neg h3, if_neg (fun h => h3 (hp.1 h))]; simp

/-- The directions can be computed exactly when the speeds of a file with the same cells can be filled. -/
theorem C112_with_speed (X Y : Nat → ℝ) (nr nc : Nat) (T : Nat → Nat → Corners) (ang vel : Nat → ℝ) :
    (∃ out, directions X Y nr nc T ang = .ok out) ↔ ∃ out, fillData X Y nr nc (gridInterp T vel) = .ok out := by
  constructor
  · rintro ⟨out, h⟩
    obtain ⟨uf, vf, h1, -, -⟩ := directions_ok h
    exact (fill_same X Y nr nc _ _ (interp_none T _ _)).1 ⟨uf, h1⟩
  · intro h
    obtain ⟨uf, hu⟩ := (fill_same X Y nr nc _ _ (interp_none T _ fun k => uDirection (ang k))).1 h
    obtain ⟨vf, hv⟩ := (fill_same X Y nr nc _ _ (interp_none T _ fun k => vDirection (ang k))).1 h
    exact ⟨_, by unfold directions; rw [hu, hv]; rfl⟩

/-- Every cell gets a direction from 0 up to 360 degrees. -/
theorem C112_range (X Y : Nat → ℝ) (nr nc : Nat) (T : Nat → Nat → Corners) (ang : Nat → ℝ) (out : Nat → Nat → Option ℝ)
    (h : directions X Y nr nc T ang = .ok out) (r : Nat) (hr : r < nr) (c : Nat) (hc : c < nc) :
    ∃ d, out r c = some d ∧ 0 ≤ d ∧ d < 360 := by
  obtain ⟨uf, vf, h1, h2, rfl⟩ := directions_ok h
  obtain ⟨u, hu⟩ := (C88_complete X Y nr nc _ uf h1).1 r hr c hc
  obtain ⟨v, hv⟩ := (C88_complete X Y nr nc _ vf h2).1 r hr c hc
  exact ⟨azimuth u v, by simp only [hu, hv, angle], C58_range u v⟩

/-- The full claim: directions lie between the smallest and the largest angle of the file (less than half a turn apart). -/
def C112_full : Prop := ∀ (X Y : Nat → ℝ) (nr nc : Nat) (T : Nat → Nat → Corners) (ang : Nat → ℝ) (out : Nat → Nat → Option ℝ)
    (a b : ℝ), StrictMono X → StrictAnti Y → directions X Y nr nc T ang = .ok out → 0 ≤ a → b < 360 → b - a < 180 → (∀ k, a ≤ ang k ∧ ang k ≤ b) →
    ∀ r < nr, ∀ c < nc, ∀ d, out r c = some d → a ≤ d ∧ d ≤ b

/-- It holds for the cells inside the grid of the file: there the direction lies between the angles of the corners. -/
theorem C112_inside_partial (X Y : Nat → ℝ) (nr nc : Nat) (T : Nat → Nat → Corners) (ang : Nat → ℝ) (out : Nat → Nat → Option ℝ)
    (h : directions X Y nr nc T ang = .ok out) (ix iy : Nat) (he : Edges nr nc ix iy (gridInterp T ang)) (hix : ix + 2 ≤ nc)
    (hiy : iy + 2 ≤ nr) (r : Nat) (hr : r < nr) (c : Nat) (hc : c < nc) (hd : gridInterp T ang r c ≠ none) (a b : ℝ) (ha : 0 ≤ a)
    (hb : b < 360) (hab : b - a < 180) (h0 : a ≤ ang (T r c).v0 ∧ ang (T r c).v0 ≤ b) (h1 : a ≤ ang (T r c).v1 ∧ ang (T r c).v1 ≤ b)
    (h2 : a ≤ ang (T r c).v2 ∧ ang (T r c).v2 ≤ b) : ∃ d, out r c = some d ∧ a ≤ d ∧ d ≤ b := by
  obtain ⟨uf, vf, hu, hv, rfl⟩ := directions_ok h
  have key : ∀ (f : Nat → ℝ) g, fillData X Y nr nc (gridInterp T f) = .ok g → g r c = gridInterp T f r c := by
    intro f g hg
    have he' : Edges nr nc ix iy (gridInterp T f) := fun r hr c hc => by rw [interp_none T f ang]; exact he r hr c hc
    obtain ⟨e1, e2, -⟩ := C88_succeeds X Y nr nc ix iy _ he' hix hiy
    have hin : ¬ (c < ix ∨ nr - iy ≤ r) := fun hh => hd ((he r hr c hc).2 hh)
    exact (C88_complete X Y nr nc _ g hg).2 r c (by omega) (by rw [e1, e2]; omega)
  simp only [key _ _ hu, key _ _ hv]
  unfold gridInterp interpolate at hd ⊢
  simp only at hd ⊢
  by_cases hn : (T r c).a < 0 ∨ (T r c).b < 0 ∨ 1 - ((T r c).a + (T r c).b) < 0
  · rw [if_pos hn] at hd; exact absurd rfl hd
  · simp only [if_neg hn, angle]
    simp only [not_or, not_lt] at hn
    obtain ⟨n1, n2, n3⟩ := hn
    refine ⟨_, rfl, ?_⟩
    have := C58_between (Finset.univ : Finset (Fin 3)) ![(T r c).a, (T r c).b, 1 - ((T r c).a + (T r c).b)]
      ![ang (T r c).v0, ang (T r c).v1, ang (T r c).v2] a b ha hb hab (fun i _ => by fin_cases i <;> simpa) (fun i _ => by
        fin_cases i
        · exact n1
        · exact n2
        · exact n3) (by simp [Fin.sum_univ_three])
    simp only [Fin.sum_univ_three, Matrix.cons_val_zero, Matrix.cons_val_one, Matrix.cons_val] at this
    rwa [show uDirection (ang (T r c).v0) * (T r c).a + uDirection (ang (T r c).v1) * (T r c).b +
        uDirection (ang (T r c).v2) * (1 - ((T r c).a + (T r c).b)) = (T r c).a * uDirection (ang (T r c).v0) +
        (T r c).b * uDirection (ang (T r c).v1) + (1 - ((T r c).a + (T r c).b)) * uDirection (ang (T r c).v2) by ring,
      show vDirection (ang (T r c).v0) * (T r c).a + vDirection (ang (T r c).v1) * (T r c).b +
        vDirection (ang (T r c).v2) * (1 - ((T r c).a + (T r c).b)) = (T r c).a * vDirection (ang (T r c).v0) +
        (T r c).b * vDirection (ang (T r c).v1) + (1 - ((T r c).a + (T r c).b)) * vDirection (ang (T r c).v2) by ring]

theorem fill_constant (X Y : Nat → ℝ) (nr nc : Nat) (g out : Nat → Nat → Option ℝ) (w : ℝ) (hg : ∀ r c v, g r c = some v → v = w)
    (h : fillData X Y nr nc g = .ok out) (r : Nat) (hr : r < nr) (c : Nat) (hc : c < nc) : out r c = some w := by
  obtain ⟨ix, iy, -, -, -, -, ho, hn⟩ := fillData_ok h
  have ex : ∀ x0 x1 x a b v, (∀ u, a = some u → u = w) → (∀ u, b = some u → u = w) → extrapolate x0 x1 a b x = some v → v = w := by
    intro x0 x1 x a b v h1 h2 h3
    cases a with
    | none => cases h3
    | some p =>
      cases b with
      | none => cases h3
      | some q =>
        rw [h1 p rfl, h2 q rfl] at h3
        simpa [extrapolate] using h3.symm
  have hl : ∀ r c v, (if ix > 0 then fillLeft X ix g else g) r c = some v → v = w := by
    intro r c v
    by_cases hx : ix > 0
    · simp only [if_pos hx, fillLeft]
      split
      · exact ex _ _ _ _ _ _ (hg _ _) (hg _ _)
      · exact hg r c v
    · simp only [if_neg hx]; exact hg r c v
  have hb : ∀ v, out r c = some v → v = w := by
    intro v hv
    rw [ho] at hv
    by_cases hy : iy > 0
    · simp only [if_pos hy, fillBottom] at hv
      by_cases hr : nr - iy ≤ r
      · rw [if_pos hr] at hv; exact ex _ _ _ _ _ _ (hl _ _) (hl _ _) hv
      · rw [if_neg hr] at hv; exact hl r c v hv
    · simp only [if_neg hy] at hv; exact hl r c v hv
  obtain ⟨v, hv⟩ := Option.ne_none_iff_exists'.1 (hn r hr c hc)
  rw [hv, hb v hv]

theorem interp_constant (T : Nat → Nat → Corners) (f : Nat → ℝ) (w : ℝ) (hf : ∀ k, f k = w) (r c : Nat) (v : ℝ)
    (h : gridInterp T f r c = some v) : v = w := by
  unfold gridInterp interpolate at h
  simp only [hf] at h
  split at h
  · cases h
  · cases h; ring

/-- The same direction in the whole file gives this direction in every cell, also at the edges; whole turns do not matter. -/
theorem C112_constant (X Y : Nat → ℝ) (nr nc : Nat) (T : Nat → Nat → Corners) (ang : Nat → ℝ) (d : ℝ) (hd : 0 ≤ d ∧ d < 360)
    (ha : ∀ k, ∃ n : ℤ, ang k = d + n * 360) (out : Nat → Nat → Option ℝ) (h : directions X Y nr nc T ang = .ok out)
    (r : Nat) (hr : r < nr) (c : Nat) (hc : c < nc) : out r c = some d := by
  obtain ⟨uf, vf, hu, hv, rfl⟩ := directions_ok h
  have hs : ∀ k, uDirection (ang k) = uDirection d := by
    intro k
    obtain ⟨n, hn⟩ := ha k
    unfold uDirection
    rw [hn, show (d + n * 360) * Real.pi / 180 = d * Real.pi / 180 + n * (2 * Real.pi) by ring, Real.sin_add_int_mul_two_pi]
  have hc' : ∀ k, vDirection (ang k) = vDirection d := by
    intro k
    obtain ⟨n, hn⟩ := ha k
    unfold vDirection
    rw [hn, show (d + n * 360) * Real.pi / 180 = d * Real.pi / 180 + n * (2 * Real.pi) by ring, Real.cos_add_int_mul_two_pi]
  have e1 := fill_constant X Y nr nc _ uf (uDirection d) (interp_constant T _ _ hs) hu r hr c hc
  have e2 := fill_constant X Y nr nc _ vf (vDirection d) (interp_constant T _ _ hc') hv r hr c hc
  simp only [e1, e2, angle]
  have := C58_roundtrip d 1 hd one_pos
  rw [one_mul, one_mul] at this
  rw [this]

/-- Four columns and three rows; the first column lies outside the grid of the file. -/
noncomputable def outside : Nat → Nat → Corners := fun _ c => if c = 0 then ⟨0, 0, 0, -1, 1⟩ else ⟨c, c, c, 1, 0⟩

theorem outside_interp (f : Nat → ℝ) (r c : Nat) : gridInterp outside f r c = if c = 0 then none else some (f c) := by
  unfold gridInterp outside
  by_cases h : c = 0
  · simp [h, interpolate]
  · simp [h, interpolate]

theorem outside_edges (f : Nat → ℝ) : Edges 3 4 1 0 (gridInterp outside f) := by
  intro r hr c hc
  rw [outside_interp]
  by_cases h : c = 0
  · simp [h]
  · simp [h]; omega

/-- The filled image of the example. -/
theorem outside_fill (f : Nat → ℝ) : ∃ out, fillData (fun c => c) (fun r => -r) 3 4 (gridInterp outside f) = .ok out ∧
    out 0 0 = some (2 * f 1 - f 2) := by
  obtain ⟨e1, e2, out, ho⟩ := C88_succeeds (fun c => (c : ℝ)) (fun r => -(r : ℝ)) 3 4 1 0 _ (outside_edges f) (by omega) (by omega)
  obtain ⟨ix, iy, hix, -, hiy, -, ho2, -⟩ := fillData_ok ho
  rw [e1] at hix
  subst hix
  rw [e2] at hiy
  subst hiy
  refine ⟨out, ho, ?_⟩
  rw [ho2]
  simp [fillLeft, outside_interp, extrapolate]
  ring

/-- Outside the grid of the file the components are extrapolated: north wind in one column and east wind in the next give a wind from
the north-west in the column before. -/
theorem C112_extrapolated_fails : ∃ out d, directions (fun c => c) (fun r => -r) 3 4 outside (fun k => if k = 1 then 0 else 90) = .ok out ∧
    out 0 0 = some d ∧ 180 < d := by
  obtain ⟨uf, hu, hu0⟩ := outside_fill fun k => uDirection (if k = 1 then 0 else 90)
  obtain ⟨vf, hv, hv0⟩ := outside_fill fun k => vDirection (if k = 1 then 0 else 90)
  refine ⟨fun r c => angle (uf r c) (vf r c), azimuth (2 * uDirection 0 - uDirection 90) (2 * vDirection 0 - vDirection 90), ?_, ?_, ?_⟩
  · unfold directions; rw [hu, hv]; rfl
  · simp only [hu0, hv0, angle]; norm_num
  · have e1 : uDirection 0 = 0 := by simp [uDirection]
    have e2 : uDirection 90 = 1 := by
      unfold uDirection
      rw [show (90 : ℝ) * Real.pi / 180 = Real.pi / 2 by ring, Real.sin_pi_div_two]
    rw [e1, e2]
    generalize 2 * vDirection 0 - vDirection 90 = v
    obtain ⟨h1, -⟩ := C58_components (2 * 0 - 1) v
    obtain ⟨r1, r2⟩ := C58_range (2 * 0 - 1) v
    by_contra hle
    have : 0 ≤ Real.sin (azimuth (2 * 0 - 1) v * Real.pi / 180) := by
      apply Real.sin_nonneg_of_nonneg_of_le_pi
      · have := Real.pi_pos; positivity
      · have := Real.pi_pos
        rw [div_le_iff₀ (by norm_num)]
        nlinarith
    have := mul_nonneg (Real.sqrt_nonneg ((2 * 0 - 1) ^ 2 + v ^ 2)) this
    rw [← h1] at this
    norm_num at this

/-- So the full claim fails. -/
theorem C112_fails : ¬ C112_full := by
  intro h
  obtain ⟨out, d, h1, h2, h3⟩ := C112_extrapolated_fails
  have := h _ _ 3 4 _ _ out 0 90 (fun a b h => by show (a : ℝ) < b; exact_mod_cast h)
    (fun a b h => by show -(b : ℝ) < -(a : ℝ); exact neg_lt_neg (by exact_mod_cast h)) h1 le_rfl (by norm_num) (by norm_num) (fun k => by split <;> norm_num) 0
    (by norm_num) 0 (by norm_num) d h2
  linarith

/-- East wind in the whole file. -/
example : ∃ out, directions (fun c => c) (fun r => -r) 3 4 outside (fun k => 90 + (k : ℤ) * 360) = .ok out ∧ out 2 0 = some 90 := by
  obtain ⟨out, h⟩ := (C112_with_speed (fun c => c) (fun r => -r) 3 4 outside (fun k => 90 + (k : ℤ) * 360) fun _ => 1).2
    (by obtain ⟨o, h, -⟩ := outside_fill fun _ => 1; exact ⟨o, h⟩)
  exact ⟨out, h, C112_constant _ _ 3 4 _ _ 90 (by norm_num) (fun k => ⟨k, rfl⟩) out h 2 (by norm_num) 0 (by norm_num)⟩

/-! ### C113 -/

section
variable {K : Type} [Field K] [LinearOrder K] [IsStrictOrderedRing K]

/-- `p` is the centre of the cell in row `r` (from the north) and column `c` of a grid whose lower left corner is `(xll, yll)`. -/
def Centre (xll yll size : K) (nrows r c : Nat) (p : K × K) : Prop :=
  p.1 - (xll + size * c) = xll + size * (c + 1) - p.1 ∧
  p.2 - (yll + size * (nrows - (r + 1))) = yll + size * (nrows - r) - p.2

/-- A head of six lines with the given values, in any order. -/
structure Head (toInt : String → Option Int) (toFloat : String → Option K) (head : List (List String)) (ncols nrows : Nat)
    (xll yll size : K) : Prop where
  six : head.length = 6
  pairs : ∀ line ∈ head, ∃ k v, line = [k, v]
  distinct : (head.map List.head?).Nodup
  ncols : ∃ s, ["ncols", s] ∈ head ∧ toInt s = some (ncols : Int)
  nrows : ∃ s, ["nrows", s] ∈ head ∧ toInt s = some (nrows : Int)
  size : ∃ s, ["cellsize", s] ∈ head ∧ toFloat s = some size
  xll : ∃ s, ["xllcorner", s] ∈ head ∧ toFloat s = some xll
  yll : ∃ s, ["yllcorner", s] ∈ head ∧ toFloat s = some yll

/-- The dictionary of a list of lines. -/
def dict (lines : List (List String)) (d : List (String × String)) : List (String × String) :=
  lines.foldl (fun d l => match l with | k :: v :: _ => setKey d k v | _ => d) d

theorem readHead_six (lines rest : List (List String)) (idl : Nat) (d : List (String × String)) (hl : lines.length + idl = 6)
    (hi : idl ≤ 5) (h : ∀ line ∈ lines, ∃ k v, line = [k, v]) : readHead idl (lines ++ rest) d = .ok (dict lines d) := by
  induction lines generalizing idl d with
  | nil => simp at hl; omega
  | cons l ls ih =>
    obtain ⟨k, v, rfl⟩ := h l (by simp)
    simp only [List.length_cons] at hl
    simp only [List.cons_append, readHead]
    by_cases h5 : 5 ≤ idl
    · have : ls = [] := List.eq_nil_of_length_eq_zero (by omega)
      subst this
      rw [if_pos h5]; rfl
    · rw [if_neg h5]
      exact ih (idl + 1) (setKey d k v) (by omega) (by omega) fun line hm => h line (by simp [hm])

theorem dict_lookup (lines : List (List String)) (d : List (String × String)) (h : ∀ line ∈ lines, ∃ k v, line = [k, v])
    (hd : (lines.map List.head?).Nodup) (k v : String) (hm : [k, v] ∈ lines) : (dict lines d).lookup k = some v := by
  have skip : ∀ (ls : List (List String)) (d : List (String × String)), (∀ line ∈ ls, ∃ k v, line = [k, v]) →
      some k ∉ ls.map List.head? → (dict ls d).lookup k = d.lookup k := by
    intro ls
    induction ls with
    | nil => intro d _ _; rfl
    | cons l ls ih =>
      intro d h hn
      obtain ⟨k', v', rfl⟩ := h l (by simp)
      simp only [List.map_cons, List.head?_cons, List.mem_cons, not_or] at hn
      show (dict ls (setKey d k' v')).lookup k = _
      rw [ih (setKey d k' v') (fun line hm => h line (by simp [hm])) hn.2]
      unfold setKey
      rw [List.lookup_cons]
      have : (k == k') = false := by
        rw [beq_eq_false_iff_ne]; intro e; exact hn.1 (by rw [e])
      rw [this]
  induction lines generalizing d with
  | nil => cases hm
  | cons l ls ih =>
    obtain ⟨k', v', rfl⟩ := h l (by simp)
    simp only [List.map_cons, List.nodup_cons] at hd
    show (dict ls (setKey d k' v')).lookup k = _
    rcases List.mem_cons.1 hm with e | e
    · cases e
      rw [skip ls _ (fun line hm => h line (by simp [hm])) hd.1]
      unfold setKey
      rw [List.lookup_cons, beq_self_eq_true]
    · exact ih (setKey d k' v') (fun line hm => h line (by simp [hm])) hd.2 e

omit [LinearOrder K] [IsStrictOrderedRing K] in
theorem ascStats_head {toInt : String → Option Int} {toFloat : String → Option K} {head : List (List String)} {ncols nrows : Nat}
    {xll yll size : K} (h : Head toInt toFloat head ncols nrows xll yll size) (rest : List (List String)) :
    ascStats toInt toFloat (head ++ rest) = .ok ⟨ncols, nrows, fun c => xll + size * c + size / 2,
      fun r => yll + size * (nrows - 1 - r : Nat) + size / 2⟩ := by
  obtain ⟨s1, m1, e1⟩ := h.ncols
  obtain ⟨s2, m2, e2⟩ := h.nrows
  obtain ⟨s3, m3, e3⟩ := h.size
  obtain ⟨s4, m4, e4⟩ := h.xll
  obtain ⟨s5, m5, e5⟩ := h.yll
  have look : ∀ k v, [k, v] ∈ head → (dict head []).lookup k = some v := fun k v => dict_lookup head [] h.pairs h.distinct k v
  unfold ascStats
  rw [readHead_six head rest 0 [] (by rw [h.six]) (by omega) h.pairs]
  simp only [Except.bind, number, look _ _ m1, look _ _ m2, look _ _ m3, look _ _ m4, look _ _ m5, e1, e2, e3, e4, e5, Int.toNat_natCast]

omit [LinearOrder K] [IsStrictOrderedRing K] in
theorem points_get (s : Stats K) (r c : Nat) (hr : r < s.ny) (hc : c < s.nx) : (points s)[r * s.nx + c]? = some (s.x c, s.y r) := by
  have key : ∀ (l : List Nat) r j, l[r]? = some j → (l.flatMap fun r => (List.range s.nx).map fun c => (s.x c, s.y r))[r * s.nx + c]? =
      some (s.x c, s.y j) := by
    intro l
    induction l with
    | nil => intro r j h; simp at h
    | cons q l ih =>
      intro r j h
      cases r with
      | zero =>
        simp only [List.getElem?_cons_zero, Option.some.injEq] at h
        subst h
        rw [List.flatMap_cons, List.getElem?_append_left (by simp; omega)]
        simp [hc]
      | succ r =>
        simp only [List.getElem?_cons_succ] at h
        rw [List.flatMap_cons, List.getElem?_append_right (by simp; nlinarith)]
        rw [← ih r j h]
        congr 1
        simp
        rw [Nat.add_mul]
        omega
  exact key (List.range s.ny) r r (by simp [hr])

theorem flatten_get {A : Type} (rows : List (List A)) (n r c : Nat) (hn : ∀ row ∈ rows, row.length = n) (hc : c < n) :
    rows.flatten[r * n + c]? = (rows[r]?).bind fun row => row[c]? := by
  induction rows generalizing r with
  | nil => simp
  | cons row rows ih =>
    have hl := hn row (by simp)
    cases r with
    | zero => rw [List.flatten_cons, List.getElem?_append_left (by omega)]; simp
    | succ r =>
      rw [List.flatten_cons, List.getElem?_append_right (by rw [hl]; nlinarith), List.getElem?_cons_succ,
        ← ih r fun row hm => hn row (by simp [hm])]
      congr 1
      rw [hl, Nat.add_mul]
      omega

/-- Each value of the file is used at the centre of its cell: place `r * ncols + c` of the list of values holds the value in row `r`
and column `c` of the file and the same place of the list of points the centre of that cell, whatever the order of the head. Missing:
the other heads that the format allows, of five lines or with the centre of the lower left cell. -/
theorem C113_partial (toInt : String → Option Int) (toFloat : String → Option K) (head rows : List (List String)) (ncols nrows : Nat)
    (xll yll size : K) (h : Head toInt toFloat head ncols nrows xll yll size) (hr : rows.length = nrows)
    (hc : ∀ row ∈ rows, row.length = ncols) : ∃ s, ascStats toInt toFloat (head ++ rows) = .ok s ∧
      (points s).length = (values (head ++ rows)).length ∧ ∀ r c v, (rows[r]?).bind (fun row => row[c]?) = some v →
        (values (head ++ rows))[r * ncols + c]? = some v ∧
        ∃ p, (points s)[r * ncols + c]? = some p ∧ Centre xll yll size nrows r c p := by
  refine ⟨_, ascStats_head h rows, ?_, fun r c v hv => ?_⟩
  · have : (values (head ++ rows)) = rows.flatten := by
      unfold values
      rw [List.drop_append, h.six]
      simp [List.drop_eq_nil_of_le h.six.le]
    rw [this, List.length_flatten, points, List.length_flatMap]
    simp only [List.length_map, List.length_range]
    rw [List.map_congr_left (g := fun _ => ncols) hc]
    simp [hr]
  · obtain ⟨row, e1, e2⟩ := Option.bind_eq_some_iff.1 hv
    have hrow : row.length = ncols := hc row (List.mem_of_getElem? e1)
    have hcl : c < ncols := by rw [← hrow]; exact (List.getElem?_eq_some_iff.1 e2).1
    have hrl : r < nrows := by rw [← hr]; exact (List.getElem?_eq_some_iff.1 e1).1
    constructor
    · unfold values
      rw [List.drop_append, h.six]
      simp only [List.drop_eq_nil_of_le h.six.le, Nat.sub_self, List.drop_zero, List.nil_append]
      rw [flatten_get rows ncols r c hc hcl, hv]
    · refine ⟨_, points_get _ r c hrl hcl, ?_, ?_⟩
      · show xll + size * c + size / 2 - (xll + size * c) = xll + size * (c + 1) - (xll + size * c + size / 2)
        ring
      · have : ((nrows - 1 - r : Nat) : K) = nrows - 1 - r := by
          rw [Nat.cast_sub (by omega), Nat.cast_sub (by omega)]; simp
        show yll + size * (nrows - 1 - r : Nat) + size / 2 - (yll + size * (nrows - (r + 1))) =
          yll + size * (nrows - r) - (yll + size * (nrows - 1 - r : Nat) + size / 2)
        rw [this]
        ring

/-- A head of five lines, without the optional value for missing data: the first row of the file is lost, and each remaining value
is taken for the one a row further north. -/
theorem C113_short_fails (head rows : List (List String)) (ncols : Nat) (h5 : head.length = 5)
    (hc : ∀ row ∈ rows, row.length = ncols) (r c : Nat) (hcl : c < ncols) :
    (values (head ++ rows))[r * ncols + c]? = (rows[r + 1]?).bind fun row => row[c]? := by
  unfold values
  rw [List.drop_append, h5, List.drop_eq_nil_of_le (by omega), List.nil_append]
  show (rows.drop 1).flatten[r * ncols + c]? = _
  rw [flatten_get (rows.drop 1) ncols r c (fun row hm => hc row (List.mem_of_mem_drop hm)) hcl, List.getElem?_drop, Nat.add_comm 1 r]

/-- The other form of the head, with the centre of the lower left cell, is not read. -/
theorem C113_centre_fails (toInt : String → Option Int) (toFloat : String → Option K) (lines : List (List String))
    (h : ∀ l ∈ lines, l.head? ≠ some "xllcorner") : ∀ s, ascStats toInt toFloat lines ≠ .ok s := by
  have hk : ∀ (lines : List (List String)) idl d d', (∀ l ∈ lines, l.head? ≠ some "xllcorner") → d.lookup "xllcorner" = none →
      readHead idl lines d = .ok d' → d'.lookup "xllcorner" = none := by
    intro lines
    induction lines with
    | nil => intro idl d d' _ h0 e; cases e; exact h0
    | cons l ls ih =>
      intro idl d d' h h0 e
      have hl := h l (by simp)
      have hset : ∀ k v, l.head? = some k → (setKey d k v).lookup "xllcorner" = none := by
        intro k v hk
        unfold setKey
        rw [List.lookup_cons]
        have : ("xllcorner" == k) = false := by
          rw [beq_eq_false_iff_ne]; rintro rfl; exact hl hk
        rw [this]; exact h0
      unfold readHead at e
      split at e
      · split at e
        · cases e; exact hset _ _ rfl
        · exact ih _ _ _ (fun l hm => h l (by simp [hm])) (hset _ _ rfl) e
      · cases e
  intro s e
  unfold ascStats at e
  cases hr : readHead 0 lines [] with
  | error x => rw [hr] at e; cases e
  | ok d =>
    have hd := hk lines 0 [] d h rfl hr
    rw [hr] at e
    have hx : number toFloat d "xllcorner" = .error .key := by unfold number; rw [hd]
    simp only [Except.bind, hx] at e
    repeat' split at e
    all_goals cases e

/-- Conversions that are enough for the example. -/
def digitsInt (s : String) : Option Int := if s = "2" then some 2 else none

/-- Conversions that are enough for the example. -/
def digitsRat (s : String) : Option ℚ := if s = "2" then some 2 else if s = "10" then some 10 else if s = "0" then some 0 else none

/-- The head of a file of two rows and two columns. -/
def sampleHead : List (List String) := [["ncols", "2"], ["nrows", "2"], ["xllcorner", "0"], ["yllcorner", "10"], ["cellsize", "2"],
  ["NODATA_value", "-9999"]]

theorem sample_head : Head digitsInt digitsRat sampleHead 2 2 0 10 2 where
  six := rfl
  pairs := by simp [sampleHead]
  distinct := by decide
  ncols := ⟨"2", by simp [sampleHead], by decide⟩
  nrows := ⟨"2", by simp [sampleHead], by decide⟩
  size := ⟨"2", by simp [sampleHead], by decide⟩
  xll := ⟨"0", by simp [sampleHead], by decide⟩
  yll := ⟨"10", by simp [sampleHead], by decide⟩

/-- The short head of `C113_short_fails` is accepted. -/
example : ∃ s, ascStats digitsInt digitsRat (sampleHead.take 5 ++ [["a", "b"], ["c", "d"]]) = .ok s := ⟨_, rfl⟩

/-- The north-east value of the file is used at `(3, 13)`. -/
example : ∃ s, ascStats digitsInt digitsRat (sampleHead ++ [["a", "b"], ["c", "d"]]) = .ok s ∧
    (values (sampleHead ++ [["a", "b"], ["c", "d"]]))[1]? = some "b" ∧ (points s)[1]? = some (3, 13) := by
  refine ⟨_, ascStats_head sample_head _, rfl, ?_⟩
  have := points_get (K := ℚ) ⟨2, 2, fun c => 0 + 2 * (c : ℚ) + 2 / 2, fun r => 10 + 2 * ((2 - 1 - r : Nat) : ℚ) + 2 / 2⟩ 0 1 (by simp) (by simp)
  simp only [Nat.zero_mul, Nat.zero_add] at this
  rw [this]
  norm_num

end

/-! ### C114 -/

open Verif.Calendar

theorem digit_inj : ∀ a < 10, ∀ b < 10, Nat.digitChar a = Nat.digitChar b → a = b := by decide

theorem two_inj (a b : Nat) (ha : a < 100) (hb : b < 100) (h : two a = two b) : a = b := by
  unfold two at h
  simp only [List.cons.injEq, and_true] at h
  have h1 := digit_inj _ (Nat.mod_lt _ (by norm_num)) _ (Nat.mod_lt _ (by norm_num)) h.1
  have h2 := digit_inj _ (Nat.mod_lt _ (by norm_num)) _ (Nat.mod_lt _ (by norm_num)) h.2
  omega

theorem four_inj (a b : Nat) (ha : a < 10000) (hb : b < 10000) (h : four a = four b) : a = b := by
  unfold four at h
  have hl : (two (a / 100)).length = (two (b / 100)).length := rfl
  obtain ⟨h1, h2⟩ := List.append_inj h hl
  have := two_inj _ _ (by omega) (by omega) h1
  have := two_inj _ _ (by omega) (by omega) h2
  omega

/-- A clock with valid date and time of day and a year of four digits. -/
def Clock (d : DT) : Prop := d.Valid ∧ 1000 ≤ d.year ∧ d.year < 10000

theorem clock_bounds (d : DT) (h : Clock d) : d.month < 100 ∧ d.day < 100 ∧ d.sec < 86400 := by
  obtain ⟨⟨-, ⟨n, hm, h1, h2⟩, h3⟩, -⟩ := h
  generalize d.month = m at hm ⊢
  generalize d.day = k at h1 h2 ⊢
  refine ⟨?_, ?_, h3⟩
  · cases hm <;> simp_all <;> omega
  · cases hm <;> omega

/-- Two steps read the same file exactly when the clock of SMRF shows the same day and the clock of WindNinja the same minute. -/
theorem C114_same_file (dir pref dxy kind : List Char) (d e t u : DT) (hd : Clock d) (he : Clock e) (ht : Clock t) (hu : Clock u) :
    path dir pref dxy kind d (some t) = path dir pref dxy kind e (some u) ↔
      (d.year = e.year ∧ d.month = e.month ∧ d.day = e.day) ∧
      (t.year = u.year ∧ t.month = u.month ∧ t.day = u.day) ∧ t.sec / 60 = u.sec / 60 := by
  obtain ⟨d1, d2, d3⟩ := clock_bounds d hd
  obtain ⟨e1, e2, e3⟩ := clock_bounds e he
  obtain ⟨t1, t2, t3⟩ := clock_bounds t ht
  obtain ⟨u1, u2, u3⟩ := clock_bounds u hu
  constructor
  · intro h
    simp only [path, Option.map_some, Option.some.injEq, Prod.mk.injEq] at h
    obtain ⟨h1, h2⟩ := h
    rw [List.append_left_inj, List.append_right_inj] at h1
    simp only [List.append_left_inj, List.append_right_inj] at h2
    unfold dayName at h1
    unfold timeName at h2
    obtain ⟨h1, h3⟩ := List.append_inj h1 rfl
    obtain ⟨h1, h4⟩ := List.append_inj h1 rfl
    obtain ⟨h2, a1⟩ := List.append_inj h2 rfl
    obtain ⟨h2, a2⟩ := List.append_inj h2 rfl
    rw [List.append_left_inj] at h2
    obtain ⟨h2, a3⟩ := List.append_inj h2 rfl
    rw [List.append_left_inj] at h2
    obtain ⟨h2, a4⟩ := List.append_inj h2 rfl
    rw [List.append_left_inj] at h2
    have b1 := two_inj _ _ (by omega) (by omega) a1
    have b2 := two_inj _ _ (by omega) (by omega) a2
    refine ⟨⟨four_inj _ _ hd.2.2 he.2.2 h1, two_inj _ _ d1 e1 h4, two_inj _ _ d2 e2 h3⟩,
      ⟨four_inj _ _ ht.2.2 hu.2.2 a3, two_inj _ _ t1 u1 h2, two_inj _ _ t2 u2 a4⟩, ?_⟩
    omega
  · rintro ⟨⟨h1, h2, h3⟩, ⟨g1, g2, g3⟩, g4⟩
    have g5 : t.sec / 3600 = u.sec / 3600 := by omega
    have k1 : dayName d = dayName e := by unfold dayName; rw [h1, h2, h3]
    have k2 : timeName t = timeName u := by unfold timeName; rw [g1, g2, g3, g4, g5]
    unfold path
    rw [k1]
    simp only [Option.map_some, k2]

/-- The number that digits stand for. -/
def num (l : List Char) : Nat := l.foldl (fun n c => 10 * n + (c.toNat - 48)) 0

theorem num_two (a : Nat) (h : a < 100) : num (two a) = a := by
  have hd : ∀ k < 10, (Nat.digitChar k).toNat - 48 = k := by decide
  unfold num two
  simp only [List.foldl_cons, List.foldl_nil]
  rw [hd _ (Nat.mod_lt _ (by norm_num)), hd _ (Nat.mod_lt _ (by norm_num))]
  omega

theorem num_four (a : Nat) (h : a < 10000) : num (four a) = a := by
  have hd : ∀ k < 10, (Nat.digitChar k).toNat - 48 = k := by decide
  unfold num four two
  simp only [List.cons_append, List.nil_append, List.foldl_cons, List.foldl_nil]
  rw [hd _ (Nat.mod_lt _ (by norm_num)), hd _ (Nat.mod_lt _ (by norm_num)), hd _ (Nat.mod_lt _ (by norm_num)),
    hd _ (Nat.mod_lt _ (by norm_num))]
  omega

/-- The folder is named by the day of the clock of SMRF, the file by day, hour and minute of the clock of WindNinja. -/
theorem C114_name (dir pref dxy kind : List Char) (d t : DT) (hd : Clock d) (ht : Clock t) :
    ∃ y m a mo da ye ho mi, path dir pref dxy kind d (some t) =
        some (dir ++ "/data".toList ++ (y ++ m ++ a) ++ "/wind_ninja_data".toList,
          pref ++ ['_'] ++ (mo ++ ['-'] ++ da ++ ['-'] ++ ye ++ ['_'] ++ ho ++ mi) ++ ['_'] ++ dxy ++ "m_".toList ++ kind ++ ".asc".toList) ∧
      (y.length = 4 ∧ m.length = 2 ∧ a.length = 2 ∧ mo.length = 2 ∧ da.length = 2 ∧ ye.length = 4 ∧ ho.length = 2 ∧ mi.length = 2) ∧
      (num y = d.year ∧ num m = d.month ∧ num a = d.day) ∧ (num ye = t.year ∧ num mo = t.month ∧ num da = t.day) ∧
      num ho * 3600 + num mi * 60 ≤ t.sec ∧ t.sec < num ho * 3600 + num mi * 60 + 60 ∧ num mi < 60 := by
  obtain ⟨d1, d2, d3⟩ := clock_bounds d hd
  obtain ⟨t1, t2, t3⟩ := clock_bounds t ht
  refine ⟨four d.year, two d.month, two d.day, two t.month, two t.day, four t.year, two (t.sec / 3600), two (t.sec / 60 % 60), rfl,
    ⟨rfl, rfl, rfl, rfl, rfl, rfl, rfl, rfl⟩, ⟨num_four _ hd.2.2, num_two _ d1, num_two _ d2⟩,
    ⟨num_four _ ht.2.2, num_two _ t1, num_two _ t2⟩, ?_⟩
  rw [num_two _ (by omega), num_two _ (by omega)]
  omega

/-- Different kinds of data are in different files. -/
theorem C114_kinds (dir pref dxy : List Char) (d t : DT) :
    path dir pref dxy "vel".toList d (some t) ≠ path dir pref dxy "ang".toList d (some t) := by
  intro h
  simp only [path, Option.map_some, Option.some.injEq, Prod.mk.injEq, List.append_left_inj, List.append_right_inj] at h
  exact absurd h.2 (by decide)

/-- A clock of a time zone with offset `off` (in seconds, a function of the instant) shows `d` at the instant `t`. -/
def Shows (off : Int → Int) (t : Int) (d : DT) : Prop := Clock d ∧ d.instant = t + off t

/-- The full claim: steps at least a minute apart read different files. -/
def C114_full : Prop := ∀ (off offW : Int → Int) (dir pref dxy kind : List Char) (t t' : Int) (d d' w w' : DT),
  Shows off t d → Shows off t' d' → Shows offW t w → Shows offW t' w' → 60 ≤ t' - t →
    path dir pref dxy kind d (some w) ≠ path dir pref dxy kind d' (some w')

/-- It holds if the offset of the time zone of WindNinja is the same at both instants. -/
theorem C114_partial (off offW : Int → Int) (dir pref dxy kind : List Char) (t t' : Int) (d d' w w' : DT) (hd : Shows off t d)
    (hd' : Shows off t' d') (hw : Shows offW t w) (hw' : Shows offW t' w') (ho : offW t = offW t') (ht : 60 ≤ t' - t) :
    path dir pref dxy kind d (some w) ≠ path dir pref dxy kind d' (some w') := by
  intro h
  obtain ⟨-, ⟨g1, g2, g3⟩, g4⟩ := (C114_same_file dir pref dxy kind d d' w w' hd.1 hd'.1 hw.1 hw'.1).1 h
  have e1 := hw.2
  have e2 := hw'.2
  unfold DT.instant at e1 e2
  rw [g1, g2, g3] at e1
  omega

/-- Without a time zone for WindNinja there is no file. -/
example (dir pref dxy kind : List Char) (d : DT) : path dir pref dxy kind d none = none := rfl

/-- In the hour that is repeated at the end of summer time both steps read the same file: 08:00 and 09:00 UTC on 1 November 2020 are
both 01:00 in Los Angeles. -/
theorem C114_summer_time_fails : ¬ C114_full := by
  intro h
  have hv : Calendar.Valid 2020 11 1 := ⟨30, .short 11 (by decide), by norm_num, by norm_num⟩
  have hc : ∀ s, s < 86400 → Clock ⟨2020, 11, 1, s⟩ := fun s hs => ⟨⟨by norm_num, hv, hs⟩, by norm_num, by norm_num⟩
  refine h (fun _ => 0) (fun t => if t < (⟨2020, 11, 1, 32400⟩ : DT).instant then -25200 else -28800) [] [] [] []
    (⟨2020, 11, 1, 28800⟩ : DT).instant (⟨2020, 11, 1, 32400⟩ : DT).instant ⟨2020, 11, 1, 28800⟩ ⟨2020, 11, 1, 32400⟩
    ⟨2020, 11, 1, 3600⟩ ⟨2020, 11, 1, 3600⟩ ⟨hc _ (by norm_num), by simp⟩ ⟨hc _ (by norm_num), by simp⟩
    ⟨hc _ (by norm_num), by decide +kernel⟩ ⟨hc _ (by norm_num), by decide +kernel⟩ (by decide +kernel) ?_
  rfl

/-- Midnight and one o'clock in one time zone read different files. -/
example : path [] [] [] [] ⟨2020, 1, 1, 0⟩ (some ⟨2020, 1, 1, 0⟩) ≠ path [] [] [] [] ⟨2020, 1, 1, 3600⟩ (some ⟨2020, 1, 1, 3600⟩) := by
  have hv : Calendar.Valid 2020 1 1 := ⟨31, .long 1 (by decide), by norm_num, by norm_num⟩
  have hc : ∀ s, s < 86400 → Clock ⟨2020, 1, 1, s⟩ := fun s hs => ⟨⟨by norm_num, hv, hs⟩, by norm_num, by norm_num⟩
  exact C114_partial (fun _ => 0) (fun _ => 0) _ _ _ _ (⟨2020, 1, 1, 0⟩ : DT).instant (⟨2020, 1, 1, 3600⟩ : DT).instant _ _ _ _
    ⟨hc _ (by norm_num), by simp⟩ ⟨hc _ (by norm_num), by simp⟩ ⟨hc _ (by norm_num), by simp⟩ ⟨hc _ (by norm_num), by simp⟩ rfl
    (by decide +kernel)

end Verif.NinjaDir
