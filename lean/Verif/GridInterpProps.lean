import Verif.GridInterp
import Verif.IdwProps
import Verif.TopoProps
import Mathlib.Algebra.BigOperators.Group.Finset.Basic
import Mathlib.Algebra.BigOperators.Ring.Finset
import Mathlib.Algebra.BigOperators.Fin
import Mathlib.Tactic.LinearCombination
import Mathlib.Tactic.NormNum

/-! C98, C99: gridded interpolation with an elevation trend, and the configured trend. -/

namespace Verif.GridInterp

open Verif.Idw (Allowed LeastSquares constrain Station Cell)
open scoped BigOperators

/-! ### C98 -/

/-- The interpolator is a weighted mean with weights `w` at the target (barycentric weights for `linear`, a single one for
`nearest`). -/
structure Mean {n : Nat} (J : Interp n) (w : Fin n → ℝ) : Prop where
  value : ∀ v, J v = some (∑ i, w i * v i)
  one : ∑ i, w i = 1

/-- The slope that may be used for the points: the least-squares slope if the flag allows its sign, none otherwise. -/
def Slope (fit : List (ℝ × ℝ) → ℝ × ℝ) (flag : Int) (pts : List (ℝ × ℝ)) (s : ℝ) : Prop :=
  (Allowed flag (fit pts).1 ∧ s = (fit pts).1) ∨ (¬ Allowed flag (fit pts).1 ∧ s = 0)

theorem constrain_slope (fit : List (ℝ × ℝ) → ℝ × ℝ) (flag : Int) (pts : List (ℝ × ℝ)) :
    Slope fit flag pts (constrain flag (fit pts)).1 ∧
    (¬ Allowed flag (fit pts).1 → constrain flag (fit pts) = (0, 0)) := by
  by_cases h : Allowed flag (fit pts).1
  · refine ⟨Or.inl ⟨h, ?_⟩, fun hn => absurd h hn⟩
    rw [Idw.constrain_allowed flag _ h]
  · have h0 : constrain flag (fit pts) = (0, 0) := by
      unfold constrain
      by_cases h1 : flag = 1 ∧ (fit pts).1 < 0
      · rw [if_pos h1]
      · rw [if_neg h1]
        by_cases h2 : flag = -1 ∧ 0 < (fit pts).1
        · rw [if_pos h2]
        · exact absurd ⟨fun e => not_lt.1 fun hlt => h1 ⟨e, hlt⟩, fun e => not_lt.1 fun hlt => h2 ⟨e, hlt⟩⟩ h
    exact ⟨Or.inr ⟨h, by rw [h0]⟩, fun _ => h0⟩

theorem slope_allowed (fit : List (ℝ × ℝ) → ℝ × ℝ) (flag : Int) (pts : List (ℝ × ℝ)) (s : ℝ)
    (h : Slope fit flag pts s) : Allowed flag s := by
  rcases h with ⟨h1, rfl⟩ | ⟨-, rfl⟩
  · exact h1
  · exact ⟨fun _ => le_refl _, fun _ => le_refl _⟩

/-- C98, one trend: the result is the interpolated value, moved along the slope from the interpolated elevation of the data
to the elevation of the target. The slope is fitted to the cells in the mask. -/
theorem C98_mask_value {n : Nat} (fit : List (ℝ × ℝ) → ℝ × ℝ) (flag : Int) (I : Method → Interp n) (m : Method)
    (z d w : Fin n → ℝ) (mask : Fin n → Bool) (Z : ℝ) (hI : Mean (I m) w) (hm : ∃ i, mask i = true) :
    ∃ s, Slope fit flag (((List.finRange n).filter mask).map fun i => (z i, d i)) s ∧ Allowed flag s ∧
      interpMask fit flag I m z d mask Z = .ok (some (∑ i, w i * d i + s * (Z - ∑ i, w i * z i))) := by
  obtain ⟨h1, -⟩ := constrain_slope fit flag (maskPoints z d mask)
  refine ⟨_, h1, slope_allowed _ _ _ _ h1, ?_⟩
  have hne : maskPoints z d mask ≠ [] := by
    obtain ⟨i, hi⟩ := hm
    unfold maskPoints
    intro h
    rw [List.map_eq_nil_iff, List.filter_eq_nil_iff] at h
    exact h i (List.mem_finRange i) hi
  unfold interpMask
  rw [if_neg hne]
  simp only
  generalize constrain flag (fit (maskPoints z d mask)) = pv
  rw [hI.value, Option.map_some]
  congr 2
  have e : ∑ i, w i * (d i - (z i * pv.1 + pv.2)) =
      ∑ i, w i * d i - pv.1 * ∑ i, w i * z i - pv.2 * ∑ i, w i := by
    rw [Finset.mul_sum, Finset.mul_sum, ← Finset.sum_sub_distrib, ← Finset.sum_sub_distrib]
    exact Finset.sum_congr rfl fun i _ => by ring
  rw [e, hI.one]; ring

/-- C98, one trend: values that are linear in the elevation are reproduced at every target, whatever the weights, if two
cells in the mask have different elevations. -/
theorem C98_mask_affine {n : Nat} (fit : List (ℝ × ℝ) → ℝ × ℝ) (hf : LeastSquares fit) (flag : Int)
    (I : Method → Interp n) (m : Method) (z d w : Fin n → ℝ) (mask : Fin n → Bool) (Z a b : ℝ) (hI : Mean (I m) w)
    (hd : ∀ i, d i = a * z i + b) (ha : Allowed flag a)
    (h2 : ∃ i j, mask i = true ∧ mask j = true ∧ z i ≠ z j) :
    interpMask fit flag I m z d mask Z = .ok (some (a * Z + b)) := by
  obtain ⟨i, j, hi, hj, hz⟩ := h2
  obtain ⟨s, hs, -, he⟩ := C98_mask_value fit flag I m z d w mask Z hI ⟨i, hi⟩
  have hmem : ∀ i, mask i = true → (z i, d i) ∈ ((List.finRange n).filter mask).map fun i => (z i, d i) :=
    fun i hi => List.mem_map.2 ⟨i, List.mem_filter.2 ⟨List.mem_finRange i, hi⟩, rfl⟩
  have hfit := Idw.fit_exact fit hf (((List.finRange n).filter mask).map fun i => (z i, d i)) a b
    (fun q hq => by obtain ⟨k, -, rfl⟩ := List.mem_map.1 hq; exact hd k) _ _ (hmem i hi) (hmem j hj) hz
  have hsa : s = a := by
    rcases hs with ⟨-, h⟩ | ⟨h, -⟩
    · rw [h, hfit]
    · rw [hfit] at h; exact absurd ha h
  rw [he, hsa]
  congr 2
  have e : ∑ i, w i * d i = a * ∑ i, w i * z i + b * ∑ i, w i := by
    rw [Finset.mul_sum, Finset.mul_sum, ← Finset.sum_add_distrib]
    exact Finset.sum_congr rfl fun i _ => by rw [hd i]; ring
  rw [e, hI.one]; ring

/-- C98, one trend: a rejected trend leaves the plain interpolation, with any interpolator. -/
theorem C98_mask_rejected {n : Nat} (fit : List (ℝ × ℝ) → ℝ × ℝ) (flag : Int) (I : Method → Interp n) (m : Method)
    (z d : Fin n → ℝ) (mask : Fin n → Bool) (Z : ℝ) (hm : ∃ i, mask i = true)
    (h : ¬ Allowed flag (fit (((List.finRange n).filter mask).map fun i => (z i, d i))).1) :
    interpMask fit flag I m z d mask Z = .ok (I m d) := by
  have h0 := (constrain_slope fit flag (maskPoints z d mask)).2 h
  have hne : maskPoints z d mask ≠ [] := by
    obtain ⟨i, hi⟩ := hm
    unfold maskPoints
    intro h
    rw [List.map_eq_nil_iff, List.filter_eq_nil_iff] at h
    exact h i (List.mem_finRange i) hi
  unfold interpMask
  rw [if_neg hne]
  simp only [h0, mul_zero, add_zero, sub_zero, zero_mul]
  cases I m d <;> rfl

/-- C98, one trend: the mask of a data cell is the mask of the grid at a pixel whose column is nearest in x and whose row is
nearest in y. -/
theorem C98_mask_pixel (X Y : List ℝ) (mask : Nat → Nat → Bool) (x y : ℝ) :
    ((maskAt X Y mask x y).isSome ↔ X ≠ [] ∧ Y ≠ []) ∧
    ∀ b, maskAt X Y mask x y = some b → ∃ (xi yi : Nat) (px py : ℝ), X[xi]? = some px ∧ Y[yi]? = some py ∧
      b = mask yi xi ∧ (∀ q ∈ X, |px - x| ≤ |q - x|) ∧ (∀ q ∈ Y, |py - y| ≤ |q - y|) := by
  have key : ∀ (V : List ℝ) (a : ℝ), V ≠ [] → ∃ k p, Topo.argmin (V.map fun v => |v - a|) = some k ∧
      V[k]? = some p ∧ ∀ q ∈ V, |p - a| ≤ |q - a| := by
    intro V a hV
    obtain ⟨k, b, h1, h2, h3, -⟩ := Topo.argmin_spec (V.map fun v => |v - a|) (by simpa using hV)
    rw [List.getElem?_map] at h2
    obtain ⟨p, hp, rfl⟩ := Option.map_eq_some_iff.1 h2
    exact ⟨k, p, h1, hp, fun q hq => by
      obtain ⟨i, hi⟩ := List.mem_iff_getElem?.1 hq
      exact h3 i _ (by rw [List.getElem?_map, hi]; rfl)⟩
  by_cases hX : X = []
  · subst hX
    refine ⟨by simp [maskAt, Topo.argmin], fun b h => by simp [maskAt, Topo.argmin] at h⟩
  · obtain ⟨xi, px, k1, k2, k3⟩ := key X x hX
    by_cases hY : Y = []
    · subst hY
      refine ⟨by simp [maskAt, Topo.argmin, k1], fun b h => by simp [maskAt, Topo.argmin, k1] at h⟩
    · obtain ⟨yi, py, l1, l2, l3⟩ := key Y y hY
      have e : maskAt X Y mask x y = some (mask yi xi) := by
        unfold maskAt
        rw [k1, l1]; rfl
      rw [e]
      refine ⟨by simp [hX, hY], fun b h => ?_⟩
      exact ⟨xi, yi, px, py, k2, l2, (Option.some.inj h).symm, k3, l3⟩

/-- `sort_values`: a permutation in which the values do not decrease. -/
def Sorts {n : Nat} (order : (Fin n → ℝ) → List (Fin n)) : Prop :=
  ∀ f, (order f).Perm (List.finRange n) ∧ (order f).Pairwise fun i j => f i ≤ f j

theorem degDist_self {n : Nat} (lat lon : Fin n → ℝ) (i : Fin n) : degDist lat lon i i = 0 := by
  unfold degDist; simp

theorem degDist_zero {n : Nat} (lat lon : Fin n → ℝ) (i j : Fin n) (h : degDist lat lon i j ≤ 0) :
    lat j = lat i ∧ lon j = lon i := by
  unfold degDist at h
  have h0 : (lat j - lat i) ^ 2 + (lon j - lon i) ^ 2 ≤ 0 := Real.sqrt_eq_zero'.1 (le_antisymm h (Real.sqrt_nonneg _))
  have h1 := sq_nonneg (lat j - lat i)
  have h2 := sq_nonneg (lon j - lon i)
  have h3 : (lat j - lat i) ^ 2 = 0 := by linarith
  have h4 : (lon j - lon i) ^ 2 = 0 := by linarith
  exact ⟨by have := pow_eq_zero_iff (by norm_num) |>.1 h3; linarith,
    by have := pow_eq_zero_iff (by norm_num) |>.1 h4; linarith⟩

/-- C98, local trends: the neighbours of a cell are `k` different cells, no other cell is nearer than one of them. The first
is at the place of the cell, so it is the cell itself when no other cell is there. -/
theorem C98_neighbours {n : Nat} (order : (Fin n → ℝ) → List (Fin n)) (ho : Sorts order) (lat lon : Fin n → ℝ) (k : Nat)
    (hk : k ≤ n) (hk0 : k ≠ 0) (i : Fin n) :
    (neighbours order lat lon k i).length = k ∧ (neighbours order lat lon k i).Nodup ∧
    (∀ a ∈ neighbours order lat lon k i, ∀ b, b ∉ neighbours order lat lon k i →
      degDist lat lon i a ≤ degDist lat lon i b) ∧
    ∃ j l, neighbours order lat lon k i = j :: l ∧ lat j = lat i ∧ lon j = lon i := by
  obtain ⟨h1, h2⟩ := ho (degDist lat lon i)
  have hlen : (order (degDist lat lon i)).length = n := by rw [h1.length_eq, List.length_finRange]
  have hnd : (order (degDist lat lon i)).Nodup := h1.nodup_iff.2 (List.nodup_finRange n)
  unfold neighbours
  refine ⟨by rw [List.length_take, hlen]; omega, hnd.sublist (List.take_sublist _ _), ?_, ?_⟩
  · intro a ha b hb
    have hb' : b ∈ (order (degDist lat lon i)).drop k := by
      have : b ∈ order (degDist lat lon i) := h1.mem_iff.2 (List.mem_finRange b)
      rw [← List.take_append_drop k (order (degDist lat lon i)), List.mem_append] at this
      exact this.resolve_left hb
    rw [← List.take_append_drop k (order (degDist lat lon i)), List.pairwise_append] at h2
    exact h2.2.2 a ha b hb'
  · have hi : i ∈ order (degDist lat lon i) := h1.mem_iff.2 (List.mem_finRange i)
    cases hl : order (degDist lat lon i) with
    | nil => rw [hl] at hi; cases hi
    | cons j l =>
      obtain ⟨k', rfl⟩ : ∃ k', k = k' + 1 := ⟨k - 1, by omega⟩
      refine ⟨j, l.take k', rfl, ?_⟩
      apply degDist_zero
      rw [hl] at h2 hi
      rw [← degDist_self lat lon i]
      rcases List.mem_cons.1 hi with rfl | hi
      · exact le_refl _
      · exact (List.pairwise_cons.1 h2).1 i hi

/-- No two data cells are at the same place. -/
def Apart {n : Nat} (lat lon : Fin n → ℝ) : Prop := ∀ i j, lat i = lat j → lon i = lon j → i = j

theorem first_self {n : Nat} (order : (Fin n → ℝ) → List (Fin n)) (ho : Sorts order) (lat lon : Fin n → ℝ) (k : Nat)
    (hk : k ≤ n) (hk0 : k ≠ 0) (hap : Apart lat lon) (i : Fin n) : first (neighbours order lat lon k i) i = i := by
  obtain ⟨-, -, -, j, l, h1, h2, h3⟩ := C98_neighbours order ho lat lon k hk hk0 i
  rw [h1]
  exact hap j i h2 h3

/-- The claim of C98 for local trends: for every accepted method the result is the mean of the values of the data cells, each
moved to the elevation of the target along the slope fitted to the neighbours of that cell. -/
def C98_local_full : Prop := ∀ (n : Nat) (fit : List (ℝ × ℝ) → ℝ × ℝ) (flag : Int) (I : Method → Interp n) (m : Method)
  (order : (Fin n → ℝ) → List (Fin n)) (lat lon : Fin n → ℝ) (k : Nat) (z d w : Fin n → ℝ) (Z : ℝ),
  LeastSquares fit → Sorts order → k ≤ n → k ≠ 0 → Mean (I m) w →
  ∃ s : Fin n → ℝ, (∀ i, Slope fit flag ((neighbours order lat lon k i).map fun j => (z j, d j)) (s i)) ∧
    interpLocal fit flag I m order lat lon k z d Z = .ok (some (∑ i, w i * (d i + s i * (Z - z i))))

/-- C98, local trends: proved for `linear` and `cubic` and data cells at different places. -/
theorem C98_local_partial {n : Nat} (fit : List (ℝ × ℝ) → ℝ × ℝ) (flag : Int) (I : Method → Interp n) (m : Method)
    (order : (Fin n → ℝ) → List (Fin n)) (ho : Sorts order) (lat lon : Fin n → ℝ) (k : Nat) (z d w : Fin n → ℝ) (Z : ℝ)
    (hk : k ≤ n) (hk0 : k ≠ 0) (hI : Mean (I m) w) (hm : m ≠ .nearest) (hap : Apart lat lon) :
    ∃ s : Fin n → ℝ, (∀ i, Slope fit flag ((neighbours order lat lon k i).map fun j => (z j, d j)) (s i)) ∧
      (∀ i, Allowed flag (s i)) ∧
      interpLocal fit flag I m order lat lon k z d Z = .ok (some (∑ i, w i * (d i + s i * (Z - z i)))) := by
  have hsl := fun i => (constrain_slope fit flag ((neighbours order lat lon k i).map fun j => (z j, d j))).1
  refine ⟨_, hsl, fun i => slope_allowed _ _ _ _ (hsl i), ?_⟩
  have hJ : deconstructed I m = some (I m) := by cases m <;> first | rfl | exact absurd rfl hm
  unfold interpLocal
  rw [if_neg (by omega), hJ]
  simp only [first_self order ho lat lon k hk hk0 hap, localTrend, hI.value, Option.bind_some, Option.map_some]
  congr 2
  rw [Finset.sum_mul, ← Finset.sum_add_distrib, ← Finset.sum_add_distrib]
  exact Finset.sum_congr rfl fun i _ => by ring

/-- C98, local trends, cells at one place allowed: the value and the elevation that are moved are those of one cell at the
place of the data cell, the slope is that of the neighbours. -/
theorem C98_local_place_partial {n : Nat} (fit : List (ℝ × ℝ) → ℝ × ℝ) (flag : Int) (I : Method → Interp n) (m : Method)
    (order : (Fin n → ℝ) → List (Fin n)) (ho : Sorts order) (lat lon : Fin n → ℝ) (k : Nat) (z d w : Fin n → ℝ) (Z : ℝ)
    (hk : k ≤ n) (hk0 : k ≠ 0) (hI : Mean (I m) w) (hm : m ≠ .nearest) :
    ∃ (f : Fin n → Fin n) (s : Fin n → ℝ), (∀ i, lat (f i) = lat i ∧ lon (f i) = lon i) ∧
      (∀ i, Slope fit flag ((neighbours order lat lon k i).map fun j => (z j, d j)) (s i)) ∧
      interpLocal fit flag I m order lat lon k z d Z = .ok (some (∑ i, w i * (d (f i) + s i * (Z - z (f i))))) := by
  have hsl := fun i => (constrain_slope fit flag ((neighbours order lat lon k i).map fun j => (z j, d j))).1
  refine ⟨fun i => first (neighbours order lat lon k i) i, _, ?_, hsl, ?_⟩
  · intro i
    obtain ⟨-, -, -, j, l, h1, h2, h3⟩ := C98_neighbours order ho lat lon k hk hk0 i
    simp only [h1, first]
    exact ⟨h2, h3⟩
  · have hJ : deconstructed I m = some (I m) := by cases m <;> first | rfl | exact absurd rfl hm
    unfold interpLocal
    rw [if_neg (by omega), hJ]
    simp only [localTrend, hI.value, Option.bind_some, Option.map_some]
    congr 2
    rw [Finset.sum_mul, ← Finset.sum_add_distrib, ← Finset.sum_add_distrib]
    exact Finset.sum_congr rfl fun i _ => by ring

/-- C98, local trends: values that are linear in the elevation are reproduced, if the neighbours of each cell have two
different elevations. -/
theorem C98_local_affine_partial {n : Nat} (fit : List (ℝ × ℝ) → ℝ × ℝ) (hf : LeastSquares fit) (flag : Int)
    (I : Method → Interp n) (m : Method) (order : (Fin n → ℝ) → List (Fin n)) (ho : Sorts order) (lat lon : Fin n → ℝ)
    (k : Nat) (z d w : Fin n → ℝ) (Z a b : ℝ) (hk : k ≤ n) (hk0 : k ≠ 0) (hI : Mean (I m) w) (hm : m ≠ .nearest)
    (hap : Apart lat lon) (hd : ∀ i, d i = a * z i + b) (ha : Allowed flag a)
    (h2 : ∀ i, ∃ p ∈ neighbours order lat lon k i, ∃ q ∈ neighbours order lat lon k i, z p ≠ z q) :
    interpLocal fit flag I m order lat lon k z d Z = .ok (some (a * Z + b)) := by
  obtain ⟨s, hs, -, he⟩ := C98_local_partial fit flag I m order ho lat lon k z d w Z hk hk0 hI hm hap
  have hsa : ∀ i, s i = a := by
    intro i
    obtain ⟨p, hp, q, hq, hz⟩ := h2 i
    have hfit := Idw.fit_exact fit hf ((neighbours order lat lon k i).map fun j => (z j, d j)) a b
      (fun r hr => by obtain ⟨k, -, rfl⟩ := List.mem_map.1 hr; exact hd k) _ _
      (List.mem_map.2 ⟨p, hp, rfl⟩) (List.mem_map.2 ⟨q, hq, rfl⟩) hz
    rcases hs i with ⟨-, h⟩ | ⟨h, -⟩
    · rw [h, hfit]
    · rw [hfit] at h; exact absurd ha h
  rw [he]
  congr 2
  have e : ∑ i, w i * (d i + s i * (Z - z i)) = (a * Z + b) * ∑ i, w i := by
    rw [Finset.mul_sum]
    exact Finset.sum_congr rfl fun i _ => by rw [hd i, hsa i]; ring
  rw [e, hI.one, mul_one]

/-- C98 fails: `nearest` is an accepted method, with local trends every step stops with an exception. -/
theorem C98_nearest_fails {n : Nat} (fit : List (ℝ × ℝ) → ℝ × ℝ) (flag : Int) (I : Method → Interp n)
    (order : (Fin n → ℝ) → List (Fin n)) (lat lon : Fin n → ℝ) (k : Nat) (z d : Fin n → ℝ) (Z : ℝ) (hk : k ≤ n)
    (hk0 : k ≠ 0) : interpLocal fit flag I .nearest order lat lon k z d Z = .error .typeError := by
  unfold interpLocal
  rw [if_neg (by omega)]
  rfl

/-- A sorting of two values. -/
noncomputable def sort2 (f : Fin 2 → ℝ) : List (Fin 2) := if f 0 ≤ f 1 then [0, 1] else [1, 0]

theorem sort2_sorts : Sorts sort2 := by
  intro f
  unfold sort2
  by_cases h : f 0 ≤ f 1
  · rw [if_pos h]
    exact ⟨List.Perm.refl _, by simpa using h⟩
  · rw [if_neg h]
    exact ⟨List.Perm.swap _ _ _, by simpa using le_of_lt (not_le.1 h)⟩

/-- The weights of the first of two cells. -/
def onFirst : Fin 2 → ℝ := fun i => if i = 0 then 1 else 0

theorem onFirst_mean : Mean (fun v : Fin 2 → ℝ => some (v 0)) onFirst :=
  ⟨fun v => by simp [onFirst], by simp [onFirst]⟩

/-- C98 fails in the full form. -/
theorem C98_fails : ¬ C98_local_full := by
  intro h
  obtain ⟨s, -, he⟩ := h 2 Idw.closedForm 0 (fun _ v => some (v 0)) .nearest sort2 (fun _ => 0) (fun _ => 0) 1 (fun _ => 0)
    (fun _ => 0) onFirst 0 Idw.closedForm_least sort2_sorts (by norm_num) (by norm_num) onFirst_mean
  rw [C98_nearest_fails _ _ _ _ _ _ _ _ _ _ (by norm_num) (by norm_num)] at he
  cases he

/-- C98 fails for two cells at one place: the value of the second is not used, whatever it is. -/
theorem C98_same_place_fails (fit : List (ℝ × ℝ) → ℝ × ℝ) (flag : Int) (z : Fin 2 → ℝ) (Z : ℝ) (d d' : Fin 2 → ℝ)
    (h : d 0 = d' 0) :
    interpLocal fit flag (fun _ v => some (v 1)) .linear sort2 (fun _ => 0) (fun _ => 0) 1 z d Z =
      interpLocal fit flag (fun _ v => some (v 1)) .linear sort2 (fun _ => 0) (fun _ => 0) 1 z d' Z := by
  have hn : ∀ i, neighbours sort2 (fun _ : Fin 2 => (0 : ℝ)) (fun _ => 0) 1 i = [0] := by
    intro i
    unfold neighbours sort2
    rw [if_pos (by simp [degDist])]
    rfl
  unfold interpLocal
  simp only [hn, first, localTrend, List.map_cons, List.map_nil, h, deconstructed]

/-- Two cells, one trend over both, a target above them. -/
example : ∃ I : Method → Interp 2, Mean (I .linear) (fun _ => 1 / 2) ∧
    interpMask Idw.closedForm (-1) I .linear (fun i => if i = 0 then 1000 else 2000)
      (fun i => if i = 0 then 4 else -2) (fun _ => true) 3000 = .ok (some (-8)) := by
  have hM : Mean (fun v : Fin 2 → ℝ => some (∑ i, 1 / 2 * v i)) (fun _ => 1 / 2) :=
    ⟨fun v => rfl, by simp⟩
  refine ⟨fun _ v => some (∑ i, 1 / 2 * v i), hM, ?_⟩
  have := C98_mask_affine Idw.closedForm Idw.closedForm_least (-1) (fun _ v => some (∑ i, 1 / 2 * v i)) .linear
    (fun i => if i = 0 then 1000 else 2000) (fun i => if i = 0 then 4 else -2) (fun _ => 1 / 2) (fun _ => true) 3000
    (-6 / 1000) 10 hM (by intro i; fin_cases i <;> norm_num) ⟨by norm_num, by norm_num⟩ ⟨0, 1, rfl, rfl, by norm_num⟩
  rw [this]
  norm_num

/-- The same with local trends. -/
example : interpLocal Idw.closedForm (-1) (fun _ v => some (v 0)) .cubic sort2
    (fun i => if i = 0 then 45 else 46) (fun _ => -110) 2 (fun i => if i = 0 then 1000 else 2000)
    (fun i => if i = 0 then 4 else -2) 3000 = .ok (some (-8)) := by
  have hap : Apart (fun i : Fin 2 => if i = 0 then (45 : ℝ) else 46) (fun _ => -110) := by
    intro i j h _
    fin_cases i <;> fin_cases j <;> first | rfl | norm_num at h
  have hnb : ∀ i a, a ∈ neighbours sort2 (fun i : Fin 2 => if i = 0 then (45 : ℝ) else 46) (fun _ => -110) 2 i := by
    intro i a
    unfold neighbours sort2
    split <;> fin_cases a <;> simp
  rw [C98_local_affine_partial Idw.closedForm Idw.closedForm_least (-1) (fun _ v => some (v 0)) .cubic sort2 sort2_sorts
    _ _ 2 _ _ onFirst 3000 (-6 / 1000) 10 (by norm_num) (by norm_num) onFirst_mean (by decide) hap
    (by intro i; fin_cases i <;> norm_num) ⟨by norm_num, by norm_num⟩
    fun i => ⟨0, hnb i 0, 1, hnb i 1, by norm_num⟩]
  norm_num

/-! ### C99 -/

/-- What the configuration asks for, seen from outside: at one place the value does not depend on the elevation without
`detrend`, and does not fall (`detrend_slope` 1) or rise (-1) with it. -/
def Respects (cfg : Cfg) (f : ℝ → ℝ) : Prop :=
  (cfg.detrend = false → ∀ z z', f z = f z') ∧
  (cfg.detrend = true → cfg.slope = 1 → ∀ z z', z ≤ z' → f z ≤ f z') ∧
  (cfg.detrend = true → cfg.slope = -1 → ∀ z z', z ≤ z' → f z' ≤ f z)

/-- The distributed value at a place as a function of the elevation there. -/
def Column (cfg : Cfg) (fit : List (ℝ × ℝ) → ℝ × ℝ) (interp : List Station → ℝ × ℝ → ℝ) (sta : List Station) (x y : ℝ)
    (f : ℝ → ℝ) : Prop := ∀ z, distribute cfg fit interp sta ⟨x, y, z⟩ = .ok (f z)

/-- The claim of C99: every method follows the configuration. -/
def C99_full : Prop := ∀ (cfg : Cfg) (fit : List (ℝ × ℝ) → ℝ × ℝ) (interp : List Station → ℝ × ℝ → ℝ)
  (sta : List Station) (x y : ℝ) (f : ℝ → ℝ), LeastSquares fit → Column cfg fit interp sta x y f → Respects cfg f

/-- C99: an exception is raised exactly when no station has a value. -/
theorem C99_no_data (cfg : Cfg) (fit : List (ℝ × ℝ) → ℝ × ℝ) (interp : List Station → ℝ × ℝ → ℝ) (sta : List Station)
    (g : Cell) : distribute cfg fit interp sta g = .error .noData ↔ ∀ s ∈ sta, s.val = none := by
  unfold distribute
  by_cases h : sta.all (fun s => s.val.isNone) = true
  · rw [if_pos h]
    rw [List.all_eq_true] at h
    exact ⟨fun _ s hs => by simpa using h s hs, fun _ => rfl⟩
  · rw [if_neg h]
    refine ⟨fun e => ?_, fun hall => absurd (List.all_eq_true.2 fun s hs => by simp [hall s hs]) h⟩
    cases ht : trend cfg fit (Idw.points sta) <;> simp [ht] at e

theorem column_trend (cfg : Cfg) (fit : List (ℝ × ℝ) → ℝ × ℝ) (interp : List Station → ℝ × ℝ → ℝ) (sta : List Station)
    (x y : ℝ) (f : ℝ → ℝ) (h : Column cfg fit interp sta x y f) :
    (trend cfg fit (Idw.points sta) = none → ∀ z z', f z = f z') ∧
    ∀ pv, trend cfg fit (Idw.points sta) = some pv → ∀ z z', f z' - f z = pv.1 * (z' - z) := by
  have hne : ¬ sta.all (fun s => s.val.isNone) = true := by
    intro hall
    have := h 0
    unfold distribute at this
    rw [if_pos hall] at this
    cases this
  refine ⟨fun ht z z' => ?_, fun pv ht z z' => ?_⟩
  · have h1 := h z
    have h2 := h z'
    unfold distribute at h1 h2
    rw [if_neg hne, ht] at h1 h2
    injection h1 with h1
    injection h2 with h2
    rw [← h1, ← h2]
  · have h1 := h z
    have h2 := h z'
    unfold distribute at h1 h2
    rw [if_neg hne, ht] at h1 h2
    injection h1 with h1
    injection h2 with h2
    rw [← h1, ← h2]
    ring

/-- C99: inverse distance weighting and gridded interpolation follow the configuration, `dk` does with `detrend`, kriging with
`detrend_slope` 0 or without `detrend`. Missing: `dk` without `detrend`, and the sign in kriging. -/
theorem C99_partial (cfg : Cfg) (fit : List (ℝ × ℝ) → ℝ × ℝ) (interp : List Station → ℝ × ℝ → ℝ) (sta : List Station)
    (x y : ℝ) (f : ℝ → ℝ) (h : Column cfg fit interp sta x y f)
    (hc : cfg.method = .idw ∨ cfg.method = .grid ∨ (cfg.method = .dk ∧ cfg.detrend = true) ∨
      (cfg.method = .kriging ∧ (cfg.detrend = false ∨ cfg.slope = 0))) : Respects cfg f := by
  obtain ⟨h0, h1⟩ := column_trend cfg fit interp sta x y f h
  have hal := slope_allowed _ _ _ _ (constrain_slope fit cfg.slope (Idw.points sta)).1
  set pv := constrain cfg.slope (fit (Idw.points sta)) with hpv
  have hoff : cfg.detrend = false → trend cfg fit (Idw.points sta) = none := by
    intro hd
    rcases hc with hm | hm | ⟨hm, hd'⟩ | ⟨hm, -⟩
    · simp [trend, hm, hd]
    · simp [trend, hm, hd]
    · rw [hd] at hd'; cases hd'
    · simp [trend, hm, hd]
  have hon : cfg.detrend = true → trend cfg fit (Idw.points sta) = some pv := by
    intro hd
    rcases hc with hm | hm | ⟨hm, -⟩ | ⟨hm, hd' | hs⟩
    · simp [trend, hm, hd, hpv]
    · simp [trend, hm, hd, hpv]
    · simp [trend, hm, hpv]
    · rw [hd] at hd'; cases hd'
    · simp [trend, hm, hd, hpv, hs]
  refine ⟨fun hd => h0 (hoff hd), fun hd hs z z' hz => ?_, fun hd hs z z' hz => ?_⟩
  · have e := h1 pv (hon hd) z z'
    have := mul_nonneg (hal.1 hs) (sub_nonneg.2 hz)
    linarith
  · have e := h1 pv (hon hd) z z'
    have := mul_nonneg (sub_nonneg.2 (hal.2 hs)) (sub_nonneg.2 hz)
    linarith

/-- C99: with a trend of the wrong sign `idw`, `grid` and `dk` give what they give without a trend. -/
theorem C99_rejected_plain (cfg : Cfg) (fit : List (ℝ × ℝ) → ℝ × ℝ) (interp : List Station → ℝ × ℝ → ℝ)
    (sta : List Station) (g : Cell) (hs : ∃ s ∈ sta, s.val ≠ none) (hm : cfg.method ≠ .kriging)
    (h : ¬ Allowed cfg.slope (fit (Idw.points sta)).1) :
    distribute cfg fit interp sta g = .ok (interp sta (g.x, g.y)) := by
  have hne : ¬ sta.all (fun s => s.val.isNone) = true := by
    obtain ⟨s, hs, hv⟩ := hs
    intro hall
    exact hv (by simpa using List.all_eq_true.1 hall s hs)
  have h0 := (constrain_slope fit cfg.slope (Idw.points sta)).2 h
  have hid : (sta.map fun s => { s with val := s.val.map (· - (s.z * (0 : ℝ) + 0)) }) = sta := by
    conv_rhs => rw [← List.map_id sta]
    apply List.map_congr_left
    intro s _
    cases s with
    | mk x y z v => cases v <;> simp
  unfold distribute
  rw [if_neg hne]
  have ht : trend cfg fit (Idw.points sta) = none ∨ trend cfg fit (Idw.points sta) = some (0, 0) := by
    unfold trend
    cases hmm : cfg.method with
    | idw => cases cfg.detrend <;> simp [h0]
    | dk => simp [h0]
    | grid => cases cfg.detrend <;> simp [h0]
    | kriging => exact absurd hmm hm
  rcases ht with ht | ht <;> rw [ht]
  simp only [hid]
  simp

/-- C99 fails for kriging: values that rise with the elevation are distributed with that rise, though `detrend_slope` is -1.
For any interpolation of residuals that are all zero by zero. -/
theorem C99_kriging_fails (fit : List (ℝ × ℝ) → ℝ × ℝ) (hf : LeastSquares fit) (interp : List Station → ℝ × ℝ → ℝ)
    (sta : List Station) (a b : ℝ) (ha : 0 < a) (hd : Idw.AffineData sta a b) (x y : ℝ) :
    ∃ f, Column ⟨.kriging, true, -1⟩ fit interp sta x y f ∧ ¬ Respects ⟨.kriging, true, -1⟩ f := by
  have hfit := Idw.affine_fit fit hf sta a b hd
  have hne : ¬ sta.all (fun s => s.val.isNone) = true := by
    obtain ⟨s, hs, -, -, hv, -, -⟩ := hd.two
    intro hall
    exact hv (by simpa using List.all_eq_true.1 hall s hs)
  have hc : constrain 0 (a, b) = (a, b) := by simp [constrain]
  refine ⟨fun z => interp (sta.map fun s => { s with val := s.val.map (· - (s.z * a + b)) }) (x, y) + a * z + b, ?_, ?_⟩
  · intro z
    unfold distribute
    rw [if_neg hne]
    simp only [trend, hfit, hc, if_pos]
  · rintro ⟨-, -, h⟩
    have := h rfl rfl 0 1 (by norm_num)
    simp only at this
    linarith

/-- C99 fails for `dk`: it takes a trend out and puts it back also without `detrend`. -/
theorem C99_dk_fails (fit : List (ℝ × ℝ) → ℝ × ℝ) (hf : LeastSquares fit) (interp : List Station → ℝ × ℝ → ℝ)
    (sta : List Station) (a b : ℝ) (ha : a < 0) (hd : Idw.AffineData sta a b) (x y : ℝ) :
    ∃ f, Column ⟨.dk, false, -1⟩ fit interp sta x y f ∧ ¬ Respects ⟨.dk, false, -1⟩ f := by
  have hfit := Idw.affine_fit fit hf sta a b hd
  have hne : ¬ sta.all (fun s => s.val.isNone) = true := by
    obtain ⟨s, hs, -, -, hv, -, -⟩ := hd.two
    intro hall
    exact hv (by simpa using List.all_eq_true.1 hall s hs)
  have hc : constrain (-1) (a, b) = (a, b) := Idw.constrain_allowed _ _ ⟨by norm_num, fun _ => le_of_lt ha⟩
  refine ⟨fun z => interp (sta.map fun s => { s with val := s.val.map (· - (s.z * a + b)) }) (x, y) + a * z + b, ?_, ?_⟩
  · intro z
    unfold distribute
    rw [if_neg hne]
    simp only [trend, hfit, hc]
  · rintro ⟨h, -, -⟩
    have := h rfl 0 1
    simp only at this
    linarith

/-- Two stations with a rise of 6 degrees per 1000 m. -/
noncomputable def inversion : List Station := [⟨0, 0, 1000, some (-2)⟩, ⟨3, 4, 2000, some 4⟩]

theorem inversion_affine : Idw.AffineData inversion (6 / 1000) (-8) where
  affine := by
    intro s hs x hx
    simp only [inversion, List.mem_cons, List.not_mem_nil, or_false] at hs
    rcases hs with rfl | rfl <;> injection hx with hx <;> rw [← hx] <;> norm_num
  two := by
    refine ⟨⟨0, 0, 1000, some (-2)⟩, by simp [inversion], ⟨3, 4, 2000, some 4⟩, by simp [inversion], by simp, by simp, ?_⟩
    norm_num

/-- C99 fails in the full form. -/
theorem C99_fails : ¬ C99_full := by
  intro h
  obtain ⟨f, h1, h2⟩ := C99_kriging_fails Idw.closedForm Idw.closedForm_least (fun _ _ => 0) inversion (6 / 1000) (-8)
    (by norm_num) inversion_affine 0 0
  exact h2 (h _ _ _ _ _ _ _ Idw.closedForm_least h1)

/-- With inverse distance weighting the inversion is not used. -/
example : distribute ⟨.idw, true, -1⟩ Idw.closedForm (fun _ _ => 1) inversion ⟨7, 7, 3000⟩ = .ok 1 :=
  C99_rejected_plain _ _ _ _ _ ⟨⟨0, 0, 1000, some (-2)⟩, by simp [inversion], by simp⟩ (by decide) (by
    rw [Idw.affine_fit _ Idw.closedForm_least _ _ _ inversion_affine]
    intro h
    have := h.2 rfl
    norm_num at this)

end Verif.GridInterp
