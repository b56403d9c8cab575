import Verif.KrigeProps
import Mathlib.Analysis.InnerProductSpace.PiL2
import Mathlib.Analysis.InnerProductSpace.Positive

/-!
C147: the weights of detrended kriging (smrf/spatial/dk/krige.c, modelled in `Krige`) give the best linear unbiased
estimate from the stations in use.

Specification: values with a linear variogram, as vectors of a space with an inner product whose squared norm is the mean
square (the space of random variables with finite variance). `Linear` says that the mean square of the difference of the
values at two places is proportional to their distance.
-/

namespace Verif.Krige
open Verif.Idw Finset

/-- The values `z` at the stations and `z0` at the cell: mean square differences proportional to the distance. -/
structure Linear {H : Type} [NormedAddCommGroup H] [InnerProductSpace ℝ H] (n : Nat) (dist : Nat → Nat → ℝ) (dist0 : Nat → ℝ)
    (z : Nat → H) (z0 : H) (slope : ℝ) : Prop where
  pair : ∀ i < n, ∀ j < n, ‖z i - z j‖ ^ 2 = 2 * slope * dist i j
  cell : ∀ i < n, ‖z i - z0‖ ^ 2 = 2 * slope * dist0 i

/-- The mean square error of the estimate with the weights `w`. -/
noncomputable def mse {H : Type} [NormedAddCommGroup H] [InnerProductSpace ℝ H] (n : Nat) (z : Nat → H) (z0 : H) (w : Nat → ℝ) : ℝ :=
  ‖∑ i ∈ range n, w i • z i - z0‖ ^ 2

/-- The kriging variance of weights that sum to one, for the variogram that is the distance itself. -/
def variance (n : Nat) (dist : Nat → Nat → ℝ) (dist0 : Nat → ℝ) (w : Nat → ℝ) : ℝ :=
  2 * ∑ i ∈ range n, w i * dist0 i - ∑ i ∈ range n, ∑ j ∈ range n, w i * w j * dist i j

/-- The error of any unbiased estimate, from the distances alone. -/
theorem C147_error {H : Type} [NormedAddCommGroup H] [InnerProductSpace ℝ H] (n : Nat) (dist : Nat → Nat → ℝ)
    (dist0 : Nat → ℝ) (z : Nat → H) (z0 : H) (slope : ℝ) (hz : Linear n dist dist0 z z0 slope) (w : Nat → ℝ)
    (hw : ∑ i ∈ range n, w i = 1) : mse n z z0 w = slope * variance n dist dist0 w := by
  have e1 : ∑ i ∈ range n, w i • z i - z0 = ∑ i ∈ range n, w i • (z i - z0) := by
    simp only [smul_sub, sum_sub_distrib, ← sum_smul, hw, one_smul]
  have e2 : ∀ i ∈ range n, ∀ j ∈ range n,
      inner ℝ (z i - z0) (z j - z0) = slope * (dist0 i + dist0 j - dist i j) := by
    intro i hi j hj
    rw [mem_range] at hi hj
    have h := norm_sub_sq_real (z i - z0) (z j - z0)
    rw [sub_sub_sub_cancel_right, hz.pair i hi j hj, hz.cell i hi, hz.cell j hj] at h
    linarith
  unfold mse variance
  rw [e1, ← real_inner_self_eq_norm_sq, sum_inner]
  have e3 : ∀ i ∈ range n, inner ℝ (w i • (z i - z0)) (∑ j ∈ range n, w j • (z j - z0))
      = slope * (w i * dist0 i + w i * ∑ j ∈ range n, w j * dist0 j - ∑ j ∈ range n, w i * w j * dist i j) := by
    intro i hi
    rw [inner_sum]
    have : ∀ j ∈ range n, inner ℝ (w i • (z i - z0)) (w j • (z j - z0))
        = slope * (w i * dist0 i * w j + w i * (w j * dist0 j) - w i * w j * dist i j) := by
      intro j hj
      rw [real_inner_smul_left, real_inner_smul_right, e2 i hi j hj]
      ring
    rw [sum_congr rfl this, ← mul_sum, sum_sub_distrib, sum_add_distrib, ← mul_sum, ← mul_sum, hw, mul_one]
  rw [sum_congr rfl e3, ← mul_sum, sum_sub_distrib, sum_add_distrib, ← sum_mul, hw]
  ring

/-- Distances in the plane are of negative type: for coefficients that sum to zero. -/
theorem plane_nonpos {ι : Type} [DecidableEq ι] (x y c : ι → ℝ) (S : Finset ι) (hsum : ∑ i ∈ S, c i = 0) :
    ∑ i ∈ S, ∑ j ∈ S, c i * c j * Real.sqrt ((x i - x j) ^ 2 + (y i - y j) ^ 2) ≤ 0 := by
  let t : ℝ → ι → ℝ := fun θ i => x i * Real.cos θ + y i * Real.sin θ
  let F : ℝ → ℝ := fun θ => ∑ i ∈ S, ∑ j ∈ S, c i * c j * |t θ i - t θ j|
  have hFle : ∀ θ, F θ ≤ 0 := by
    intro θ
    obtain ⟨M, hM⟩ : ∃ M, ∀ i ∈ S, t θ i ≤ M := by
      obtain ⟨M, hM⟩ := (S.image (t θ)).bddAbove
      exact ⟨M, fun i hi => hM (mem_coe.2 (mem_image_of_mem _ hi))⟩
    have := line_nonneg (t θ) c S M hM
    rw [hsum] at this
    show ∑ i ∈ S, ∑ j ∈ S, c i * c j * |t θ i - t θ j| ≤ 0
    linarith
  have hint : ∫ θ in (-Real.pi)..Real.pi, F θ =
      (∑ i ∈ S, ∑ j ∈ S, c i * c j * Real.sqrt ((x i - x j) ^ 2 + (y i - y j) ^ 2)) *
        ∫ θ in (-Real.pi)..Real.pi, |Real.cos θ| := by
    have e : ∀ θ i j, |t θ i - t θ j| = |(x i - x j) * Real.cos θ + (y i - y j) * Real.sin θ| := by
      intro θ i j
      simp only [t]
      congr 1
      ring
    simp only [F, e]
    rw [intervalIntegral.integral_finsetSum, sum_mul]
    · refine sum_congr rfl fun i _ => ?_
      rw [intervalIntegral.integral_finsetSum, sum_mul]
      · refine sum_congr rfl fun j _ => ?_
        rw [intervalIntegral.integral_const_mul, crofton]
        ring
      · intro j _
        apply Continuous.intervalIntegrable
        fun_prop
    · intro i _
      apply Continuous.intervalIntegrable
      fun_prop
  have hpos : 0 < ∫ θ in (-Real.pi)..Real.pi, |Real.cos θ| := by
    apply intervalIntegral.integral_pos (by have := Real.pi_pos; linarith)
    · fun_prop
    · exact fun _ _ => abs_nonneg _
    · exact ⟨0, ⟨by have := Real.pi_pos; linarith, Real.pi_pos.le⟩, by simp⟩
  have hle : ∫ θ in (-Real.pi)..Real.pi, F θ ≤ 0 := by
    have := intervalIntegral.integral_nonneg (a := -Real.pi) (b := Real.pi) (f := fun θ => -F θ)
      (μ := MeasureTheory.volume) (by have := Real.pi_pos; linarith) (fun u _ => by have := hFle u; linarith)
    rw [intervalIntegral.integral_neg] at this
    linarith
  rw [hint] at hle
  by_contra hc
  exact absurd hle (not_le.2 (mul_pos (not_le.1 hc) hpos))

/-- Away from the solution of the kriging equations the variance grows by a quadratic form. -/
theorem variance_grow {n : Nat} {dist : Nat → Nat → ℝ} {dist0 : Nat → ℝ} {flag : Nat → Bool} {w : Nat → ℝ} {mu : ℝ}
    (hsym : ∀ i < n, ∀ j < n, dist i j = dist j i) (h : System n dist dist0 flag w mu) (w' : Nat → ℝ)
    (h1 : ∑ i ∈ range n, w' i = 1) (h0 : ∀ i < n, flag i = false → w' i = 0) :
    variance n dist dist0 w' = variance n dist dist0 w
      - ∑ i ∈ range n, ∑ j ∈ range n, (w' i - w i) * (w' j - w j) * dist i j := by
  obtain ⟨e1, e2, e3⟩ := h
  have k : ∑ i ∈ range n, (w' i - w i) * (dist0 i - ∑ j ∈ range n, dist i j * w j) = 0 := by
    have : ∀ i ∈ range n, (w' i - w i) * (dist0 i - ∑ j ∈ range n, dist i j * w j) = (w' i - w i) * mu := by
      intro i hi
      rw [mem_range] at hi
      cases hf : flag i with
      | false => rw [h0 i hi hf, e3 i hi hf]; ring
      | true => rw [← e1 i hi hf]; ring
    rw [sum_congr rfl this, ← sum_mul, sum_sub_distrib, h1, e2]
    ring
  have q : ∑ i ∈ range n, ∑ j ∈ range n, (w' i - w i) * (w' j - w j) * dist i j
      = ∑ i ∈ range n, ∑ j ∈ range n, w' i * w' j * dist i j - ∑ i ∈ range n, ∑ j ∈ range n, w i * w j * dist i j
        - 2 * ∑ i ∈ range n, (w' i - w i) * ∑ j ∈ range n, dist i j * w j := by
    have hs : ∑ i ∈ range n, ∑ j ∈ range n, w i * (w' j - w j) * dist i j
        = ∑ i ∈ range n, ∑ j ∈ range n, (w' i - w i) * w j * dist i j := by
      rw [sum_comm]
      refine sum_congr rfl fun i hi => sum_congr rfl fun j hj => ?_
      rw [hsym j (mem_range.1 hj) i (mem_range.1 hi)]
      ring
    have ht : ∑ i ∈ range n, (w' i - w i) * ∑ j ∈ range n, dist i j * w j
        = ∑ i ∈ range n, ∑ j ∈ range n, (w' i - w i) * w j * dist i j := by
      refine sum_congr rfl fun i _ => ?_
      rw [mul_sum]
      exact sum_congr rfl fun j _ => by ring
    rw [ht, two_mul]
    nth_rewrite 1 [← hs]
    simp only [← sum_sub_distrib, ← sum_add_distrib]
    exact sum_congr rfl fun i _ => sum_congr rfl fun j _ => by ring
  rw [q]
  unfold variance
  have k' : ∑ i ∈ range n, w' i * dist0 i - ∑ i ∈ range n, w i * dist0 i
      - ∑ i ∈ range n, (w' i - w i) * ∑ j ∈ range n, dist i j * w j = 0 := by
    rw [← k, ← sum_sub_distrib, ← sum_sub_distrib]
    exact sum_congr rfl fun i _ => by ring
  linarith

theorem adMatrix_symm (sta : List Station) (i : Nat) (hi : i < sta.length) (j : Nat) (hj : j < sta.length) :
    adMatrix sta i j = adMatrix sta j i := by
  rw [adMatrix_eq sta i j hi hj, adMatrix_eq sta j i hj hi]
  congr 1
  ring

/-- The coordinates as functions of all numbers. -/
noncomputable def px (sta : List Station) (i : Nat) : ℝ := if h : i < sta.length then sta[i].x else 0

noncomputable def py (sta : List Station) (i : Nat) : ℝ := if h : i < sta.length then sta[i].y else 0

theorem adMatrix_p (sta : List Station) (i : Nat) (hi : i < sta.length) (j : Nat) (hj : j < sta.length) :
    adMatrix sta i j = Real.sqrt ((px sta i - px sta j) ^ 2 + (py sta i - py sta j) ^ 2) := by
  rw [adMatrix_eq sta i j hi hj]
  simp only [px, py, hi, hj, dif_pos]

theorem quad_p (sta : List Station) (v : Nat → ℝ) :
    ∑ i ∈ range sta.length, ∑ j ∈ range sta.length, v i * v j * adMatrix sta i j
      = ∑ i ∈ range sta.length, ∑ j ∈ range sta.length,
          v i * v j * Real.sqrt ((px sta i - px sta j) ^ 2 + (py sta i - py sta j) ^ 2) :=
  sum_congr rfl fun i hi => sum_congr rfl fun j hj => by
    rw [adMatrix_p sta i (mem_range.1 hi) j (mem_range.1 hj)]

/-- Stations at pairwise different places. -/
def Distinct (sta : List Station) : Prop :=
  ∀ i j (hi : i < sta.length) (hj : j < sta.length), sta[i].x = sta[j].x → sta[i].y = sta[j].y → i = j

/-- A solution of the equations of some stations is the best of their weights, and the only best one. -/
theorem system_best {sta : List Station} {dist0 : Nat → ℝ} {flag : Nat → Bool} {w : Nat → ℝ} {mu : ℝ}
    (hd : Distinct sta) (h : System sta.length (adMatrix sta) dist0 flag w mu) (w' : Nat → ℝ)
    (h1 : ∑ i ∈ range sta.length, w' i = 1) (h0 : ∀ i < sta.length, flag i = false → w' i = 0) :
    variance sta.length (adMatrix sta) dist0 w ≤ variance sta.length (adMatrix sta) dist0 w' ∧
    (variance sta.length (adMatrix sta) dist0 w' = variance sta.length (adMatrix sta) dist0 w →
      ∀ i < sta.length, w' i = w i) := by
  have hg := variance_grow (adMatrix_symm sta) h w' h1 h0
  have hs : ∑ i ∈ range sta.length, (w' i - w i) = 0 := by rw [sum_sub_distrib, h1, h.2.1]; ring
  rw [quad_p sta (fun i => w' i - w i)] at hg
  constructor
  · have := plane_nonpos (px sta) (py sta) (fun i => w' i - w i) (range sta.length) hs
    linarith
  · intro e i hi
    have := plane_zero (px sta) (py sta) (fun i => w' i - w i) (range sta.length) (fun i hi j hj hx hy => by
      rw [mem_range] at hi hj
      simp only [px, py, hi, hj, dif_pos] at hx hy
      exact hd i j hi hj hx hy) hs (by linarith) i (mem_range.2 hi)
    linarith

/-- The full claim: the weights that come back have the least error of all weights that sum to one. -/
def C147_full : Prop :=
  ∀ (mem : Mem ℝ) (sta : List Station) (g : Cell) (w w' : Nat → ℝ), Distinct sta →
    krige mem sta.length (adMatrix sta) (gridDist sta g) (elevations sta) = .weights w →
    ∑ i ∈ range sta.length, w' i = 1 →
    variance sta.length (adMatrix sta) (gridDist sta g) w ≤ variance sta.length (adMatrix sta) (gridDist sta g) w'

/-- From the stations in use (all but those dropped, which have weight zero) no other weights that sum to one have as small
an error. Missing: weights of the stations dropped, with which a smaller error is possible (`C147_fails`). -/
theorem C147_used_partial (mem : Mem ℝ) (sta : List Station) (g : Cell) (w : Nat → ℝ) (hd : Distinct sta)
    (h : krige mem sta.length (adMatrix sta) (gridDist sta g) (elevations sta) = .weights w) :
    ∃ used : Nat → Prop, (∀ i < sta.length, ¬ used i → w i = 0) ∧ ∑ i ∈ range sta.length, w i = 1 ∧
      ∀ w' : Nat → ℝ, ∑ i ∈ range sta.length, w' i = 1 → (∀ i < sta.length, ¬ used i → w' i = 0) →
        variance sta.length (adMatrix sta) (gridDist sta g) w ≤ variance sta.length (adMatrix sta) (gridDist sta g) w' ∧
        (variance sta.length (adMatrix sta) (gridDist sta g) w' = variance sta.length (adMatrix sta) (gridDist sta g) w →
          ∀ i < sta.length, w' i = w i) := by
  have hg : ∀ m < sta.length, 0 ≤ gridDist sta g m := fun m _ => gridDist_nonneg sta g m
  have := krige_spec mem sta.length (adMatrix sta) (gridDist sta g) (elevations sta) hg
  rw [h] at this
  obtain ⟨f, -, mu, sys, -, -⟩ := this.subset
  exact ⟨fun m => f m = true, fun i hi hf => sys.2.2 i hi (by simpa using hf), sys.2.1,
    fun w' h1 h0 => system_best hd sys w' h1 fun i hi hf => h0 i hi (by simp [hf])⟩

/-- When weights that are not negative have the least error of all weights that sum to one, these are the weights that come
back. -/
theorem C147_best (mem : Mem ℝ) (sta : List Station) (g : Cell) (best : Nat → ℝ) (hne : sta ≠ []) (hd : Distinct sta)
    (h1 : ∑ i ∈ range sta.length, best i = 1) (hpos : ∀ i < sta.length, 0 ≤ best i)
    (hbest : ∀ w' : Nat → ℝ, ∑ i ∈ range sta.length, w' i = 1 →
      variance sta.length (adMatrix sta) (gridDist sta g) best ≤ variance sta.length (adMatrix sta) (gridDist sta g) w') :
    ∃ w, krige mem sta.length (adMatrix sta) (gridDist sta g) (elevations sta) = .weights w ∧
      ∀ i < sta.length, w i = best i := by
  have hg : ∀ m < sta.length, 0 ≤ gridDist sta g m := fun m _ => gridDist_nonneg sta g m
  obtain ⟨w, hw, -⟩ := C56_distinct_partial mem sta g hne hd
  refine ⟨w, hw, ?_⟩
  obtain ⟨flag, hall, hel⟩ := C56_order mem _ _ _ _ w hg hw
  have key : ∀ v mu, System sta.length (adMatrix sta) (gridDist sta g) flag v mu → ∀ i < sta.length, best i = v i := by
    intro v mu sys
    have := system_best hd sys best h1 (fun i hi hf => by rw [hall i hi] at hf; cases hf)
    exact this.2 (le_antisymm (hbest v sys.2.1) this.1)
  cases hel with
  | done sys reg stop => exact fun i hi => (key _ _ sys i hi).symm
  | drop m sys reg hm hf neg pos top rest =>
    have := key _ _ sys m hm
    have := hpos m hm
    linarith

/-- When every station has a weight different from zero no weights that sum to one have a smaller error. -/
theorem C147_all (mem : Mem ℝ) (sta : List Station) (g : Cell) (w : Nat → ℝ) (hd : Distinct sta)
    (h : krige mem sta.length (adMatrix sta) (gridDist sta g) (elevations sta) = .weights w)
    (hw : ∀ i < sta.length, w i ≠ 0) (w' : Nat → ℝ) (h1 : ∑ i ∈ range sta.length, w' i = 1) :
    variance sta.length (adMatrix sta) (gridDist sta g) w ≤ variance sta.length (adMatrix sta) (gridDist sta g) w' := by
  obtain ⟨used, h0, -, hb⟩ := C147_used_partial mem sta g w hd h
  exact (hb w' h1 fun i hi hu => absurd (h0 i hi hu) (hw i hi)).1

theorem gridDist_eq (sta : List Station) (g : Cell) (i : Nat) (hi : i < sta.length) :
    gridDist sta g i = Real.sqrt ((px sta i - g.x) ^ 2 + (py sta i - g.y) ^ 2) := by
  unfold gridDist Idw.dist
  rw [List.getElem?_eq_getElem hi]
  simp only [px, py, hi, dif_pos]
  congr 1
  ring

/-- Distances between the stations and the cell, for coefficients that need not sum to zero. -/
theorem gram_nonneg (sta : List Station) (g : Cell) (c : Nat → ℝ) :
    0 ≤ 2 * (∑ i ∈ range sta.length, c i) * ∑ i ∈ range sta.length, c i * gridDist sta g i
      - ∑ i ∈ range sta.length, ∑ j ∈ range sta.length, c i * c j * adMatrix sta i j := by
  set n := sta.length with hn
  let x : Nat → ℝ := fun i => if i = n then g.x else px sta i
  let y : Nat → ℝ := fun i => if i = n then g.y else py sta i
  let k : Nat → ℝ := fun i => if i = n then -∑ i ∈ range n, c i else c i
  have hk : ∀ i ∈ range n, k i = c i := fun i hi => if_neg (mem_range.1 hi).ne
  have hx : ∀ i ∈ range n, x i = px sta i := fun i hi => if_neg (mem_range.1 hi).ne
  have hy : ∀ i ∈ range n, y i = py sta i := fun i hi => if_neg (mem_range.1 hi).ne
  have kn : k n = -∑ i ∈ range n, c i := if_pos rfl
  have xn : x n = g.x := if_pos rfl
  have yn : y n = g.y := if_pos rfl
  have := plane_nonpos x y k (range (n + 1)) (by rw [sum_range_succ, kn, sum_congr rfl hk]; ring)
  rw [sum_range_succ] at this
  simp only [sum_range_succ] at this
  rw [sum_add_distrib] at this
  have e1 : ∑ i ∈ range n, ∑ j ∈ range n, k i * k j * Real.sqrt ((x i - x j) ^ 2 + (y i - y j) ^ 2)
      = ∑ i ∈ range n, ∑ j ∈ range n, c i * c j * adMatrix sta i j := by
    refine sum_congr rfl fun i hi => sum_congr rfl fun j hj => ?_
    rw [hk i hi, hk j hj, hx i hi, hx j hj, hy i hi, hy j hj, adMatrix_p sta i (mem_range.1 hi) j (mem_range.1 hj)]
  have e2 : ∑ i ∈ range n, k i * k n * Real.sqrt ((x i - x n) ^ 2 + (y i - y n) ^ 2)
      = -(∑ i ∈ range n, c i) * ∑ i ∈ range n, c i * gridDist sta g i := by
    rw [mul_sum]
    refine sum_congr rfl fun i hi => ?_
    rw [hk i hi, kn, hx i hi, hy i hi, xn, yn, gridDist_eq sta g i (mem_range.1 hi)]
    ring
  have e3 : ∑ j ∈ range n, k n * k j * Real.sqrt ((x n - x j) ^ 2 + (y n - y j) ^ 2)
      = -(∑ i ∈ range n, c i) * ∑ i ∈ range n, c i * gridDist sta g i := by
    rw [mul_sum]
    refine sum_congr rfl fun i hi => ?_
    rw [hk i hi, kn, hx i hi, hy i hi, xn, yn, gridDist_eq sta g i (mem_range.1 hi),
      show (g.x - px sta i) ^ 2 + (g.y - py sta i) ^ 2 = (px sta i - g.x) ^ 2 + (py sta i - g.y) ^ 2 by ring]
    ring
  rw [e1, e2, e3] at this
  simp only [sub_self, ne_eq, OfNat.ofNat_ne_zero, not_false_eq_true, zero_pow, add_zero, Real.sqrt_zero, mul_zero] at this
  linarith

/-- There are such values, for any stations and cell: the claims below are about something. -/
theorem C147_exists (sta : List Station) (g : Cell) :
    ∃ (m : Nat) (z : Nat → EuclideanSpace ℝ (Fin m)), Linear sta.length (adMatrix sta) (gridDist sta g) z 0 1 := by
  set n := sta.length with hn
  let G : Matrix (Fin n) (Fin n) ℝ := fun i j => gridDist sta g i + gridDist sta g j - adMatrix sta i j
  have hG : G.PosSemidef := by
    apply Matrix.PosSemidef.of_dotProduct_mulVec_nonneg
    · ext i j
      show star (gridDist sta g j + gridDist sta g i - adMatrix sta j i) = gridDist sta g i + gridDist sta g j - adMatrix sta i j
      rw [star_trivial, adMatrix_symm sta j j.2 i i.2]
      ring
    · intro v
      have := gram_nonneg sta g (fun i => if h : i < n then v ⟨i, h⟩ else 0)
      rw [← hn] at this
      simp only [← Fin.sum_univ_eq_sum_range (n := n), Fin.is_lt, dif_pos, Fin.eta] at this
      refine this.trans_eq ?_
      have hR : star v ⬝ᵥ G.mulVec v = ∑ i : Fin n, ∑ j : Fin n, v i * ((gridDist sta g i + gridDist sta g j - adMatrix sta i j) * v j) := by
        simp only [star_trivial, dotProduct, Matrix.mulVec, mul_sum]
        rfl
      rw [hR]
      have hA : 2 * (∑ i, v i) * ∑ i : Fin n, v i * gridDist sta g i
          = ∑ i : Fin n, ∑ j : Fin n, v i * (gridDist sta g i * v j) + ∑ i : Fin n, ∑ j : Fin n, v i * (gridDist sta g j * v j) := by
        have h1 : ∑ i : Fin n, ∑ j : Fin n, v i * (gridDist sta g i * v j) = (∑ i : Fin n, v i * gridDist sta g i) * ∑ j, v j := by
          rw [sum_mul_sum]
          exact sum_congr rfl fun i _ => sum_congr rfl fun j _ => by ring
        have h2 : ∑ i : Fin n, ∑ j : Fin n, v i * (gridDist sta g j * v j) = (∑ i, v i) * ∑ j : Fin n, v j * gridDist sta g j := by
          rw [sum_mul_sum]
          exact sum_congr rfl fun i _ => sum_congr rfl fun j _ => by ring
        rw [h1, h2]
        ring
      rw [hA, ← sum_add_distrib, ← sum_sub_distrib]
      refine sum_congr rfl fun i _ => ?_
      rw [← sum_add_distrib, ← sum_sub_distrib]
      exact sum_congr rfl fun j _ => by ring
  obtain ⟨m, v, hv⟩ := Matrix.posSemidef_iff_eq_sum_vecMulVec.1 hG
  let z : Nat → EuclideanSpace ℝ (Fin m) := fun i => WithLp.toLp 2 fun k => if h : i < n then v k ⟨i, h⟩ else 0
  have hin : ∀ i (hi : i < n) j (hj : j < n), inner ℝ (z i) (z j)
      = gridDist sta g i + gridDist sta g j - adMatrix sta i j := by
    intro i hi j hj
    have := congrFun (congrFun hv ⟨i, hi⟩) ⟨j, hj⟩
    simp only [G, Matrix.sum_apply, Matrix.vecMulVec_apply, star_trivial] at this
    rw [this, PiLp.inner_apply]
    refine sum_congr rfl fun k _ => ?_
    simp [z, hi, hj, mul_comm]
  have hself : ∀ i (hi : i < n), adMatrix sta i i = 0 := by
    intro i hi
    rw [adMatrix_eq sta i i hi hi]
    simp
  refine ⟨m, z, fun i hi j hj => ?_, fun i hi => ?_⟩
  · rw [norm_sub_sq_real, ← real_inner_self_eq_norm_sq, ← real_inner_self_eq_norm_sq, hin i hi j hj, hin i hi i hi, hin j hj j hj,
      hself i hi, hself j hj]
    ring
  · rw [sub_zero, ← real_inner_self_eq_norm_sq, hin i hi i hi, hself i hi]
    ring

/-- For any values with a linear variogram: no unbiased estimate from the stations in use has a smaller mean square error
than that of the code. Missing as above. -/
theorem C147_estimate_partial {H : Type} [NormedAddCommGroup H] [InnerProductSpace ℝ H] (mem : Mem ℝ) (sta : List Station)
    (g : Cell) (w : Nat → ℝ) (z : Nat → H) (z0 : H) (slope : ℝ) (hslope : 0 ≤ slope) (hd : Distinct sta)
    (hz : Linear sta.length (adMatrix sta) (gridDist sta g) z z0 slope)
    (h : krige mem sta.length (adMatrix sta) (gridDist sta g) (elevations sta) = .weights w) :
    ∃ used : Nat → Prop, (∀ i < sta.length, ¬ used i → w i = 0) ∧
      ∀ w' : Nat → ℝ, ∑ i ∈ range sta.length, w' i = 1 → (∀ i < sta.length, ¬ used i → w' i = 0) →
        mse sta.length z z0 w ≤ mse sta.length z z0 w' := by
  obtain ⟨used, h0, h1, hb⟩ := C147_used_partial mem sta g w hd h
  refine ⟨used, h0, fun w' h1' h0' => ?_⟩
  rw [C147_error _ _ _ _ _ _ hz w h1, C147_error _ _ _ _ _ _ hz w' h1']
  exact mul_le_mul_of_nonneg_left (hb w' h1' h0').1 hslope

/-! The stations of `triDist` as points of the plane, the third one high up. -/

def triSta : List Station := [⟨0, 3, 100, none⟩, ⟨0, -3, 50, none⟩, ⟨-4, 0, 2000, none⟩]

def triCell : Cell := ⟨4, 0, 300⟩

theorem tri_distinct : Distinct triSta := by
  intro i j hi hj hx hy
  have hi' : i < 3 := hi
  have hj' : j < 3 := hj
  interval_cases i <;> interval_cases j <;> first | rfl | (exfalso; revert hx hy; norm_num [triSta])

noncomputable def triBest (n : Nat) : ℝ := if n = 2 then -1 / 7 else 4 / 7

theorem tri_ad (i j : Nat) (hi : i < 3) (hj : j < 3) : adMatrix triSta i j = if i = j then 0 else if i + j = 1 then 6 else 5 := by
  rw [adMatrix_eq triSta i j hi hj]
  interval_cases i <;> interval_cases j <;> norm_num [triSta] <;>
    first
    | (rw [show (36 : ℝ) = 6 ^ 2 by norm_num]; exact Real.sqrt_sq (by norm_num))
    | (rw [show (25 : ℝ) = 5 ^ 2 by norm_num]; exact Real.sqrt_sq (by norm_num))

theorem tri_g (i : Nat) (hi : i < 3) : gridDist triSta triCell i = if i = 2 then 8 else 5 := by
  have hi' : i < triSta.length := hi
  rw [gridDist_eq triSta triCell i hi']
  unfold px py
  rw [dif_pos hi', dif_pos hi']
  interval_cases i <;> norm_num [triSta, triCell] <;>
    first
    | (rw [show (64 : ℝ) = 8 ^ 2 by norm_num]; exact Real.sqrt_sq (by norm_num))
    | (rw [show (25 : ℝ) = 5 ^ 2 by norm_num]; exact Real.sqrt_sq (by norm_num))

theorem tri_system : System triSta.length (adMatrix triSta) (gridDist triSta triCell) (fun _ => true) triBest (16 / 7) := by
  refine ⟨fun m hm _ => ?_, ?_, fun n _ h => by cases h⟩
  · have hm' : m < 3 := hm
    show ∑ n ∈ range 3, adMatrix triSta m n * triBest n + 16 / 7 = _
    simp only [sum_range_succ, sum_range_zero, zero_add]
    rw [tri_ad m 0 hm' (by norm_num), tri_ad m 1 hm' (by norm_num), tri_ad m 2 hm' (by norm_num), tri_g m hm']
    interval_cases m <;> norm_num [triBest]
  · show ∑ n ∈ range 3, triBest n = 1
    norm_num [sum_range_succ, triBest]

/-- Three stations, the one behind the others dropped for its negative weight: the weights that come back are worse. -/
theorem C147_fails : ¬ C147_full := by
  intro hfull
  let mem : Mem ℝ := ⟨fun _ _ _ => 0, fun _ => ⟨fun _ => 0, fun _ => 0, 0⟩, fun _ => false, fun _ => 0⟩
  obtain ⟨w, hw, h1, hpos⟩ := C56_distinct_partial mem triSta triCell (by simp [triSta]) tri_distinct
  have h2 : 0 ≤ w 2 := hpos 2 (by simp [triSta]) (by norm_num [triSta])
  have hle := hfull mem triSta triCell w triBest tri_distinct hw tri_system.2.1
  have hb := system_best tri_distinct tri_system w h1 (fun _ _ h => by cases h)
  have := hb.2 (le_antisymm hle hb.1) 2 (by simp [triSta])
  rw [this] at h2
  norm_num [triBest] at h2

/-- A cell between two stations: the weights that come back are the best of all. -/
example (mem : Mem ℝ) : ∃ w, krige mem 2 (adMatrix [⟨0, 0, 100, none⟩, ⟨4, 0, 200, none⟩])
    (gridDist [⟨0, 0, 100, none⟩, ⟨4, 0, 200, none⟩] ⟨1, 0, 150⟩) (elevations [⟨0, 0, 100, none⟩, ⟨4, 0, 200, none⟩]) = .weights w ∧
    w 0 = 3 / 4 ∧ w 1 = 1 / 4 := by
  let sta : List Station := [⟨0, 0, 100, none⟩, ⟨4, 0, 200, none⟩]
  have hd : Distinct sta := by
    intro i j hi hj hx hy
    have hi' : i < 2 := hi
    have hj' : j < 2 := hj
    interval_cases i <;> interval_cases j <;> first | rfl | (exfalso; revert hx hy; norm_num [sta])
  have h4 : √((16 : ℝ)) = 4 := by rw [show (16 : ℝ) = 4 ^ 2 by norm_num]; exact Real.sqrt_sq (by norm_num)
  have h3 : √((9 : ℝ)) = 3 := by rw [show (9 : ℝ) = 3 ^ 2 by norm_num]; exact Real.sqrt_sq (by norm_num)
  have a : ∀ i j, i < 2 → j < 2 → adMatrix sta i j = if i = j then 0 else 4 := by
    intro i j hi hj
    rw [adMatrix_eq sta i j hi hj]
    interval_cases i <;> interval_cases j <;> norm_num [sta, h4]
  have b : ∀ i, i < 2 → gridDist sta ⟨1, 0, 150⟩ i = if i = 0 then 1 else 3 := by
    intro i hi
    have hi' : i < sta.length := hi
    rw [gridDist_eq sta _ i hi']
    unfold px py
    rw [dif_pos hi', dif_pos hi']
    interval_cases i <;> norm_num [sta, h3]
  have sys : System sta.length (adMatrix sta) (gridDist sta ⟨1, 0, 150⟩) (fun _ => true)
      (fun n => if n = 0 then 3 / 4 else 1 / 4) 0 := by
    refine ⟨fun m hm _ => ?_, ?_, fun n _ h => by cases h⟩
    · have hm' : m < 2 := hm
      show ∑ n ∈ range 2, adMatrix sta m n * _ + 0 = _
      simp only [sum_range_succ, sum_range_zero, zero_add]
      rw [a m 0 hm' (by norm_num), a m 1 hm' (by norm_num), b m hm']
      interval_cases m <;> norm_num
    · show ∑ n ∈ range 2, _ = _
      norm_num [sum_range_succ]
  obtain ⟨w, hw, e⟩ := C147_best mem sta ⟨1, 0, 150⟩ (fun n => if n = 0 then 3 / 4 else 1 / 4) (by simp [sta]) hd sys.2.1
    (fun i _ => by split <;> norm_num) (fun w' h1 => (system_best hd sys w' h1 (fun _ _ h => by cases h)).1)
  refine ⟨w, hw, ?_, ?_⟩
  · rw [e 0 (by simp [sta])]; norm_num
  · rw [e 1 (by simp [sta])]; norm_num

end Verif.Krige
