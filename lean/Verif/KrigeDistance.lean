import Verif.KrigeLemmas
import Mathlib.Analysis.SpecialFunctions.Integrals.Basic
import Mathlib.MeasureTheory.Integral.IntervalIntegral.Periodic
import Mathlib.Analysis.SpecialFunctions.Trigonometric.Arctan
import Mathlib.Analysis.SpecialFunctions.Complex.Arg

/-! Distances between different points of the plane are of strictly negative type, so the kriging equations
of stations at different places always have a solution. -/

namespace Verif.Krige
open Finset

/-! ### The line -/

/-- Points on a line below `M`. -/
theorem line_step {ι : Type} [DecidableEq ι] (t c : ι → ℝ) (a : ι) (S : Finset ι) (ha : a ∉ S) (hle : ∀ i ∈ S, t i ≤ t a)
    (M : ℝ) :
    2 * (∑ i ∈ insert a S, c i) * (∑ i ∈ insert a S, c i * (M - t i)) -
      ∑ i ∈ insert a S, ∑ j ∈ insert a S, c i * c j * |t i - t j| =
    (2 * (∑ i ∈ S, c i) * (∑ i ∈ S, c i * (t a - t i)) - ∑ i ∈ S, ∑ j ∈ S, c i * c j * |t i - t j|) +
      2 * (∑ i ∈ insert a S, c i) ^ 2 * (M - t a) := by
  have h1 : ∑ j ∈ S, c a * c j * |t a - t j| = c a * ∑ j ∈ S, c j * (t a - t j) := by
    rw [mul_sum]
    refine sum_congr rfl fun j hj => ?_
    rw [abs_of_nonneg (sub_nonneg.2 (hle j hj))]; ring
  have h2 : ∑ i ∈ S, c i * c a * |t i - t a| = c a * ∑ j ∈ S, c j * (t a - t j) := by
    rw [mul_sum]
    refine sum_congr rfl fun j hj => ?_
    rw [abs_sub_comm, abs_of_nonneg (sub_nonneg.2 (hle j hj))]; ring
  have h3 : ∑ i ∈ S, c i * (M - t i) = ∑ i ∈ S, c i * (t a - t i) + (∑ i ∈ S, c i) * (M - t a) := by
    rw [sum_mul, ← sum_add_distrib]
    exact sum_congr rfl fun j _ => by ring
  have h4 : ∑ i ∈ insert a S, ∑ j ∈ insert a S, c i * c j * |t i - t j| =
      2 * (c a * ∑ j ∈ S, c j * (t a - t j)) + ∑ i ∈ S, ∑ j ∈ S, c i * c j * |t i - t j| := by
    rw [sum_insert ha, sum_insert ha, h1]
    have : ∑ i ∈ S, ∑ j ∈ insert a S, c i * c j * |t i - t j| =
        ∑ i ∈ S, c i * c a * |t i - t a| + ∑ i ∈ S, ∑ j ∈ S, c i * c j * |t i - t j| := by
      rw [← sum_add_distrib]
      exact sum_congr rfl fun i _ => sum_insert ha
    rw [this, h2, sub_self, abs_zero]
    ring
  rw [h4, sum_insert ha, sum_insert ha, h3]
  ring

theorem line_nonneg {ι : Type} [DecidableEq ι] (t c : ι → ℝ) (S : Finset ι) :
    ∀ M : ℝ, (∀ i ∈ S, t i ≤ M) →
      0 ≤ 2 * (∑ i ∈ S, c i) * (∑ i ∈ S, c i * (M - t i)) - ∑ i ∈ S, ∑ j ∈ S, c i * c j * |t i - t j| := by
  induction S using Finset.induction_on_max_value t with
  | empty => intro M _; simp
  | insert a S ha hle ih =>
    intro M hM
    rw [line_step t c a S ha hle M]
    have h1 := ih (t a) hle
    have h2 : 0 ≤ M - t a := sub_nonneg.2 (hM a (mem_insert_self _ _))
    have h3 : 0 ≤ 2 * (∑ i ∈ insert a S, c i) ^ 2 * (M - t a) := by positivity
    linarith

theorem line_zero {ι : Type} [DecidableEq ι] (t c : ι → ℝ) (S : Finset ι) :
    ∀ M : ℝ, (∀ i ∈ S, t i < M) → (∀ i ∈ S, ∀ j ∈ S, t i = t j → i = j) →
      2 * (∑ i ∈ S, c i) * (∑ i ∈ S, c i * (M - t i)) - ∑ i ∈ S, ∑ j ∈ S, c i * c j * |t i - t j| = 0 →
      ∀ i ∈ S, c i = 0 := by
  induction S using Finset.induction_on_max_value t with
  | empty => intro M _ _ _ i hi; simp at hi
  | insert a S ha hle ih =>
    intro M hM hinj h0
    rw [line_step t c a S ha hle M] at h0
    have h1 := line_nonneg t c S (t a) hle
    have h2 : 0 < M - t a := sub_pos.2 (hM a (mem_insert_self _ _))
    have h3 : 0 ≤ 2 * (∑ i ∈ insert a S, c i) ^ 2 * (M - t a) := by positivity
    have hS := ih (t a) (fun i hi => lt_of_le_of_ne (hle i hi) fun e => ha
      (by rw [← hinj i (mem_insert_of_mem hi) a (mem_insert_self _ _) e]; exact hi))
      (fun i hi j hj => hinj i (mem_insert_of_mem hi) j (mem_insert_of_mem hj)) (by linarith)
    have hC : (∑ i ∈ insert a S, c i) = 0 := by
      have : 2 * (∑ i ∈ insert a S, c i) ^ 2 * (M - t a) = 0 := by linarith
      rcases mul_eq_zero.1 this with h | h
      · rcases mul_eq_zero.1 h with h | h
        · norm_num at h
        · exact pow_eq_zero_iff (two_ne_zero) |>.1 h
      · exact absurd h h2.ne'
    intro i hi
    rcases mem_insert.1 hi with rfl | hi
    · rw [sum_insert ha, sum_eq_zero hS, add_zero] at hC; exact hC
    · exact hS i hi

/-! ### The plane -/

/-- Projections on all directions see every segment with its length. -/
theorem crofton (a b : ℝ) :
    ∫ θ in (-Real.pi)..Real.pi, |a * Real.cos θ + b * Real.sin θ| =
      Real.sqrt (a ^ 2 + b ^ 2) * ∫ θ in (-Real.pi)..Real.pi, |Real.cos θ| := by
  obtain ⟨φ, r, hr, ha, hb⟩ : ∃ φ r : ℝ, r = Real.sqrt (a ^ 2 + b ^ 2) ∧ a = r * Real.cos φ ∧ b = r * Real.sin φ := by
    refine ⟨(⟨a, b⟩ : ℂ).arg, ‖(⟨a, b⟩ : ℂ)‖, ?_, ?_, ?_⟩
    · rw [Complex.norm_def, Complex.normSq_apply]; congr 1; ring
    · rw [Complex.norm_mul_cos_arg]
    · rw [Complex.norm_mul_sin_arg]
  have hr0 : 0 ≤ r := by rw [hr]; exact Real.sqrt_nonneg _
  have e : ∀ θ, |a * Real.cos θ + b * Real.sin θ| = r * |Real.cos (θ - φ)| := by
    intro θ
    rw [Real.cos_sub, show r * |Real.cos θ * Real.cos φ + Real.sin θ * Real.sin φ| = |r * (Real.cos θ * Real.cos φ + Real.sin θ * Real.sin φ)| by
      rw [abs_mul, abs_of_nonneg hr0], ha, hb]
    congr 1
    ring
  simp only [e]
  rw [intervalIntegral.integral_const_mul, ← hr, intervalIntegral.integral_comp_sub_right (fun θ => |Real.cos θ|)]
  congr 1
  have hp : Function.Periodic (fun θ => |Real.cos θ|) (2 * Real.pi) := fun θ => by
    simp only [Real.cos_add_two_pi]
  have := hp.intervalIntegral_add_eq (-Real.pi - φ) (-Real.pi)
  rw [show -Real.pi - φ + 2 * Real.pi = Real.pi - φ by ring, show -Real.pi + 2 * Real.pi = Real.pi by ring] at this
  exact this

/-- A direction in which different points have different projections. -/
theorem exists_direction {ι : Type} (x y : ι → ℝ) (S : Finset ι)
    (hd : ∀ i ∈ S, ∀ j ∈ S, x i = x j → y i = y j → i = j) :
    ∃ θ ∈ Set.Icc (-Real.pi) Real.pi, ∀ i ∈ S, ∀ j ∈ S,
      x i * Real.cos θ + y i * Real.sin θ = x j * Real.cos θ + y j * Real.sin θ → i = j := by
  classical
  obtain ⟨s, hs⟩ := Infinite.exists_notMem_finset ((S ×ˢ S).image fun p : ι × ι => -(x p.1 - x p.2) / (y p.1 - y p.2))
  refine ⟨Real.arctan s, ⟨?_, ?_⟩, fun i hi j hj h => ?_⟩
  · have := Real.neg_pi_div_two_lt_arctan s; have := Real.pi_pos; linarith
  · have := Real.arctan_lt_pi_div_two s; have := Real.pi_pos; linarith
  · have hc : 0 < Real.cos (Real.arctan s) := Real.cos_arctan_pos s
    have hsn : Real.sin (Real.arctan s) = s * Real.cos (Real.arctan s) := by
      have := Real.tan_arctan s
      rw [Real.tan_eq_sin_div_cos] at this
      field_simp at this
      linarith
    rw [hsn] at h
    have h' : x i + y i * s = x j + y j * s := by
      have : (x i + y i * s) * Real.cos (Real.arctan s) = (x j + y j * s) * Real.cos (Real.arctan s) := by linarith
      exact mul_right_cancel₀ hc.ne' this
    by_cases hy : y i = y j
    · exact hd i hi j hj (by rw [hy] at h'; linarith) hy
    · exfalso
      apply hs
      rw [mem_image]
      refine ⟨(i, j), mem_product.2 ⟨hi, hj⟩, ?_⟩
      have hne : y i - y j ≠ 0 := sub_ne_zero.2 hy
      simp only
      field_simp
      linarith

/-- Distances between different points are of strictly negative type. -/
theorem plane_zero {ι : Type} [DecidableEq ι] (x y c : ι → ℝ) (S : Finset ι)
    (hd : ∀ i ∈ S, ∀ j ∈ S, x i = x j → y i = y j → i = j) (hsum : ∑ i ∈ S, c i = 0)
    (hq : ∑ i ∈ S, ∑ j ∈ S, c i * c j * Real.sqrt ((x i - x j) ^ 2 + (y i - y j) ^ 2) = 0) :
    ∀ i ∈ S, c i = 0 := by
  let t : ℝ → ι → ℝ := fun θ i => x i * Real.cos θ + y i * Real.sin θ
  let F : ℝ → ℝ := fun θ => ∑ i ∈ S, ∑ j ∈ S, c i * c j * |t θ i - t θ j|
  have hFle : ∀ θ, F θ ≤ 0 := by
    intro θ
    obtain ⟨M, hM⟩ : ∃ M, ∀ i ∈ S, t θ i ≤ M := by
      obtain ⟨M, hM⟩ := (S.image (t θ)).bddAbove
      exact ⟨M, fun i hi => hM (mem_coe.2 (mem_image_of_mem _ hi))⟩
    have := line_nonneg (t θ) c S M hM
    rw [hsum] at this
    show ∑ i ∈ S, ∑ j ∈ S, c i * c j * |t θ i - t θ j| ≤ 0
    linarith
  have hcont : Continuous F := by
    show Continuous fun θ => ∑ i ∈ S, ∑ j ∈ S, c i * c j * |t θ i - t θ j|
    refine continuous_finsetSum _ fun i _ => continuous_finsetSum _ fun j _ => ?_
    simp only [t]
    fun_prop
  have hint : ∫ θ in (-Real.pi)..Real.pi, F θ = 0 := by
    have e : ∀ θ i j, |t θ i - t θ j| = |(x i - x j) * Real.cos θ + (y i - y j) * Real.sin θ| := by
      intro θ i j
      simp only [t]
      congr 1
      ring
    simp only [F, e]
    rw [intervalIntegral.integral_finsetSum]
    · have : ∀ i ∈ S, ∫ θ in (-Real.pi)..Real.pi, ∑ j ∈ S, c i * c j * |(x i - x j) * Real.cos θ + (y i - y j) * Real.sin θ| =
          ∑ j ∈ S, c i * c j * Real.sqrt ((x i - x j) ^ 2 + (y i - y j) ^ 2) *
            ∫ θ in (-Real.pi)..Real.pi, |Real.cos θ| := by
        intro i _
        rw [intervalIntegral.integral_finsetSum]
        · refine sum_congr rfl fun j _ => ?_
          rw [intervalIntegral.integral_const_mul, crofton]
          ring
        · intro j _
          apply Continuous.intervalIntegrable
          fun_prop
      rw [sum_congr rfl this]
      simp only [← sum_mul]
      rw [hq, zero_mul]
    · intro i _
      apply Continuous.intervalIntegrable
      fun_prop
  obtain ⟨θ, hθ, hinj⟩ := exists_direction x y S hd
  have hzero : F θ = 0 := by
    by_contra hne
    have hneg : 0 < -F θ := by
      have := lt_of_le_of_ne (hFle θ) hne
      linarith
    have := intervalIntegral.integral_pos (a := -Real.pi) (b := Real.pi) (f := fun θ => -F θ)
      (by have := Real.pi_pos; linarith) hcont.neg.continuousOn (fun u _ => by have := hFle u; linarith) ⟨θ, hθ, hneg⟩
    rw [intervalIntegral.integral_neg, hint] at this
    simp at this
  obtain ⟨M, hM⟩ : ∃ M, ∀ i ∈ S, t θ i ≤ M := by
    obtain ⟨M, hM⟩ := (S.image (t θ)).bddAbove
    exact ⟨M, fun i hi => hM (mem_coe.2 (mem_image_of_mem _ hi))⟩
  refine line_zero (t θ) c S (M + 1) (fun i hi => by have := hM i hi; linarith) hinj ?_
  rw [hsum]
  have : ∑ i ∈ S, ∑ j ∈ S, c i * c j * |t θ i - t θ j| = 0 := hzero
  rw [this]
  ring

/-! ### Stations -/

open Verif.Idw

theorem adMatrix_eq (sta : List Station) (i j : Nat) (hi : i < sta.length) (hj : j < sta.length) :
    adMatrix sta i j = Real.sqrt ((sta[i].x - sta[j].x) ^ 2 + (sta[i].y - sta[j].y) ^ 2) := by
  unfold adMatrix
  rw [List.getElem?_eq_getElem hi, List.getElem?_eq_getElem hj]
  simp only
  split
  · rename_i e
    subst e
    simp
  · split
    · rfl
    · unfold between
      congr 1
      ring

theorem gridDist_nonneg (sta : List Station) (g : Cell) (i : Nat) : 0 ≤ gridDist sta g i := by
  unfold gridDist
  split
  · exact Real.sqrt_nonneg _
  · exact le_refl _

/-- The equations of stations at different places are never degenerate. -/
theorem stations_regular (sta : List Station)
    (hd : ∀ i j (hi : i < sta.length) (hj : j < sta.length), sta[i].x = sta[j].x → sta[i].y = sta[j].y → i = j)
    (used : Nat → Prop) (hu : ∃ m < sta.length, used m) (v : Nat → ℝ) (nu : ℝ)
    (e1 : ∀ m < sta.length, used m → ∑ n ∈ range sta.length, adMatrix sta m n * v n + nu = 0)
    (e2 : ∑ n ∈ range sta.length, v n = 0) (e3 : ∀ n < sta.length, ¬ used n → v n = 0) :
    nu = 0 ∧ ∀ n < sta.length, v n = 0 := by
  have hv : ∀ i ∈ range sta.length, v i = 0 := by
    refine plane_zero (fun i => if h : i < sta.length then sta[i].x else 0)
      (fun i => if h : i < sta.length then sta[i].y else 0) v (range sta.length) ?_ e2 ?_
    · intro i hi j hj hx hy
      rw [mem_range] at hi hj
      simp only [hi, hj, dif_pos] at hx hy
      exact hd i j hi hj hx hy
    · have : ∀ i ∈ range sta.length, ∑ j ∈ range sta.length, v i * v j *
          Real.sqrt (((if h : i < sta.length then sta[i].x else 0) - (if h : j < sta.length then sta[j].x else 0)) ^ 2 +
            ((if h : i < sta.length then sta[i].y else 0) - (if h : j < sta.length then sta[j].y else 0)) ^ 2) =
          v i * -nu := by
        intro i hi
        rw [mem_range] at hi
        have h1 : ∀ j ∈ range sta.length, v i * v j *
          Real.sqrt (((if h : i < sta.length then sta[i].x else 0) - (if h : j < sta.length then sta[j].x else 0)) ^ 2 +
            ((if h : i < sta.length then sta[i].y else 0) - (if h : j < sta.length then sta[j].y else 0)) ^ 2) =
            v i * (adMatrix sta i j * v j) := by
          intro j hj
          rw [mem_range] at hj
          rw [adMatrix_eq sta i j hi hj]
          simp only [hi, hj, dif_pos]
          ring
        rw [sum_congr rfl h1, ← mul_sum]
        by_cases hui : used i
        · rw [show ∑ j ∈ range sta.length, adMatrix sta i j * v j = -nu by have := e1 i hi hui; linarith]
        · rw [e3 i hi hui, zero_mul, zero_mul]
      rw [sum_congr rfl this, ← sum_mul, e2, zero_mul]
  refine ⟨?_, fun n hn => hv n (mem_range.2 hn)⟩
  obtain ⟨m, hm, hu⟩ := hu
  have := e1 m hm hu
  rw [sum_eq_zero fun n hn => by rw [hv n hn, mul_zero], zero_add] at this
  exact this

end Verif.Krige
