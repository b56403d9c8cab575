import Verif.Sun
import Mathlib.Analysis.SpecialFunctions.Pow.Asymptotics
import Mathlib.Analysis.SpecialFunctions.Trigonometric.Deriv
import Mathlib.Analysis.Real.Pi.Bounds
import Mathlib.Topology.Order.IntermediateValue
import Mathlib.Analysis.SpecificLimits.Basic
import Mathlib.Tactic.Linarith
import Mathlib.Tactic.NormNum
import Mathlib.Tactic.FieldSimp
import Mathlib.Tactic.Ring
import Mathlib.Tactic.LinearCombination
import Mathlib.Tactic.Positivity

/-!
Helper lemmas about the ephemeris.
-/

namespace Verif.Sun

theorem degrd_eq : degrd = Real.pi / 180 := by
  unfold degrd
  rw [Real.arctan_one]; ring

theorem degrd_pos : 0 < degrd := by rw [degrd_eq]; positivity

theorem fmod_nonneg {a b : ℝ} (ha : 0 ≤ a) (hb : 0 < b) : 0 ≤ fmod a b ∧ fmod a b < b := by
  unfold fmod
  rw [if_pos (by positivity)]
  have h1 := Int.floor_le (a / b)
  have h2 := Int.lt_floor_add_one (a / b)
  rw [le_div_iff₀ hb] at h1
  rw [div_lt_iff₀ hb] at h2
  constructor <;> nlinarith

theorem fmod_int (a b : ℝ) : ∃ k : Int, fmod a b = a - b * k := by
  unfold fmod
  split
  · exact ⟨_, rfl⟩
  · exact ⟨_, rfl⟩

theorem fmod_lt {a b : ℝ} (hb : 0 < b) : |fmod a b| < b := by
  rw [abs_lt]
  by_cases ha : 0 ≤ a
  · have := fmod_nonneg ha hb
    constructor <;> linarith
  · have hn : ¬ 0 ≤ a / b := by
      rw [not_le] at ha ⊢
      exact div_neg_of_neg_of_pos ha hb
    unfold fmod
    rw [if_neg hn]
    have h1 := Int.le_ceil (a / b)
    have h2 := Int.ceil_lt_add_one (a / b)
    rw [div_le_iff₀ hb] at h1
    have h3 : ((⌈a / b⌉ : ℝ) - 1) * b < a := by
      rw [← lt_div_iff₀ hb]; linarith
    constructor <;> nlinarith

/-! ### Kepler's equation -/

theorem sin_lip (a b : ℝ) : |Real.sin a - Real.sin b| ≤ |a - b| := by
  rw [Real.sin_sub_sin, abs_mul, abs_mul]
  have h1 : |Real.sin ((a - b) / 2)| ≤ |(a - b) / 2| := Real.abs_sin_le_abs
  have h2 := Real.abs_cos_le_one ((a + b) / 2)
  have h3 : |(a - b) / 2| = |a - b| / 2 := by rw [abs_div]; norm_num
  have h4 : |(2 : ℝ)| = 2 := by norm_num
  rw [h4]
  have h5 := abs_nonneg (Real.sin ((a - b) / 2))
  have h6 := abs_nonneg (Real.cos ((a + b) / 2))
  nlinarith

/-- The values of the loop. -/
noncomputable def iter (m e : ℝ) : Nat → ℝ
  | 0 => m
  | n + 1 => m + e * Real.sin (iter m e n)

theorem iter_step (m e : ℝ) (he : 0 ≤ e) (n : Nat) :
    |iter m e (n + 2) - iter m e (n + 1)| ≤ e * |iter m e (n + 1) - iter m e n| := by
  have : iter m e (n + 2) - iter m e (n + 1) = e * (Real.sin (iter m e (n + 1)) - Real.sin (iter m e n)) := by
    simp only [iter]; ring
  rw [this, abs_mul, abs_of_nonneg he]
  exact mul_le_mul_of_nonneg_left (sin_lip _ _) he

theorem iter_diff (m e : ℝ) (he : 0 ≤ e) (n : Nat) :
    |iter m e (n + 1) - iter m e n| ≤ e ^ n * e := by
  induction n with
  | zero =>
    have : iter m e 1 - iter m e 0 = e * Real.sin m := by simp only [iter]; ring
    rw [this, abs_mul, abs_of_nonneg he, pow_zero, one_mul]
    have := Real.abs_sin_le_one m
    nlinarith
  | succ n ih =>
    calc _ ≤ e * |iter m e (n + 1) - iter m e n| := iter_step m e he n
      _ ≤ e * (e ^ n * e) := mul_le_mul_of_nonneg_left ih he
      _ = e ^ (n + 1) * e := by ring

/-- A positive lower bound of the values. -/
theorem iter_pos {m e : ℝ} (he : 0 ≤ e) (he1 : e < 1) (hm : 0 < m) : ∃ c, 0 < c ∧ ∀ n, c ≤ iter m e n := by
  by_cases h : e < m
  · refine ⟨m - e, by linarith, fun n => ?_⟩
    cases n with
    | zero => simp only [iter]; linarith
    | succ n =>
      simp only [iter]
      have := Real.neg_one_le_sin (iter m e n)
      nlinarith
  · refine ⟨m, hm, fun n => ?_⟩
    have key : ∀ n, m ≤ iter m e n ∧ iter m e n ≤ m + e := by
      intro n
      induction n with
      | zero => simp only [iter]; constructor <;> linarith
      | succ n ih =>
        simp only [iter]
        have h1 : 0 ≤ Real.sin (iter m e n) := by
          apply Real.sin_nonneg_of_nonneg_of_le_pi
          · linarith
          · have := Real.pi_gt_three
            linarith
        have h2 := Real.sin_le_one (iter m e n)
        constructor <;> nlinarith
    exact (key n).1

theorem iter_neg (m e : ℝ) (n : Nat) : iter (-m) e n = -iter m e n := by
  induction n with
  | zero => rfl
  | succ n ih =>
    simp only [iter, ih, Real.sin_neg]; ring

theorem iter_away {m e : ℝ} (he : 0 ≤ e) (he1 : e < 1) (hm : m ≠ 0) : ∃ c, 0 < c ∧ ∀ n, c ≤ |iter m e n| := by
  rcases lt_or_gt_of_ne hm with h | h
  · obtain ⟨c, hc, hn⟩ := iter_pos he he1 (neg_pos.2 h)
    refine ⟨c, hc, fun n => ?_⟩
    have := hn n
    rw [iter_neg] at this
    exact le_trans this (neg_le_abs _)
  · obtain ⟨c, hc, hn⟩ := iter_pos he he1 h
    exact ⟨c, hc, fun n => le_trans (hn n) (le_abs_self _)⟩

/-- The result of the loop, by the number of turns. -/
theorem kepler_iter {m e : ℝ} (he : 0 ≤ e) (he1 : e < 1) (hm : m ≠ 0) (N : Nat)
    (hN : |(iter m e (N + 1) - iter m e N) / iter m e (N + 1)| < tolerance)
    (hlt : ∀ n < N, ¬ |(iter m e (n + 1) - iter m e n) / iter m e (n + 1)| < tolerance)
    (n fuel : Nat) (hn : n ≤ N) (hf : N < n + fuel) : kepler m e fuel (iter m e n) = .ok (iter m e (N + 1)) := by
  obtain ⟨c, hc, hcn⟩ := iter_away he he1 hm
  have hne : ∀ n, iter m e n ≠ 0 := fun n h => by
    have := hcn n
    rw [h, abs_zero] at this
    linarith
  induction fuel generalizing n with
  | zero => omega
  | succ fuel ih =>
    unfold kepler
    have e1 : m + e * Real.sin (iter m e n) = iter m e (n + 1) := rfl
    simp only [e1]
    rw [if_neg (hne (n + 1))]
    by_cases h : n = N
    · subst h
      rw [if_pos hN]
    · rw [if_neg (hlt n (by omega))]
      exact ih (n + 1) (by omega) (by omega)

theorem tolerance_pos : 0 < tolerance := by unfold tolerance; norm_num

theorem exists_turn {m e : ℝ} (he : 0 ≤ e) (he1 : e < 1) (hm : m ≠ 0) :
    ∃ N, |(iter m e (N + 1) - iter m e N) / iter m e (N + 1)| < tolerance := by
  obtain ⟨c, hc, hcn⟩ := iter_away he he1 hm
  obtain ⟨N, hN⟩ := exists_pow_lt_of_lt_one (show 0 < tolerance * c by exact mul_pos tolerance_pos hc) he1
  refine ⟨N, ?_⟩
  have hp : 0 < |iter m e (N + 1)| := lt_of_lt_of_le hc (hcn _)
  rw [abs_div, div_lt_iff₀ hp]
  have h1 := iter_diff m e he N
  have h2 : e ^ N * e ≤ e ^ N := mul_le_of_le_one_right (pow_nonneg he _) he1.le
  have h3 : tolerance * c ≤ tolerance * |iter m e (N + 1)| := mul_le_mul_of_nonneg_left (hcn _) tolerance_pos.le
  linarith

/-- Kepler's equation has a solution. -/
theorem kepler_exists (m e : ℝ) (he : 0 ≤ e) : ∃ x, x = m + e * Real.sin x := by
  have hc : ContinuousOn (fun x : ℝ => x - e * Real.sin x) (Set.Icc (m - e) (m + e)) :=
    (continuous_id.sub (continuous_const.mul Real.continuous_sin)).continuousOn
  have h1 : (m - e) - e * Real.sin (m - e) ≤ m := by
    have := Real.neg_one_le_sin (m - e)
    nlinarith
  have h2 : m ≤ (m + e) - e * Real.sin (m + e) := by
    have := Real.sin_le_one (m + e)
    nlinarith
  obtain ⟨x, _, hx⟩ := intermediate_value_Icc (by linarith) hc ⟨h1, h2⟩
  exact ⟨x, by simp only at hx; linarith⟩

theorem kepler_unique {m e x y : ℝ} (he : 0 ≤ e) (he1 : e < 1) (hx : x = m + e * Real.sin x)
    (hy : y = m + e * Real.sin y) : x = y := by
  have h : x - y = e * (Real.sin x - Real.sin y) := by linarith
  have h2 : |x - y| ≤ e * |x - y| := by
    conv_lhs => rw [h, abs_mul, abs_of_nonneg he]
    exact mul_le_mul_of_nonneg_left (sin_lip _ _) he
  have h3 := abs_nonneg (x - y)
  have : |x - y| = 0 := by nlinarith
  linarith [abs_eq_zero.1 this]

end Verif.Sun
