import Mathlib.Algebra.Polynomial.Derivative
import Mathlib.Algebra.Polynomial.Roots
import Mathlib.Analysis.Calculus.Deriv.Polynomial
import Mathlib.Topology.Algebra.Polynomial
import Mathlib.Analysis.Calculus.Deriv.MeanValue
import Mathlib.Analysis.Calculus.MeanValue
import Mathlib.MeasureTheory.Integral.IntervalIntegral.FundThmCalculus
import Mathlib.Tactic.LinearCombination
import Mathlib.Tactic.FieldSimp
import Mathlib.Tactic.Positivity
import Mathlib.Tactic.Linarith

/-
Legendre polynomials: helper lemmas for `beta_0` (smrf/envphys/solar/twostream.py 170-247). The polynomials are built
here with the recurrence of the code; `LegendreProps` says independently what they are.
-/

namespace Verif.Legendre

open Polynomial intervalIntegral

/-- The polynomials by the three-term recurrence, the one of twostream.py 214. -/
noncomputable def leg : ℕ → ℝ[X]
  | 0 => 1
  | 1 => X
  | n + 2 => C (1 / ((n : ℝ) + 2)) * (C (2 * (n : ℝ) + 3) * X * leg (n + 1) - C ((n : ℝ) + 1) * leg n)

theorem leg_rec (n : ℕ) : C ((n : ℝ) + 2) * leg (n + 2) = C (2 * (n : ℝ) + 3) * X * leg (n + 1) - C ((n : ℝ) + 1) * leg n := by
  rw [leg, ← mul_assoc, ← C_mul, mul_one_div_cancel (by positivity), C_1, one_mul]

theorem C_cancel {c : ℝ} (hc : c ≠ 0) {p q : ℝ[X]} (h : C c * p = C c * q) : p = q :=
  mul_left_cancel₀ (by simpa using hc) h

/-- The two derivative relations, by induction. -/
theorem deriv_pair (n : ℕ) :
    derivative (leg (n + 1)) = X * derivative (leg n) + C ((n : ℝ) + 1) * leg n ∧
    X * derivative (leg (n + 1)) = derivative (leg n) + C ((n : ℝ) + 1) * leg (n + 1) := by
  induction n with
  | zero => simp [leg]
  | succ n ih =>
    obtain ⟨hA, hB⟩ := ih
    have hr := leg_rec n
    have hd : C ((n : ℝ) + 2) * derivative (leg (n + 2)) =
        C (2 * (n : ℝ) + 3) * (leg (n + 1) + X * derivative (leg (n + 1))) - C ((n : ℝ) + 1) * derivative (leg n) := by
      have := congrArg derivative hr
      simp only [derivative_mul, derivative_C, derivative_sub, derivative_X, zero_mul, zero_add, mul_one] at this
      linear_combination this
    have e2 : (C ((n : ℝ) + 2) : ℝ[X]) = C (n : ℝ) + 2 := by rw [C_add, map_ofNat C 2]
    have e3 : (C (2 * (n : ℝ) + 3) : ℝ[X]) = 2 * C (n : ℝ) + 3 := by rw [C_add, C_mul, map_ofNat C 2, map_ofNat C 3]
    have e1 : (C ((n : ℝ) + 1) : ℝ[X]) = C (n : ℝ) + 1 := by simp
    have e4 : (C (((n + 1 : ℕ) : ℝ) + 1) : ℝ[X]) = C (n : ℝ) + 2 := by
      rw [← e2]; push_cast; congr 1; ring
    rw [e1] at hA hB hd hr
    rw [e2] at hd hr
    rw [e3] at hd hr
    have hA' : derivative (leg (n + 2)) = X * derivative (leg (n + 1)) + (C (n : ℝ) + 2) * leg (n + 1) := by
      have hne : (C (n : ℝ) + 2 : ℝ[X]) ≠ 0 := by
        rw [← e2]; exact C_ne_zero.2 (by positivity)
      apply mul_left_cancel₀ hne
      linear_combination hd + (C (n : ℝ) + 1) * hB
    refine ⟨by rw [e4]; exact hA', ?_⟩
    rw [e4]
    change X * derivative (leg (n + 2)) = derivative (leg (n + 1)) + (C (n : ℝ) + 2) * leg (n + 2)
    linear_combination X * hA' + X * hB - hA - hr

/-- `(2 n + 3) P_(n+1)` is the derivative of `P_(n+2) - P_n`. -/
theorem deriv_diff (n : ℕ) : derivative (leg (n + 2) - leg n) = C (2 * (n : ℝ) + 3) * leg (n + 1) := by
  have h1 := (deriv_pair (n + 1)).1
  have h2 := (deriv_pair n).2
  have e : (C (2 * (n : ℝ) + 3) : ℝ[X]) = C (((n + 1 : ℕ) : ℝ) + 1) + C ((n : ℝ) + 1) := by
    rw [← C_add]; push_cast; congr 1; ring
  rw [derivative_sub, e]
  linear_combination h1 + h2

/-- `(x² - 1) P'_(n+1) = (n + 1) (x P_(n+1) - P_n)`. -/
theorem deriv_square (n : ℕ) :
    (X ^ 2 - 1) * derivative (leg (n + 1)) = C ((n : ℝ) + 1) * (X * leg (n + 1) - leg n) := by
  obtain ⟨hA, hB⟩ := deriv_pair n
  linear_combination X * hB - hA

/-- Legendre's differential equation. -/
theorem ode (n : ℕ) : derivative ((1 - X ^ 2) * derivative (leg n)) = -(C ((n : ℝ) * (n + 1)) * leg n) := by
  cases n with
  | zero => simp [leg]
  | succ n =>
    have h := congrArg derivative (deriv_square n)
    have hB := (deriv_pair n).2
    have e : (1 - X ^ 2 : ℝ[X]) * derivative (leg (n + 1)) = -((X ^ 2 - 1) * derivative (leg (n + 1))) := by ring
    rw [e, derivative_neg, h]
    simp only [derivative_mul, derivative_C, derivative_sub, derivative_X, zero_mul, zero_add, one_mul]
    have e1 : (C (((n + 1 : ℕ) : ℝ) * (((n + 1 : ℕ) : ℝ) + 1)) : ℝ[X]) = C ((n : ℝ) + 1) * (1 + C ((n : ℝ) + 1)) := by
      rw [← C_1, ← C_add, ← C_mul]; push_cast; congr 1; ring
    rw [e1]
    linear_combination -(C ((n : ℝ) + 1)) * hB

/-! ### Values -/

theorem eval_rec (n : ℕ) (x : ℝ) : ((n : ℝ) + 2) * (leg (n + 2)).eval x =
    (2 * (n : ℝ) + 3) * x * (leg (n + 1)).eval x - ((n : ℝ) + 1) * (leg n).eval x := by
  have := congrArg (eval x) (leg_rec n)
  simpa only [eval_mul, eval_sub, eval_C, eval_X] using this

theorem eval_one' (n : ℕ) : (leg n).eval 1 = 1 ∧ (leg (n + 1)).eval 1 = 1 := by
  induction n with
  | zero => simp [leg]
  | succ n ih =>
    refine ⟨ih.2, ?_⟩
    have := eval_rec n 1
    rw [ih.1, ih.2] at this
    have h2 : ((n : ℝ) + 2) ≠ 0 := by positivity
    apply mul_left_cancel₀ h2
    rw [this]; ring

theorem leg_one (n : ℕ) : (leg n).eval 1 = 1 := (eval_one' n).1

theorem parity' (n : ℕ) (x : ℝ) : (leg n).eval (-x) = (-1) ^ n * (leg n).eval x ∧
    (leg (n + 1)).eval (-x) = (-1) ^ (n + 1) * (leg (n + 1)).eval x := by
  induction n with
  | zero => simp [leg]
  | succ n ih =>
    refine ⟨ih.2, ?_⟩
    have h1 := eval_rec n (-x)
    have h2 := eval_rec n x
    rw [ih.1, ih.2] at h1
    have h : ((n : ℝ) + 2) ≠ 0 := by positivity
    apply mul_left_cancel₀ h
    have e1 : (-1 : ℝ) ^ (n + 1 + 1) = (-1) ^ n := by rw [pow_succ, pow_succ]; ring
    have e2 : (-1 : ℝ) ^ (n + 1) = -(-1) ^ n := by rw [pow_succ]; ring
    rw [e2] at h1
    rw [e1]
    linear_combination h1 - (-1) ^ n * h2

theorem leg_neg (n : ℕ) (x : ℝ) : (leg n).eval (-x) = (-1) ^ n * (leg n).eval x := (parity' n x).1

theorem leg_neg_one (n : ℕ) : (leg n).eval (-1) = (-1) ^ n := by rw [leg_neg, leg_one, mul_one]

theorem zero_rec (n : ℕ) : ((n : ℝ) + 2) * (leg (n + 2)).eval 0 = -(((n : ℝ) + 1) * (leg n).eval 0) := by
  have := eval_rec n 0
  linarith

theorem zero_odd (m : ℕ) : (leg (2 * m + 1)).eval 0 = 0 := by
  induction m with
  | zero => simp [leg]
  | succ m ih =>
    have := zero_rec (2 * m + 1)
    rw [ih, mul_zero, neg_zero] at this
    rcases mul_eq_zero.1 this with h | h
    · exact absurd h (by positivity)
    · exact h

theorem zero_even (m : ℕ) : (2 * (m : ℝ) + 2) * (leg (2 * m + 2)).eval 0 = -((2 * (m : ℝ) + 1) * (leg (2 * m)).eval 0) := by
  have := zero_rec (2 * m)
  push_cast at this
  exact this

/-! ### Integrals -/

theorem hasDeriv (p : ℝ[X]) (x : ℝ) : HasDerivAt (fun x => p.eval x) (p.derivative.eval x) x := p.hasDerivAt x

theorem integral_deriv (p : ℝ[X]) (a b : ℝ) : ∫ x in a..b, p.derivative.eval x = p.eval b - p.eval a :=
  integral_eq_sub_of_hasDerivAt (fun x _ => hasDeriv p x) (p.derivative.continuous.intervalIntegrable a b)

/-- The integral over the upper half: `P_n(0) / (n + 2)` for degree `n + 1`. -/
theorem integral_upper (n : ℕ) : ∫ x in (0 : ℝ)..1, (leg (n + 1)).eval x = (leg n).eval 0 / ((n : ℝ) + 2) := by
  have h := integral_deriv (leg (n + 2) - leg n) 0 1
  rw [deriv_diff] at h
  simp only [eval_mul, eval_C, eval_sub, leg_one] at h
  rw [integral_const_mul] at h
  have hz := zero_rec n
  have h2 : ((n : ℝ) + 2) ≠ 0 := by positivity
  have h3 : (2 * (n : ℝ) + 3) ≠ 0 := by positivity
  rw [eq_div_iff h2]
  apply mul_left_cancel₀ h3
  linear_combination ((n : ℝ) + 2) * h - hz

/-- Integration by parts against a polynomial. -/
theorem integral_by_parts (n : ℕ) (q : ℝ[X]) :
    (2 * (n : ℝ) + 3) * ∫ x in (-1 : ℝ)..1, (leg (n + 1)).eval x * q.eval x =
      -∫ x in (-1 : ℝ)..1, (leg (n + 2) - leg n).eval x * q.derivative.eval x := by
  have h := integral_deriv ((leg (n + 2) - leg n) * q) (-1) 1
  have hz : (leg (n + 2) - leg n).eval 1 = 0 ∧ (leg (n + 2) - leg n).eval (-1) = 0 := by
    simp only [eval_sub, leg_one, leg_neg_one, pow_add]
    norm_num
  rw [derivative_mul, deriv_diff] at h
  simp only [eval_add, eval_mul, eval_C] at h
  rw [hz.1, hz.2, zero_mul, zero_mul, sub_zero, integral_add] at h
  · simp only [mul_assoc] at h
    rw [integral_const_mul] at h
    linarith
  · exact Continuous.intervalIntegrable (by fun_prop) _ _
  · exact Continuous.intervalIntegrable (by fun_prop) _ _

/-- Orthogonal to every polynomial of lower degree. -/
theorem orthogonal (k : ℕ) : ∀ (n : ℕ) (q : ℝ[X]), q.natDegree ≤ k → k < n →
    ∫ x in (-1 : ℝ)..1, (leg n).eval x * q.eval x = 0 := by
  induction k with
  | zero =>
    intro n q hq hn
    obtain ⟨n, rfl⟩ : ∃ m, n = m + 1 := ⟨n - 1, by omega⟩
    have h := integral_by_parts n q
    obtain ⟨c, rfl⟩ := natDegree_eq_zero.1 (Nat.le_zero.1 hq)
    simp only [derivative_C, eval_zero, mul_zero, integral_zero, neg_zero] at h
    exact (mul_eq_zero.1 h).resolve_left (by positivity)
  | succ k ih =>
    intro n q hq hn
    obtain ⟨n, rfl⟩ : ∃ m, n = m + 1 := ⟨n - 1, by omega⟩
    have h := integral_by_parts n q
    have hd : q.derivative.natDegree ≤ k := le_trans (natDegree_derivative_le q) (by omega)
    have e1 := ih (n + 2) q.derivative hd (by omega)
    have e2 := ih n q.derivative hd (by omega)
    simp only [eval_sub, sub_mul] at h
    rw [integral_sub, e1, e2] at h
    · exact (mul_eq_zero.1 (by simpa using h)).resolve_left (by positivity)
    · exact Continuous.intervalIntegrable (by fun_prop) _ _
    · exact Continuous.intervalIntegrable (by fun_prop) _ _

/-! ### Degree -/

theorem degree' (n : ℕ) : (leg n).natDegree = n ∧ (leg (n + 1)).natDegree = n + 1 := by
  induction n with
  | zero => simp [leg]
  | succ n ih =>
    refine ⟨ih.2, ?_⟩
    have h2 : ((n : ℝ) + 2) ≠ 0 := by positivity
    have h3 : (2 * (n : ℝ) + 3) ≠ 0 := by positivity
    have h1 : ((n : ℝ) + 1) ≠ 0 := by positivity
    have e : (C ((n : ℝ) + 2) * leg (n + 2)).natDegree = (leg (n + 2)).natDegree := natDegree_C_mul h2
    change (leg (n + 2)).natDegree = n + 1 + 1
    rw [← e, leg_rec]
    have hne : leg (n + 1) ≠ 0 := by
      intro h; have := leg_one (n + 1); rw [h] at this; simp at this
    have d1 : (C (2 * (n : ℝ) + 3) * X * leg (n + 1)).natDegree = n + 2 := by
      rw [mul_assoc, natDegree_C_mul h3, natDegree_X_mul hne, ih.2]
    have d2 : (C ((n : ℝ) + 1) * leg n).natDegree = n := by rw [natDegree_C_mul h1, ih.1]
    rw [natDegree_sub_eq_left_of_natDegree_lt (by rw [d1, d2]; omega), d1]

theorem leg_degree (n : ℕ) : (leg n).natDegree = n := (degree' n).1

/-! ### Bound -/

/-- `n (n + 1) P² + (1 - x²) P'²` grows from 0 to 1. -/
theorem leg_le_one_pos (n : ℕ) (x : ℝ) (h0 : 0 ≤ x) (h1 : x ≤ 1) : |(leg n).eval x| ≤ 1 := by
  rcases Nat.eq_zero_or_pos n with rfl | hn
  · simp [leg]
  set P := leg n with hP
  set E : ℝ[X] := C ((n : ℝ) * (n + 1)) * P ^ 2 + (1 - X ^ 2) * P.derivative ^ 2 with hE
  have ho := ode n
  have c2 : (C (2 : ℝ) : ℝ[X]) = 2 := map_ofNat C 2
  have hE' : E.derivative = 2 * X * P.derivative ^ 2 := by
    have e : E.derivative = C ((n : ℝ) * (n + 1)) * (2 * P * P.derivative) +
        (derivative ((1 - X ^ 2) * P.derivative) * P.derivative + (1 - X ^ 2) * P.derivative * derivative P.derivative) := by
      rw [hE]
      simp only [derivative_add, derivative_mul, derivative_C, derivative_pow, zero_mul, zero_add]
      norm_num [c2]
      ring
    have e2 : derivative ((1 - X ^ 2) * P.derivative) = -(2 * X) * P.derivative + (1 - X ^ 2) * derivative P.derivative := by
      simp only [derivative_mul, derivative_sub, derivative_one, derivative_X_pow]
      norm_num [c2]
    rw [e]
    rw [← hP] at ho
    linear_combination 2 * P.derivative * ho - P.derivative * e2
  have hmono : MonotoneOn (fun y => E.eval y) (Set.Icc 0 1) := by
    apply monotoneOn_of_deriv_nonneg (convex_Icc 0 1) E.continuous.continuousOn
    · exact fun y _ => (E.differentiableAt).differentiableWithinAt
    · intro y hy
      rw [interior_Icc] at hy
      rw [(hasDeriv E y).deriv, hE']
      simp only [eval_mul, eval_pow, eval_X, eval_ofNat]
      have := hy.1.le
      positivity
  have h := hmono (a := x) (b := 1) ⟨h0, h1⟩ ⟨zero_le_one, le_refl _⟩ h1
  have e1 : E.eval 1 = (n : ℝ) * (n + 1) := by
    rw [hE, hP]
    simp [leg_one]
  have e2 : E.eval x = (n : ℝ) * (n + 1) * P.eval x ^ 2 + (1 - x ^ 2) * P.derivative.eval x ^ 2 := by
    rw [hE]; simp
  have hx : 0 ≤ (1 - x ^ 2) * P.derivative.eval x ^ 2 := mul_nonneg (by nlinarith) (sq_nonneg _)
  have hpos : (0 : ℝ) < (n : ℝ) * (n + 1) := by
    have : (0 : ℝ) < n := by exact_mod_cast hn
    positivity
  simp only [e1, e2] at h
  have : P.eval x ^ 2 ≤ 1 := by
    by_contra hc
    nlinarith [mul_lt_mul_of_pos_left (not_le.1 hc) hpos]
  rw [← sq_abs] at this
  nlinarith [abs_nonneg (P.eval x)]

theorem leg_le_one (n : ℕ) (x : ℝ) (h0 : -1 ≤ x) (h1 : x ≤ 1) : |(leg n).eval x| ≤ 1 := by
  rcases le_total 0 x with h | h
  · exact leg_le_one_pos n x h h1
  · have := leg_le_one_pos n (-x) (by linarith) (by linarith)
    rw [leg_neg, abs_mul, abs_pow, abs_neg, abs_one, one_pow, one_mul] at this
    exact this

/-! ### Derivative and values at zero -/

theorem deriv_bound' (n : ℕ) (x : ℝ) (h0 : -1 ≤ x) (h1 : x ≤ 1) :
    |(leg n).derivative.eval x| ≤ (n : ℝ) * (n + 1) / 2 ∧
    |(leg (n + 1)).derivative.eval x| ≤ ((n : ℝ) + 1) * (n + 2) / 2 := by
  induction n with
  | zero => simp [leg]
  | succ n ih =>
    refine ⟨by push_cast; convert ih.2 using 2; ring, ?_⟩
    have h := congrArg (eval x) (deriv_diff n)
    rw [derivative_sub] at h
    simp only [eval_sub, eval_mul, eval_C] at h
    have hb := leg_le_one (n + 1) x h0 h1
    have e : (leg (n + 2)).derivative.eval x = (leg n).derivative.eval x + (2 * (n : ℝ) + 3) * (leg (n + 1)).eval x := by linarith
    change |(leg (n + 2)).derivative.eval x| ≤ _
    rw [e]
    have h3 : |(2 * (n : ℝ) + 3) * (leg (n + 1)).eval x| ≤ (2 * (n : ℝ) + 3) * 1 := by
      rw [abs_mul, abs_of_pos (by positivity)]
      exact mul_le_mul_of_nonneg_left hb (by positivity)
    push_cast
    calc _ ≤ |(leg n).derivative.eval x| + |(2 * (n : ℝ) + 3) * (leg (n + 1)).eval x| := abs_add_le _ _
      _ ≤ (n : ℝ) * (n + 1) / 2 + (2 * (n : ℝ) + 3) * 1 := add_le_add ih.1 h3
      _ = _ := by ring

/-- An odd polynomial grows from zero at most with the bound of its derivative. -/
theorem odd_le (m : ℕ) (x : ℝ) (h0 : 0 ≤ x) (h1 : x ≤ 1) :
    |(leg (2 * m + 1)).eval x| ≤ (2 * (m : ℝ) + 1) * (m + 1) * x := by
  have h := Convex.norm_image_sub_le_of_norm_hasDerivWithin_le (f := fun x => (leg (2 * m + 1)).eval x)
    (f' := fun x => (leg (2 * m + 1)).derivative.eval x) (C := (2 * (m : ℝ) + 1) * (m + 1)) (s := Set.Icc 0 1) (x := 0) (y := x)
    (fun y _ => (hasDeriv _ y).hasDerivWithinAt)
    (fun y hy => by
      have := (deriv_bound' (2 * m + 1) y (by linarith [hy.1]) hy.2).1
      rw [Real.norm_eq_abs]
      refine this.trans (le_of_eq ?_)
      push_cast; ring) (convex_Icc 0 1) ⟨le_refl _, zero_le_one⟩ ⟨h0, h1⟩
  rw [zero_odd] at h
  simpa [Real.norm_eq_abs, abs_of_nonneg h0] using h

theorem zero_even_le (m : ℕ) : |(leg (2 * m + 2)).eval 0| ≤ 1 / 2 := by
  induction m with
  | zero =>
    have := zero_even 0
    simp only [Nat.cast_zero, mul_zero, zero_add, one_mul] at this
    have e : (leg 0).eval 0 = 1 := by simp [leg]
    rw [e] at this
    have : (leg (2 * 0 + 2)).eval 0 = -(1 / 2) := by simp only [mul_zero, zero_add]; linarith
    rw [this]; norm_num
  | succ m ih =>
    have h := zero_even (m + 1)
    have h2 : (0 : ℝ) < 2 * ((m + 1 : ℕ) : ℝ) + 2 := by positivity
    have e : |(leg (2 * (m + 1) + 2)).eval 0| * (2 * ((m + 1 : ℕ) : ℝ) + 2) = (2 * ((m + 1 : ℕ) : ℝ) + 1) * |(leg (2 * (m + 1))).eval 0| := by
      have := congrArg abs h
      rw [abs_neg, abs_mul, abs_mul, abs_of_pos h2, abs_of_pos (by positivity : (0 : ℝ) < 2 * ((m + 1 : ℕ) : ℝ) + 1)] at this
      linarith
    have ih' : |(leg (2 * (m + 1))).eval 0| ≤ 1 / 2 := ih
    by_contra hc
    have hc := not_le.1 hc
    nlinarith [abs_nonneg ((leg (2 * (m + 1))).eval 0)]

/-- The values at zero go down slowly: `P_(2m)(0)² ≥ 1 / (4 m)`. -/
theorem zero_even_sq (m : ℕ) : 1 ≤ 4 * ((m : ℝ) + 1) * (leg (2 * m + 2)).eval 0 ^ 2 := by
  induction m with
  | zero =>
    have := zero_even 0
    have e : (leg 0).eval 0 = 1 := by simp [leg]
    simp only [Nat.cast_zero, mul_zero, zero_add, one_mul, e] at this
    have : (leg 2).eval 0 = -(1 / 2) := by linarith
    simp only [mul_zero, zero_add, this, Nat.cast_zero]; norm_num
  | succ m ih =>
    have h := zero_even (m + 1)
    set a := (leg (2 * (m + 1))).eval 0 with ha
    set b := (leg (2 * (m + 1) + 2)).eval 0 with hb
    have ih' : 1 ≤ 4 * ((m : ℝ) + 1) * a ^ 2 := ih
    push_cast at h ⊢
    have hm : (0 : ℝ) ≤ m := Nat.cast_nonneg m
    have e : (2 * ((m : ℝ) + 1) + 2) ^ 2 * b ^ 2 = (2 * ((m : ℝ) + 1) + 1) ^ 2 * a ^ 2 := by
      rw [← mul_pow, h]; ring
    have k : 4 * ((m : ℝ) + 1 + 1) * b ^ 2 * (m + 2) = (2 * (m : ℝ) + 3) ^ 2 * a ^ 2 := by
      linear_combination e
    have k2 : (4 * ((m : ℝ) + 1) * (m + 2)) * a ^ 2 ≤ (2 * (m : ℝ) + 3) ^ 2 * a ^ 2 :=
      mul_le_mul_of_nonneg_right (by nlinarith) (sq_nonneg a)
    have k3 : ((m : ℝ) + 2) ≤ 4 * ((m : ℝ) + 1 + 1) * b ^ 2 * (m + 2) := by
      rw [k]; nlinarith
    by_contra hc
    have hc := not_le.1 hc
    nlinarith

theorem zero_sign (m : ℕ) : 0 < (leg (4 * m)).eval 0 := by
  induction m with
  | zero => simp [leg]
  | succ m ih =>
    have h1 := zero_rec (4 * m)
    have h2 := zero_rec (4 * m + 2)
    have e : 4 * (m + 1) = 4 * m + 2 + 2 := by ring
    rw [e]
    push_cast at h1 h2
    have hm : (0 : ℝ) ≤ m := Nat.cast_nonneg m
    have h3 : (leg (4 * m + 2)).eval 0 < 0 := by
      by_contra hc
      have hc := not_lt.1 hc
      nlinarith [mul_nonneg (by positivity : (0 : ℝ) ≤ 4 * m + 2) hc, mul_pos (by positivity : (0 : ℝ) < 4 * m + 1) ih]
    by_contra hc
    have hc := not_lt.1 hc
    nlinarith [mul_pos_of_neg_of_neg h3 (by linarith : (-(4 * (m : ℝ) + 2 + 1)) < 0)]

/-- The integral over the lower half is the opposite of that over the upper half. -/
theorem integral_lower (n : ℕ) : ∫ x in (-1 : ℝ)..0, (leg (n + 1)).eval x = -∫ x in (0 : ℝ)..1, (leg (n + 1)).eval x := by
  have h := orthogonal 0 (n + 1) 1 (by simp) (by omega)
  simp only [eval_one, mul_one] at h
  have hc : ∀ a b : ℝ, IntervalIntegrable (fun x => (leg (n + 1)).eval x) MeasureTheory.volume a b :=
    fun a b => (leg (n + 1)).continuous.intervalIntegrable a b
  rw [← integral_add_adjacent_intervals (hc (-1) 0) (hc 0 1)] at h
  linarith

end Verif.Legendre
