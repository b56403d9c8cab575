import Verif.LegendreLemmas
import Verif.Twostream
import Mathlib.Analysis.SpecificLimits.Basic
import Mathlib.Analysis.SpecificLimits.Normed
import Mathlib.Algebra.BigOperators.Intervals
import Mathlib.MeasureTheory.Integral.DominatedConvergence

/-
Helper lemmas for `BetaProps`: the loop of `beta_0` (twostream.py 211-231) adds the terms of the Legendre series.
-/

namespace Verif.Beta

open Polynomial intervalIntegral Verif.Legendre Verif.Twostream

/-- The term of degree `n` of the series of the docstring (twostream.py 174). -/
noncomputable def term (μ g : ℝ) (n : ℕ) : ℝ := (2 * n + 1) * g ^ n * (leg n).eval μ * ∫ x in (0 : ℝ)..1, (leg n).eval x

/-- The terms of the degrees `1 … n`. -/
noncomputable def psum (μ g : ℝ) (n : ℕ) : ℝ := ∑ j ∈ Finset.range n, term μ g (j + 1)

theorem psum_succ (μ g : ℝ) (n : ℕ) : psum μ g (n + 1) = psum μ g n + term μ g (n + 1) := by
  rw [psum, Finset.sum_range_succ]; rfl

theorem term_even (μ g : ℝ) (m : ℕ) : term μ g (2 * m + 2) = 0 := by
  rw [term, integral_upper (2 * m + 1), zero_odd]; simp

theorem term_one (μ g : ℝ) : term μ g 1 = 3 * g * μ / 2 := by
  rw [term, integral_upper 0]; simp [leg]; ring

theorem psum_one (μ g : ℝ) : psum μ g 1 = 3 * g * μ / 2 := by
  simp [psum, term_one]

/-- The loop stops after degree `n` (twostream.py 220). -/
def Stop (μ g : ℝ) (n : ℕ) : Prop := |term μ g n / psum μ g n| < 1 / 10 ^ 9 ∧ psum μ g n ≤ 1

/-- The loop goes on after degree `n`. -/
def Goes (μ g : ℝ) (n : ℕ) : Prop := n % 2 = 1 → psum μ g n ≠ 0 ∧ ¬ Stop μ g n

/-- What the variables hold when degree `k + 2` is to be computed. -/
structure Inv (μ g : ℝ) (k : ℕ) (s : Leg) : Prop where
  two : s.pnm2 = (leg k).eval μ
  one : s.pnm1 = (leg (k + 1)).eval μ
  sum : s.sum = psum μ g (k + 1)
  odd : k % 2 = 1 → s.fm = (∫ x in (0 : ℝ)..1, (leg (k + 2)).eval x) ∧ s.gn = (2 * ((k + 2 : ℕ) : ℝ) + 1) * g ^ (k + 2)
  even : k % 2 = 0 → s.fm = (∫ x in (0 : ℝ)..1, (leg (k + 3)).eval x) ∧ s.gn = (2 * ((k + 3 : ℕ) : ℝ) + 1) * g ^ (k + 3)

theorem inv_start (μ g : ℝ) : Inv μ g 0 ⟨1, μ, -1 / 8, 7 * g * g * g, 3 * g * μ / 2⟩ := by
  refine ⟨by simp [leg], by simp [leg], (psum_one μ g).symm, by simp, fun _ => ⟨?_, by push_cast; ring⟩⟩
  have h := zero_even 0
  have e : (leg 0).eval 0 = 1 := by simp [leg]
  simp only [Nat.cast_zero, mul_zero, zero_add, one_mul, e] at h
  have h2 : (leg 2).eval 0 = -(1 / 2) := by linarith
  rw [integral_upper 2, h2]
  norm_num

theorem pn_eq (μ : ℝ) (k : ℕ) :
    ((2 * ((k + 2 : ℕ) : ℝ) - 1) * μ * (leg (k + 1)).eval μ + (1 - ((k + 2 : ℕ) : ℝ)) * (leg k).eval μ) / ((k + 2 : ℕ) : ℝ) = (leg (k + 2)).eval μ := by
  have h := eval_rec k μ
  rw [div_eq_iff (by positivity)]
  push_cast at h ⊢
  linear_combination -h

theorem legLoop_cases (μ g : ℝ) (left : ℕ) : ∀ k s, Inv μ g k s →
    (∃ N, k + 2 ≤ N ∧ N < k + 2 + left ∧ N % 2 = 1 ∧ psum μ g N = 0 ∧ (∀ n, k + 2 ≤ n → n < N → Goes μ g n) ∧
      legLoop μ g left (k + 2) s = .error .zeroDiv) ∨
    (∃ N, k + 2 ≤ N ∧ N < k + 2 + left ∧ N % 2 = 1 ∧ psum μ g N ≠ 0 ∧ Stop μ g N ∧ (∀ n, k + 2 ≤ n → n < N → Goes μ g n) ∧
      legLoop μ g left (k + 2) s = .ok (psum μ g N, N)) ∨
    ((∀ n, k + 2 ≤ n → n < k + 2 + left → Goes μ g n) ∧
      legLoop μ g left (k + 2) s = .ok (psum μ g (k + 1 + left), k + 1 + left)) := by
  induction left with
  | zero =>
    intro k s hs
    exact .inr (.inr ⟨fun n _ _ => by omega, by rw [legLoop, hs.sum]; rfl⟩)
  | succ left ih =>
    intro k s hs
    rw [legLoop]
    simp only [hs.two, hs.one, hs.sum, pn_eq]
    by_cases hodd : (k + 2) % 2 = 1
    · obtain ⟨hf, hg⟩ := hs.odd (by omega)
      have ht : psum μ g (k + 1) + s.gn * s.fm * (leg (k + 2)).eval μ = psum μ g (k + 2) := by
        rw [psum_succ μ g (k + 1), hf, hg, term]; push_cast; ring
      rw [if_pos hodd]
      simp only [ht]
      have hd : psum μ g (k + 2) - psum μ g (k + 1) = term μ g (k + 2) := by rw [psum_succ μ g (k + 1)]; ring
      rw [hd]
      by_cases hz : psum μ g (k + 2) = 0
      · left
        exact ⟨k + 2, le_refl _, by omega, hodd, hz, fun n _ _ => by omega, by rw [if_pos hz]⟩
      · rw [if_neg hz]
        by_cases hst : |term μ g (k + 2) / psum μ g (k + 2)| < 1 / 10 ^ 9 ∧ psum μ g (k + 2) ≤ 1
        · right; left
          exact ⟨k + 2, le_refl _, by omega, hodd, hz, hst, fun n _ _ => by omega, by rw [if_pos hst]⟩
        · rw [if_neg hst]
          obtain ⟨m, rfl⟩ : ∃ m, k = 2 * m + 1 := ⟨k / 2, by omega⟩
          have hi : Inv μ g (2 * m + 1 + 1) ⟨(leg (2 * m + 1 + 1)).eval μ, (leg (2 * m + 1 + 2)).eval μ,
              s.fm * (-(2 * ((((2 * m + 1 + 2 : ℕ) : ℝ) - 1) / 2) + 1) / (2 * ((((2 * m + 1 + 2 : ℕ) : ℝ) - 1) / 2 + 2))),
              s.gn * (g * g * (4 * ((((2 * m + 1 + 2 : ℕ) : ℝ) - 1) / 2) + 7) / (4 * ((((2 * m + 1 + 2 : ℕ) : ℝ) - 1) / 2) + 3)),
              psum μ g (2 * m + 1 + 2)⟩ := by
            refine ⟨rfl, rfl, rfl, fun h => by omega, fun _ => ⟨?_, ?_⟩⟩
            · show _ = ∫ x in (0 : ℝ)..1, (leg (2 * m + 4 + 1)).eval x
              have hf' : s.fm = ∫ x in (0 : ℝ)..1, (leg (2 * m + 2 + 1)).eval x := hf
              rw [hf', integral_upper, integral_upper]
              have h := zero_even (m + 1)
              have e : 2 * (m + 1) = 2 * m + 2 := by ring
              have e2 : 2 * (m + 1) + 2 = 2 * m + 4 := by ring
              rw [e2, e] at h
              push_cast at h ⊢
              have h1 : (2 * (m : ℝ) + 2 + 2) ≠ 0 := by positivity
              have h2 : (2 * (m : ℝ) + 4 + 2) ≠ 0 := by positivity
              have h4 : (2 * ((2 * (m : ℝ) + 1 + 2 - 1) / 2 + 2)) ≠ 0 := by
                have : (0 : ℝ) ≤ m := Nat.cast_nonneg m
                have : 0 < (2 * (m : ℝ) + 1 + 2 - 1) / 2 + 2 := by linarith
                positivity
              rw [div_mul_div_comm, div_eq_div_iff (mul_ne_zero h1 h4) h2]
              linear_combination (-(2 * (m : ℝ) + 6)) * h
            · rw [hg]
              push_cast
              have h3 : (4 * ((2 * (m : ℝ) + 1 + 2 - 1) / 2) + 3) ≠ 0 := by
                have : (0 : ℝ) ≤ m := Nat.cast_nonneg m
                have : 0 < 4 * ((2 * (m : ℝ) + 1 + 2 - 1) / 2) + 3 := by linarith
                exact this.ne'
              rw [← mul_div_assoc, div_eq_iff h3]
              ring
          have hgo : Goes μ g (2 * m + 1 + 2) := fun _ => ⟨hz, hst⟩
          rcases ih _ _ hi with ⟨N, h1, h2, h3, h4, h5, h6⟩ | ⟨N, h1, h2, h3, h4, h5, h6, h7⟩ | ⟨h1, h2⟩
          · refine .inl ⟨N, by omega, by omega, h3, h4, fun n a b => ?_, h6⟩
            rcases Nat.eq_or_lt_of_le a with h | h
            · exact h ▸ hgo
            · exact h5 n (by omega) b
          · refine .inr (.inl ⟨N, by omega, by omega, h3, h4, h5, fun n a b => ?_, h7⟩)
            rcases Nat.eq_or_lt_of_le a with h | h
            · exact h ▸ hgo
            · exact h6 n (by omega) b
          · refine .inr (.inr ⟨fun n a b => ?_, ?_⟩)
            · rcases Nat.eq_or_lt_of_le a with h | h
              · exact h ▸ hgo
              · exact h1 n (by omega) (by omega)
            · have e : 2 * m + 1 + 1 + 1 + left = 2 * m + 1 + 1 + (left + 1) := by ring
              rw [e] at h2
              exact h2
    · rw [if_neg hodd]
      obtain ⟨hf, hg⟩ := hs.even (by omega)
      obtain ⟨m, rfl⟩ : ∃ m, k = 2 * m := ⟨k / 2, by omega⟩
      have hi : Inv μ g (2 * m + 1) ⟨(leg (2 * m + 1)).eval μ, (leg (2 * m + 2)).eval μ, s.fm, s.gn, psum μ g (2 * m + 1)⟩ := by
        refine ⟨rfl, rfl, ?_, fun _ => ⟨hf, hg⟩, fun h => by omega⟩
        show psum μ g (2 * m + 1) = psum μ g (2 * m + 1 + 1)
        rw [psum_succ μ g (2 * m + 1)]
        have := term_even μ g m
        rw [show 2 * m + 1 + 1 = 2 * m + 2 from rfl, this, add_zero]
      have hgo : Goes μ g (2 * m + 2) := fun h => absurd h hodd
      rcases ih _ _ hi with ⟨N, h1, h2, h3, h4, h5, h6⟩ | ⟨N, h1, h2, h3, h4, h5, h6, h7⟩ | ⟨h1, h2⟩
      · refine .inl ⟨N, by omega, by omega, h3, h4, fun n a b => ?_, h6⟩
        rcases Nat.eq_or_lt_of_le a with h | h
        · exact h ▸ hgo
        · exact h5 n (by omega) b
      · refine .inr (.inl ⟨N, by omega, by omega, h3, h4, h5, fun n a b => ?_, h7⟩)
        rcases Nat.eq_or_lt_of_le a with h | h
        · exact h ▸ hgo
        · exact h6 n (by omega) b
      · refine .inr (.inr ⟨fun n a b => ?_, ?_⟩)
        · rcases Nat.eq_or_lt_of_le a with h | h
          · exact h ▸ hgo
          · exact h1 n (by omega) (by omega)
        · have e : 2 * m + 1 + 1 + left = 2 * m + 1 + (left + 1) := by ring
          rw [e] at h2
          exact h2

/-- The degree after which the sum is used: the first at which the loop stops, or 2047. -/
def Last (μ g : ℝ) (N : ℕ) : Prop :=
  3 ≤ N ∧ N ≤ 2047 ∧ N % 2 = 1 ∧ (∀ n, 2 ≤ n → n < N → Goes μ g n) ∧ psum μ g N ≠ 0 ∧ (N = 2047 ∨ Stop μ g N)

theorem beta0_cases {μ g : ℝ} (h0 : 0 < μ) (h1 : μ ≤ 1) (hg0 : 0 < g) (hg1 : g ≤ 1) :
    (∃ N, 3 ≤ N ∧ N ≤ 2047 ∧ N % 2 = 1 ∧ psum μ g N = 0 ∧ beta0 μ g = .error .zeroDiv) ∨
    (∃ N, Last μ g N ∧ beta0 μ g = if 0 ≤ psum μ g N ∧ psum μ g N ≤ 1 then .ok ((1 - psum μ g N) / 2) else .error .assertion) := by
  rw [beta0, if_pos ⟨h0, h1⟩, if_pos ⟨hg0.le, hg1⟩, if_pos ⟨hg0.ne', h0.ne'⟩]
  rcases legLoop_cases μ g 2046 0 _ (inv_start μ g) with ⟨N, a1, a2, a3, a4, a5, a6⟩ | ⟨N, a1, a2, a3, a4, a5, a6, a7⟩ | ⟨a1, a2⟩
  · refine .inl ⟨N, by omega, by omega, a3, a4, ?_⟩
    have : legLoop μ g (maxno - 2) 2 ⟨1, μ, -1 / 8, 7 * g * g * g, 3 * g * μ / 2⟩ = _ := a6
    rw [this]
  · refine .inr ⟨N, ⟨by omega, by omega, a3, fun n b c => a6 n (by omega) c, a4, .inr a5⟩, ?_⟩
    have : legLoop μ g (maxno - 2) 2 ⟨1, μ, -1 / 8, 7 * g * g * g, 3 * g * μ / 2⟩ = _ := a7
    rw [this]
    simp only
    rw [if_neg (by simp only [maxno]; omega)]
  · have hgo := a1 2047 (by omega) (by omega) (by norm_num)
    refine .inr ⟨2047, ⟨by omega, by omega, by norm_num, fun n b c => a1 n (by omega) (by omega), hgo.1, .inl rfl⟩, ?_⟩
    have : legLoop μ g (maxno - 2) 2 ⟨1, μ, -1 / 8, 7 * g * g * g, 3 * g * μ / 2⟩ = _ := a2
    rw [this]
    simp only
    rw [if_neg (by simp only [maxno]; omega)]

/-! ### Size of the terms -/

theorem integral_le (n : ℕ) : |∫ x in (0 : ℝ)..1, (leg (n + 1)).eval x| ≤ 1 / ((n : ℝ) + 2) := by
  rw [integral_upper, abs_div, abs_of_pos (by positivity : (0 : ℝ) < (n : ℝ) + 2)]
  exact div_le_div_of_nonneg_right (leg_le_one n 0 (by norm_num) (by norm_num)) (by positivity)

theorem term_le {μ g : ℝ} (h0 : -1 ≤ μ) (h1 : μ ≤ 1) (hg : 0 ≤ g) (n : ℕ) : |term μ g (n + 1)| ≤ 2 * g ^ (n + 1) := by
  rw [term, abs_mul, abs_mul, abs_mul, abs_of_pos (by positivity : (0 : ℝ) < 2 * ((n + 1 : ℕ) : ℝ) + 1), abs_of_nonneg (pow_nonneg hg _)]
  have h2 := leg_le_one (n + 1) μ h0 h1
  have h3 := integral_le n
  have hp := pow_nonneg hg (n + 1)
  calc (2 * ((n + 1 : ℕ) : ℝ) + 1) * g ^ (n + 1) * |(leg (n + 1)).eval μ| * |∫ x in (0 : ℝ)..1, (leg (n + 1)).eval x|
      ≤ (2 * ((n + 1 : ℕ) : ℝ) + 1) * g ^ (n + 1) * 1 * (1 / ((n : ℝ) + 2)) := by
        refine mul_le_mul (mul_le_mul_of_nonneg_left h2 (by positivity)) h3 (abs_nonneg _) (by positivity)
    _ = g ^ (n + 1) * ((2 * (n : ℝ) + 3) / (n + 2)) := by push_cast; ring
    _ ≤ g ^ (n + 1) * 2 := by
        refine mul_le_mul_of_nonneg_left ?_ hp
        rw [div_le_iff₀ (by positivity)]; linarith
    _ = _ := by ring

theorem summable_bound {g : ℝ} (hg : 0 ≤ g) (hg1 : g < 1) : Summable fun n : ℕ => (2 * (n : ℝ) + 1) * g ^ n := by
  have h1 := summable_pow_mul_geometric_of_norm_lt_one 1 (r := g) (by rw [Real.norm_eq_abs, abs_of_nonneg hg]; exact hg1)
  have h2 := summable_geometric_of_lt_one hg hg1
  refine ((h1.mul_left 2).add h2).congr fun n => ?_
  simp; ring

theorem summable_term {μ g : ℝ} (h0 : -1 ≤ μ) (h1 : μ ≤ 1) (hg : 0 ≤ g) (hg1 : g < 1) : Summable fun n => term μ g (n + 1) := by
  refine Summable.of_norm_bounded (g := fun n : ℕ => 2 * g ^ (n + 1)) ?_ fun n => term_le h0 h1 hg n
  exact ((summable_nat_add_iff 1).2 (summable_geometric_of_lt_one hg hg1)).mul_left 2

theorem tail_le {μ g : ℝ} (h0 : -1 ≤ μ) (h1 : μ ≤ 1) (hg : 0 ≤ g) (hg1 : g < 1) (N : ℕ) :
    |(∑' n, term μ g (n + 1)) - psum μ g N| ≤ 2 * g ^ (N + 1) / (1 - g) := by
  have hs := summable_term h0 h1 hg hg1
  have e := hs.sum_add_tsum_nat_add N
  have e' : (∑' n, term μ g (n + 1)) - psum μ g N = ∑' n, term μ g (n + N + 1) := by rw [← e, psum]; ring
  rw [e']
  have hb : HasSum (fun n : ℕ => 2 * g ^ (N + 1) * g ^ n) (2 * g ^ (N + 1) * (1 - g)⁻¹) :=
    (hasSum_geometric_of_lt_one hg hg1).mul_left _
  rw [div_eq_mul_inv]
  rw [← Real.norm_eq_abs]
  refine tsum_of_norm_bounded hb fun n => ?_
  refine (term_le h0 h1 hg (n + N)).trans (le_of_eq ?_)
  rw [show n + N + 1 = (N + 1) + n by ring, pow_add]; ring

/-- Integral of the series over the lower half. -/
theorem integral_series {μ g : ℝ} (h0 : -1 ≤ μ) (h1 : μ ≤ 1) (hg : 0 ≤ g) (hg1 : g < 1) :
    (∫ ν in (-1 : ℝ)..0, ∑' n : ℕ, (2 * (n : ℝ) + 1) * g ^ n * (leg n).eval μ * (leg n).eval ν) = 1 - ∑' n, term μ g (n + 1) := by
  have h := hasSum_integral_of_dominated_convergence (μ := MeasureTheory.volume) (a := -1) (b := 0)
    (F := fun (n : ℕ) ν => (2 * (n : ℝ) + 1) * g ^ n * (leg n).eval μ * (leg n).eval ν)
    (f := fun ν => ∑' n : ℕ, (2 * (n : ℝ) + 1) * g ^ n * (leg n).eval μ * (leg n).eval ν)
    (fun n _ => (2 * (n : ℝ) + 1) * g ^ n)
    (fun n => (by fun_prop : Continuous fun ν => (2 * (n : ℝ) + 1) * g ^ n * (leg n).eval μ * (leg n).eval ν).aestronglyMeasurable)
    ?_ ?_ ?_ ?_
  · have hsum := h.summable
    have e := h.tsum_eq
    rw [← e, hsum.tsum_eq_zero_add]
    have e0 : (∫ ν in (-1 : ℝ)..0, (2 * ((0 : ℕ) : ℝ) + 1) * g ^ 0 * (leg 0).eval μ * (leg 0).eval ν) = 1 := by simp [leg]
    rw [e0, sub_eq_add_neg, ← tsum_neg]
    congr 1
    refine tsum_congr fun n => ?_
    rw [integral_const_mul, integral_lower, term]; ring
  · intro n
    refine .of_forall fun ν hν => ?_
    rw [Set.uIoc_of_le (by norm_num : (-1 : ℝ) ≤ 0)] at hν
    have h2 := leg_le_one n μ h0 h1
    have h3 := leg_le_one n ν hν.1.le (hν.2.trans zero_le_one)
    rw [Real.norm_eq_abs, abs_mul, abs_mul, abs_of_nonneg (by positivity : (0 : ℝ) ≤ (2 * (n : ℝ) + 1) * g ^ n)]
    have hp : (0 : ℝ) ≤ (2 * (n : ℝ) + 1) * g ^ n := by positivity
    calc _ ≤ (2 * (n : ℝ) + 1) * g ^ n * 1 * 1 :=
          mul_le_mul (mul_le_mul_of_nonneg_left h2 hp) h3 (abs_nonneg _) (by positivity)
      _ = _ := by ring
  · exact .of_forall fun ν _ => summable_bound hg hg1
  · exact _root_.intervalIntegrable_const
  · refine .of_forall fun ν hν => ?_
    rw [Set.uIoc_of_le (by norm_num : (-1 : ℝ) ≤ 0)] at hν
    refine Summable.hasSum (Summable.of_norm_bounded (summable_bound hg hg1) fun n => ?_)
    have h2 := leg_le_one n μ h0 h1
    have h3 := leg_le_one n ν hν.1.le (hν.2.trans zero_le_one)
    rw [Real.norm_eq_abs, abs_mul, abs_mul, abs_of_nonneg (by positivity : (0 : ℝ) ≤ (2 * (n : ℝ) + 1) * g ^ n)]
    have hp : (0 : ℝ) ≤ (2 * (n : ℝ) + 1) * g ^ n := by positivity
    calc _ ≤ (2 * (n : ℝ) + 1) * g ^ n * 1 * 1 :=
          mul_le_mul (mul_le_mul_of_nonneg_left h2 hp) h3 (abs_nonneg _) (by positivity)
      _ = _ := by ring

/-! ### Small asymmetry -/

theorem coef_le (g : ℝ) (hg : 0 ≤ g) (hg3 : g ≤ 1 / 3) (m : ℕ) :
    (4 * (m : ℝ) + 7) * (2 * m + 3) / 4 * g ^ (2 * m + 2) ≤ 7 / 12 * (1 / 3) ^ m := by
  induction m with
  | zero => simp; nlinarith
  | succ m ih =>
    have hm : (0 : ℝ) ≤ m := Nat.cast_nonneg m
    have hp : 0 ≤ g ^ (2 * m + 2) := pow_nonneg hg _
    have hq : g ^ 2 ≤ 1 / 9 := by nlinarith
    have e : g ^ (2 * (m + 1) + 2) = g ^ (2 * m + 2) * g ^ 2 := by
      rw [← pow_add]; congr 1
    rw [e, pow_succ (1 / 3 : ℝ)]
    push_cast
    have k : (4 * ((m : ℝ) + 1) + 7) * (2 * (m + 1) + 3) ≤ 3 * ((4 * (m : ℝ) + 7) * (2 * m + 3)) := by nlinarith
    calc (4 * ((m : ℝ) + 1) + 7) * (2 * (m + 1) + 3) / 4 * (g ^ (2 * m + 2) * g ^ 2)
        ≤ (3 * ((4 * (m : ℝ) + 7) * (2 * m + 3))) / 4 * (g ^ (2 * m + 2) * (1 / 9)) := by
          refine mul_le_mul (by linarith) (mul_le_mul_of_nonneg_left hq hp) (by positivity) (by positivity)
      _ = ((4 * (m : ℝ) + 7) * (2 * m + 3) / 4 * g ^ (2 * m + 2)) * (1 / 3) := by ring
      _ ≤ _ := by linarith

theorem term_small {μ g : ℝ} (h0 : 0 ≤ μ) (h1 : μ ≤ 1) (hg : 0 ≤ g) (hg3 : g ≤ 1 / 3) (m : ℕ) :
    |term μ g (2 * m + 3)| ≤ μ * g * (7 / 12 * (1 / 3) ^ m) := by
  have h2 : |(leg (2 * m + 3)).eval μ| ≤ (2 * ((m : ℝ) + 1) + 1) * (m + 1 + 1) * μ := by
    have := odd_le (m + 1) μ h0 h1
    push_cast at this
    exact this
  have h3 : |∫ x in (0 : ℝ)..1, (leg (2 * m + 3)).eval x| ≤ 1 / 2 / (2 * (m : ℝ) + 4) := by
    have e := integral_upper (2 * m + 2)
    rw [show 2 * m + 2 + 1 = 2 * m + 3 from rfl] at e
    rw [e, abs_div]
    have : (0 : ℝ) < ((2 * m + 2 : ℕ) : ℝ) + 2 := by positivity
    rw [abs_of_pos this]
    have e2 : ((2 * m + 2 : ℕ) : ℝ) + 2 = 2 * (m : ℝ) + 4 := by push_cast; ring
    rw [e2]
    exact div_le_div_of_nonneg_right (zero_even_le m) (by positivity)
  rw [term, abs_mul, abs_mul, abs_mul, abs_of_pos (by positivity : (0 : ℝ) < 2 * ((2 * m + 3 : ℕ) : ℝ) + 1), abs_of_nonneg (pow_nonneg hg _)]
  have hp := pow_nonneg hg (2 * m + 3)
  have hc := coef_le g hg hg3 m
  calc (2 * ((2 * m + 3 : ℕ) : ℝ) + 1) * g ^ (2 * m + 3) * |(leg (2 * m + 3)).eval μ| * |∫ x in (0 : ℝ)..1, (leg (2 * m + 3)).eval x|
      ≤ (2 * ((2 * m + 3 : ℕ) : ℝ) + 1) * g ^ (2 * m + 3) * ((2 * ((m : ℝ) + 1) + 1) * (m + 1 + 1) * μ) * (1 / 2 / (2 * (m : ℝ) + 4)) :=
        mul_le_mul (mul_le_mul_of_nonneg_left h2 (by positivity)) h3 (abs_nonneg _) (by positivity)
    _ = μ * g * ((4 * (m : ℝ) + 7) * (2 * m + 3) / 4 * g ^ (2 * m + 2)) := by
        have : (2 * (m : ℝ) + 4) ≠ 0 := by positivity
        push_cast
        rw [show 2 * m + 3 = (2 * m + 2) + 1 from rfl, pow_succ]
        field_simp
        ring
    _ ≤ _ := mul_le_mul_of_nonneg_left hc (mul_nonneg h0 hg)

theorem psum_small {μ g : ℝ} (h0 : 0 ≤ μ) (h1 : μ ≤ 1) (hg : 0 ≤ g) (hg3 : g ≤ 1 / 3) (m : ℕ) :
    |psum μ g (2 * m + 1) - 3 * g * μ / 2| ≤ μ * g * (7 / 8 * (1 - (1 / 3) ^ m)) := by
  induction m with
  | zero => simp [psum_one]
  | succ m ih =>
    have e : psum μ g (2 * (m + 1) + 1) = psum μ g (2 * m + 1) + term μ g (2 * m + 3) := by
      rw [show 2 * (m + 1) + 1 = 2 * m + 1 + 1 + 1 by ring, psum_succ, psum_succ, term_even, add_zero]
    rw [e]
    have ht := term_small h0 h1 hg hg3 m
    calc _ = |(psum μ g (2 * m + 1) - 3 * g * μ / 2) + term μ g (2 * m + 3)| := by congr 1; ring
      _ ≤ _ := abs_add_le _ _
      _ ≤ μ * g * (7 / 8 * (1 - (1 / 3) ^ m)) + μ * g * (7 / 12 * (1 / 3) ^ m) := add_le_add ih ht
      _ = _ := by rw [pow_succ]; ring

theorem psum_range {μ g : ℝ} (h0 : 0 ≤ μ) (h1 : μ ≤ 1) (hg : 0 ≤ g) (hg3 : g ≤ 1 / 3) (m : ℕ) :
    5 / 8 * (μ * g) ≤ psum μ g (2 * m + 1) ∧ psum μ g (2 * m + 1) ≤ 1 := by
  have h := abs_le.1 (psum_small h0 h1 hg hg3 m)
  have hp : (0 : ℝ) ≤ (1 / 3) ^ m := by positivity
  have hmg : 0 ≤ μ * g := mul_nonneg h0 hg
  have hmg3 : μ * g ≤ 1 / 3 := by nlinarith
  have k := mul_le_mul_of_nonneg_left (by linarith : (7 / 8 * (1 - (1 / 3 : ℝ) ^ m)) ≤ 7 / 8) hmg
  constructor <;> nlinarith

end Verif.Beta
