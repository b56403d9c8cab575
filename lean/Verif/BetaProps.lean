import Verif.BetaLemmas
import Verif.TwostreamLemmas
import Verif.TwostreamProps
import Verif.SolarProps
import Mathlib.Analysis.SpecialFunctions.Sqrt

/-
C142: what `beta_0` computes (smrf/envphys/solar/twostream.py 170-247, modelled in `Twostream`): the part of the light that
is scattered backwards by a cloud or by clean air with the phase function `Σ (2n+1) gⁿ Pₙ(μ) Pₙ(ν)`.
-/

namespace Verif.Beta

open Polynomial Verif.Twostream

/-! ### Specification, independent of the code -/

/-- The Legendre polynomials, as defined in books: degree `n`, orthogonal to everything of lower degree on `[-1, 1]`,
value one at one. -/
def IsLegendre (P : ℕ → ℝ[X]) : Prop :=
  ∀ n, (P n).natDegree = n ∧ (P n).eval 1 = 1 ∧ ∀ q : ℝ[X], q.natDegree < n → ∫ x in (-1 : ℝ)..1, (P n).eval x * q.eval x = 0

/-- The fraction scattered backwards of light that falls in with the cosine `μ`: half the integral over the backward
directions of the phase function averaged over the azimuth. -/
noncomputable def back (P : ℕ → ℝ[X]) (μ g : ℝ) : ℝ :=
  (∫ ν in (-1 : ℝ)..0, ∑' n : ℕ, (2 * (n : ℝ) + 1) * g ^ n * (P n).eval μ * (P n).eval ν) / 2

/-- The term of degree `n` of the series in the docstring (twostream.py 174). -/
noncomputable def part (P : ℕ → ℝ[X]) (μ g : ℝ) (n : ℕ) : ℝ :=
  g ^ n * (2 * n + 1) * (P n).eval μ * ∫ x in (0 : ℝ)..1, (P n).eval x

/-- The terms of the degrees `1 … n`. -/
noncomputable def parts (P : ℕ → ℝ[X]) (μ g : ℝ) (n : ℕ) : ℝ := ∑ j ∈ Finset.Icc 1 n, part P μ g j

/-! ### The polynomials of the recurrence are the Legendre polynomials -/

/-- There are Legendre polynomials: those of the recurrence of the code. -/
theorem C142_recurrence : IsLegendre Legendre.leg := by
  intro n
  refine ⟨Legendre.leg_degree n, Legendre.leg_one n, fun q hq => ?_⟩
  rcases Nat.eq_zero_or_pos n with rfl | hn
  · omega
  · exact Legendre.orthogonal (n - 1) n q (by omega) (by omega)

private theorem zero_of_square {D : ℝ[X]} (h : ∫ x in (-1 : ℝ)..1, D.eval x * D.eval x = 0) : D = 0 := by
  by_contra hD
  have hc : Continuous fun x => D.eval x * D.eval x := by fun_prop
  have hpos : ∀ x ∈ Set.Icc (-1 : ℝ) 1, D.eval x * D.eval x = 0 := by
    by_contra hx
    push Not at hx
    obtain ⟨c, hc1, hc2⟩ := hx
    have := intervalIntegral.integral_pos (by norm_num : (-1 : ℝ) < 1) hc.continuousOn (fun x _ => mul_self_nonneg _)
      ⟨c, hc1, lt_of_le_of_ne (mul_self_nonneg _) (Ne.symm hc2)⟩
    exact this.ne' h
  refine hD (Polynomial.eq_zero_of_infinite_isRoot D ?_)
  refine (Set.Icc_infinite (by norm_num : (-1 : ℝ) < 1)).mono fun x hx => ?_
  exact mul_self_eq_zero.1 (hpos x hx)

private theorem degree_combination {P Q : ℝ[X]} {n : ℕ} (hP : P.natDegree = n) (hQ : Q.natDegree = n) (hn : 0 < n) :
    (C Q.leadingCoeff * P - C P.leadingCoeff * Q).natDegree < n := by
  rw [Nat.lt_iff_le_pred hn, natDegree_le_iff_coeff_eq_zero]
  intro N hN
  rw [coeff_sub, coeff_C_mul, coeff_C_mul]
  rcases Nat.lt_or_ge n N with h | h
  · rw [coeff_eq_zero_of_natDegree_lt (by omega), coeff_eq_zero_of_natDegree_lt (by omega)]; ring
  · have e : N = n := by omega
    rw [leadingCoeff, leadingCoeff, hP, hQ, e]; ring

/-- There are no others. -/
theorem C142_unique {P : ℕ → ℝ[X]} (hP : IsLegendre P) (n : ℕ) : P n = Legendre.leg n := by
  obtain ⟨d1, o1, i1⟩ := hP n
  obtain ⟨d2, o2, i2⟩ := C142_recurrence n
  rcases Nat.eq_zero_or_pos n with rfl | hn
  · obtain ⟨a, ha⟩ := natDegree_eq_zero.1 d1
    obtain ⟨b, hb⟩ := natDegree_eq_zero.1 d2
    rw [← ha, eval_C] at o1
    rw [← hb, eval_C] at o2
    rw [← ha, ← hb, o1, o2]
  · set L := Legendre.leg n
    have hD : C L.leadingCoeff * P n - C (P n).leadingCoeff * L = 0 := by
      apply zero_of_square
      have hdeg := degree_combination d1 d2 hn
      set D := C L.leadingCoeff * P n - C (P n).leadingCoeff * L with hDdef
      have e : ∀ x, D.eval x * D.eval x = L.leadingCoeff * ((P n).eval x * D.eval x) - (P n).leadingCoeff * (L.eval x * D.eval x) := by
        intro x
        have : D.eval x = L.leadingCoeff * (P n).eval x - (P n).leadingCoeff * L.eval x := by
          rw [hDdef]; simp
        rw [this]; ring
      simp only [e]
      have c1 : IntervalIntegrable (fun x => L.leadingCoeff * ((P n).eval x * D.eval x)) MeasureTheory.volume (-1) 1 :=
        (by fun_prop : Continuous fun x => L.leadingCoeff * ((P n).eval x * D.eval x)).intervalIntegrable _ _
      have c2 : IntervalIntegrable (fun x => (P n).leadingCoeff * (L.eval x * D.eval x)) MeasureTheory.volume (-1) 1 :=
        (by fun_prop : Continuous fun x => (P n).leadingCoeff * (L.eval x * D.eval x)).intervalIntegrable _ _
      rw [intervalIntegral.integral_sub c1 c2, intervalIntegral.integral_const_mul, intervalIntegral.integral_const_mul,
        i1 D hdeg, i2 D hdeg]
      ring
    have h1 := congrArg (eval 1) hD
    simp only [eval_sub, eval_mul, eval_C, eval_zero] at h1
    rw [o1, show L.eval 1 = 1 from o2] at h1
    have hl : L.leadingCoeff = (P n).leadingCoeff := by linarith
    have hne : L.leadingCoeff ≠ 0 := by
      rw [Ne, leadingCoeff_eq_zero]
      intro h0
      have : L.eval 1 = 1 := o2
      rw [h0, eval_zero] at this
      exact zero_ne_one this
    rw [← hl, ← mul_sub] at hD
    rcases mul_eq_zero.1 hD with h | h
    · exact absurd (C_eq_zero.1 h) hne
    · exact sub_eq_zero.1 h

private theorem part_eq {P : ℕ → ℝ[X]} (hP : IsLegendre P) (μ g : ℝ) (n : ℕ) : part P μ g n = term μ g n := by
  rw [part, term, C142_unique hP n]; ring

private theorem parts_eq {P : ℕ → ℝ[X]} (hP : IsLegendre P) (μ g : ℝ) (n : ℕ) : parts P μ g n = psum μ g n := by
  rw [parts, psum, Finset.sum_congr rfl fun j _ => part_eq hP μ g j, Finset.range_eq_Ico, Finset.sum_Ico_add' (fun j => term μ g j) 0 n 1]
  refine Finset.sum_congr ?_ fun _ _ => rfl
  ext j; simp only [Finset.mem_Icc, Finset.mem_Ico]; omega

private theorem back_eq {P : ℕ → ℝ[X]} (hP : IsLegendre P) {μ g : ℝ} (h0 : -1 ≤ μ) (h1 : μ ≤ 1) (hg : 0 ≤ g) (hg1 : g < 1) :
    back P μ g = (1 - ∑' n, term μ g (n + 1)) / 2 := by
  rw [back, ← integral_series h0 h1 hg hg1]
  congr 2
  funext ν
  exact tsum_congr fun n => by rw [C142_unique hP n]

/-! ### What the result is -/

/-- The rule to stop (twostream.py 220), in terms of the series. -/
def Settled (P : ℕ → ℝ[X]) (μ g : ℝ) (n : ℕ) : Prop :=
  |part P μ g n| < |parts P μ g n| / 10 ^ 9 ∧ parts P μ g n ≤ 1

private theorem settled_iff {P : ℕ → ℝ[X]} (hP : IsLegendre P) {μ g : ℝ} {n : ℕ} (hz : psum μ g n ≠ 0) :
    Settled P μ g n ↔ Stop μ g n := by
  unfold Settled Stop
  rw [part_eq hP, parts_eq hP, abs_div, div_lt_iff₀ (abs_pos.2 hz), div_eq_inv_mul, one_div]

/-- A result of `beta_0` is half of one minus a partial sum of the series of its docstring, at least to degree three; the
sum lies between zero and one. It ends with the first odd degree from three on of which the term is below `10⁻⁹` of the
sum with the sum at most one, or with degree 2047. -/
theorem C142_sum {P : ℕ → ℝ[X]} (hP : IsLegendre P) {μ g b : ℝ} (h : beta0 μ g = .ok b) (hg : g ≠ 0) :
    ∃ N, 3 ≤ N ∧ N ≤ 2047 ∧ N % 2 = 1 ∧ b = (1 - parts P μ g N) / 2 ∧ 0 < parts P μ g N ∧ parts P μ g N ≤ 1 ∧
      (∀ n, 3 ≤ n → n < N → n % 2 = 1 → ¬ Settled P μ g n) ∧ (N = 2047 ∨ Settled P μ g N) := by
  obtain ⟨h0, h1, hg0, hg1, -, -⟩ := beta0_range h
  rcases beta0_cases h0 h1 (lt_of_le_of_ne hg0 (Ne.symm hg)) hg1 with ⟨N, -, -, -, -, he⟩ | ⟨N, ⟨a1, a2, a3, a4, a5, a6⟩, he⟩
  · rw [h] at he; cases he
  · rw [h] at he
    split_ifs at he with hc
    injection he with he
    refine ⟨N, a1, a2, a3, by rw [parts_eq hP]; exact he, ?_, by rw [parts_eq hP]; exact hc.2, fun n b1 b2 b3 => ?_, ?_⟩
    · rw [parts_eq hP]; exact lt_of_le_of_ne hc.1 (Ne.symm a5)
    · obtain ⟨c1, c2⟩ := a4 n (by omega) b2 b3
      rwa [settled_iff hP c1]
    · rwa [settled_iff hP a5]

/-- With no asymmetry half of the light goes back, whatever the sun: `beta_0` then is exact. -/
theorem C142_isotropic {P : ℕ → ℝ[X]} (hP : IsLegendre P) {μ : ℝ} (h0 : 0 < μ) (h1 : μ ≤ 1) :
    beta0 μ 0 = .ok (back P μ 0) := by
  rw [back_eq hP (by linarith) h1 (le_refl _) one_pos, beta0_zero h0 h1]
  have : ∀ n, term μ 0 (n + 1) = 0 := fun n => by simp [term]
  simp [this]

/-- The error of a result is below the geometric tail after the last degree that was added. -/
theorem C142_error {P : ℕ → ℝ[X]} (hP : IsLegendre P) {μ g b : ℝ} (h : beta0 μ g = .ok b) (hg : g ≠ 0) (hg1 : g < 1) :
    ∃ N, 3 ≤ N ∧ N ≤ 2047 ∧ b = (1 - parts P μ g N) / 2 ∧ (N = 2047 ∨ Settled P μ g N) ∧
      |b - back P μ g| ≤ g ^ (N + 1) / (1 - g) := by
  obtain ⟨N, a1, a2, -, a3, -, -, -, a4⟩ := C142_sum hP h hg
  obtain ⟨h0, h1, hg0, -, -, -⟩ := beta0_range h
  refine ⟨N, a1, a2, a3, a4, ?_⟩
  have ht := tail_le (by linarith : -1 ≤ μ) h1 hg0 hg1 N
  rw [a3, back_eq hP (by linarith) h1 hg0 hg1, parts_eq hP]
  have e : (1 - psum μ g N) / 2 - (1 - ∑' n, term μ g (n + 1)) / 2 = ((∑' n, term μ g (n + 1)) - psum μ g N) / 2 := by ring
  rw [e, abs_div, abs_of_pos (by norm_num : (0 : ℝ) < 2), div_le_iff₀ (by norm_num)]
  refine ht.trans (le_of_eq ?_)
  ring

/-- For asymmetries up to a third (the default of the clear sky is 0.3) `beta_0` gives a result for every sun above the
horizon, after at most degree 41, off by at most `g⁴ / (1 - g)`. -/
theorem C142_succeeds {P : ℕ → ℝ[X]} (hP : IsLegendre P) {μ g : ℝ} (h0 : 0 < μ) (h1 : μ ≤ 1) (hg0 : 0 ≤ g) (hg3 : g ≤ 1 / 3) :
    ∃ b, beta0 μ g = .ok b ∧ (∃ N ≤ 41, b = (1 - parts P μ g N) / 2) ∧ |b - back P μ g| ≤ g ^ 4 / (1 - g) := by
  rcases eq_or_lt_of_le hg0 with rfl | hg
  · refine ⟨_, C142_isotropic hP h0 h1, ⟨0, by omega, ?_⟩, by simp⟩
    rw [back_eq hP (by linarith) h1 (le_refl _) one_pos]
    have : ∀ n, term μ 0 (n + 1) = 0 := fun n => by simp [term]
    simp [parts, this]
  · have hmg : 0 < μ * g := mul_pos h0 hg
    have hrange : ∀ N, N % 2 = 1 → 5 / 8 * (μ * g) ≤ psum μ g N ∧ psum μ g N ≤ 1 := by
      intro N hN
      obtain ⟨m, rfl⟩ : ∃ m, N = 2 * m + 1 := ⟨N / 2, by omega⟩
      exact psum_range h0.le h1 hg0 hg3 m
    have hb : ∃ b, beta0 μ g = .ok b := by
      rcases beta0_cases h0 h1 hg (by linarith) with ⟨N, -, -, a3, a4, -⟩ | ⟨N, ⟨-, -, a3, -⟩, he⟩
      · have := (hrange N a3).1
        rw [a4] at this; linarith
      · obtain ⟨c1, c2⟩ := hrange N a3
        rw [if_pos ⟨by linarith, c2⟩] at he
        exact ⟨_, he⟩
    obtain ⟨b, hb⟩ := hb
    have h41 : Settled P μ g 41 := by
      obtain ⟨c1, c2⟩ := hrange 41 (by norm_num)
      unfold Settled
      rw [part_eq hP, parts_eq hP, abs_of_pos (by linarith : 0 < psum μ g 41)]
      refine ⟨?_, c2⟩
      have ht : |term μ g 41| ≤ μ * g * (7 / 12 * (1 / 3) ^ 19) := term_small h0.le h1 hg0 hg3 19
      have hn : (7 / 12 * (1 / 3 : ℝ) ^ 19) < 5 / 8 / 10 ^ 9 := by norm_num
      have := mul_lt_mul_of_pos_left hn hmg
      rw [lt_div_iff₀ (by norm_num)]
      nlinarith
    refine ⟨b, hb, ?_, ?_⟩
    · obtain ⟨N, -, -, -, a3, -, -, a5, -⟩ := C142_sum hP hb hg.ne'
      refine ⟨N, ?_, a3⟩
      by_contra hN
      exact a5 41 (by norm_num) (by omega) (by norm_num) h41
    · obtain ⟨N, a1, -, -, -, a4⟩ := C142_error hP hb hg.ne' (by linarith)
      refine a4.trans (div_le_div_of_nonneg_right ?_ (by linarith))
      exact pow_le_pow_of_le_one hg0 (by linarith) (by omega)

/-! ### Consequences for the two-stream solution -/

/-- For asymmetries up to a third and single-scattering albedos from 3/4 up to one (the defaults are 0.3 and 0.85) no sun
angle is the resonant one. -/
theorem not_resonant {μ g omega b : ℝ} (h1 : μ ≤ 1) (hg0 : 0 ≤ g) (hg3 : g ≤ 1 / 3) (hw : 3 / 4 ≤ omega) (hw1 : omega < 1)
    (h0 : 0 < μ) (b0 : 0 ≤ b) (b1 : b ≤ 1 / 2) : ¬ Resonant μ omega (hybrid b μ omega g) := by
  rintro ⟨hr, -⟩
  have hlt : Real.sqrt (((hybrid b μ omega g).g1 - (hybrid b μ omega g).g2) * ((hybrid b μ omega g).g2 + (hybrid b μ omega g).g1)) < 1 := by
    rw [Real.sqrt_lt' one_pos, one_pow]
    unfold hybrid
    simp only [if_neg (by linarith : g ≠ 1)]
    set hd := 4 * (1 - g * g * (1 - μ)) with hhd
    have hgg : g * g ≤ 1 / 9 := by nlinarith
    have hgg0 : 0 ≤ g * g := mul_self_nonneg g
    have hlo : 32 / 9 ≤ hd := by rw [hhd]; nlinarith
    have hpos : 0 < hd := by linarith
    rw [← sub_div, ← add_div, div_mul_div_comm, div_lt_one (mul_pos hpos hpos)]
    have e1 : (g * (g * ((3 * g + 4 * b) * omega - 3) - 3 * omega) - 4 * omega + 7) -
        (g * (g * ((3 * g + 4 * (b - 1)) * omega + 1) - 3 * omega) + 4 * omega - 1) = (1 - omega) * (8 - 4 * (g * g)) := by ring
    have e2 : (g * (g * ((3 * g + 4 * (b - 1)) * omega + 1) - 3 * omega) + 4 * omega - 1) +
        (g * (g * ((3 * g + 4 * b) * omega - 3) - 3 * omega) - 4 * omega + 7) =
        6 - 6 * (g * omega) * (1 - g * g) - 2 * (g * g) - 8 * (g * g * omega) * (1 / 2 - b) := by ring
    rw [e1, e2]
    have k1 : 0 ≤ 6 * (g * omega) * (1 - g * g) := mul_nonneg (mul_nonneg (by norm_num) (mul_nonneg hg0 (by linarith))) (by linarith)
    have k2 : 0 ≤ 8 * (g * g * omega) * (1 / 2 - b) := mul_nonneg (mul_nonneg (by norm_num) (mul_nonneg hgg0 (by linarith))) (by linarith)
    have k3 : 6 - 6 * (g * omega) * (1 - g * g) - 2 * (g * g) - 8 * (g * g * omega) * (1 / 2 - b) ≤ 6 := by linarith
    have k4 : 0 ≤ (1 - omega) * (8 - 4 * (g * g)) := mul_nonneg (by linarith) (by linarith)
    have k5 : (1 - omega) * (8 - 4 * (g * g)) ≤ 1 / 4 * 8 := mul_le_mul (by linarith) (by linarith) (by linarith) (by norm_num)
    have k6 := mul_le_mul_of_nonneg_left k3 k4
    have k7 : 32 / 9 * (32 / 9) ≤ hd * hd := mul_le_mul hlo hlo (by norm_num) hpos.le
    linarith
  have hn := Real.sqrt_nonneg (((hybrid b μ omega g).g1 - (hybrid b μ omega g).g2) * ((hybrid b μ omega g).g2 + (hybrid b μ omega g).g1))
  nlinarith

/-- With the asymmetry up to a third and the single-scattering albedo from 3/4 up to one, as with the defaults 0.3 and
0.85, the two-stream solution succeeds for every sun above the horizon, optical depth, irradiance and ground, and the
diffuse part of the transmittance is not negative: no hypothesis on the series or on the sun angle is left. -/
theorem C77_default (μ s0 tau omega g r0 : ℝ) (h0 : 0 < μ) (h1 : μ ≤ 1) (hs : 0 < s0) (ht : 0 < tau)
    (hw : 3 / 4 ≤ omega) (hw1 : omega < 1) (hg0 : 0 ≤ g) (hg3 : g ≤ 1 / 3) (hr1 : r0 ≤ 1) :
    ∃ o, twostream μ s0 tau omega g r0 = .ok o ∧ o.btrans ≤ o.trans ∧ 0 ≤ o.btrans ∧ 0 ≤ o.refl ∧
      0 ≤ o.upwelling ∧ o.normal * μ ≤ o.bottom := by
  obtain ⟨b, hb, -, -⟩ := C142_succeeds C142_recurrence h0 h1 hg0 hg3
  obtain ⟨-, -, -, -, b1, b2⟩ := beta0_range hb
  exact C77_physical_partial μ s0 tau omega g r0 b hs ht (by linarith) hw1 hg0 (by linarith) hr1 (by nlinarith) hb
    (not_resonant h1 hg0 hg3 hw hw1 h0 b1 b2)

/-- The defaults, sun one degree above the horizon or anywhere else. -/
example (μ : ℝ) (h0 : 0 < μ) (h1 : μ ≤ 1) : ∃ o, twostream μ 600 (1 / 5) (85 / 100) (3 / 10) (1 / 2) = .ok o ∧ o.btrans ≤ o.trans := by
  obtain ⟨o, e, h, -⟩ := C77_default μ 600 (1 / 5) (85 / 100) (3 / 10) (1 / 2) h0 h1 (by norm_num) (by norm_num)
    (by norm_num) (by norm_num) (by norm_num) (by norm_num) (by norm_num)
  exact ⟨o, e, h⟩

/-- What the theorems on the clear sky, the net radiation and the whole run ask of the parameters (`Solar.Valid`) holds
with such parameters for every sun above the horizon. -/
theorem C142_valid (p : Twostream.Clear) (μ : ℝ) (h0 : 0 < μ) (h1 : μ ≤ 1) (ht : 0 < p.tau) (he : p.tauElevation < 44000)
    (hw : 3 / 4 ≤ p.omega) (hw1 : p.omega < 1) (hg0 : 0 ≤ p.gamma) (hg3 : p.gamma ≤ 1 / 3) : Solar.Valid p μ := by
  obtain ⟨b, hb, -, -⟩ := C142_succeeds C142_recurrence h0 h1 hg0 hg3
  obtain ⟨-, -, -, -, b1, b2⟩ := beta0_range hb
  exact ⟨ht, he, by linarith, hw1, hg0, by linarith, by nlinarith, b, hb, not_resonant h1 hg0 hg3 hw hw1 h0 b1 b2⟩

/-- The clear sky of the default configuration. -/
example (μ : ℝ) (h0 : 0 < μ) (h1 : μ ≤ 1) : Solar.Valid ⟨100, 1 / 5, 85 / 100, 3 / 10⟩ μ :=
  C142_valid _ μ h0 h1 (by norm_num) (by norm_num) (by norm_num) (by norm_num) (by norm_num) (by norm_num)

/-! ### What fails -/

/-- What the constant `TOL` promises: a result for every argument that passes the assertions at the top, with an error of
at most `10⁻⁹`. -/
def C142_full : Prop :=
  ∀ P : ℕ → ℝ[X], IsLegendre P → ∀ μ g : ℝ, 0 < μ → μ ≤ 1 → 0 ≤ g → g < 1 → ∃ b, beta0 μ g = .ok b ∧ |b - back P μ g| ≤ 1 / 10 ^ 9

private theorem leg_three (x : ℝ) : (Legendre.leg 3).eval x = (5 * x ^ 3 - 3 * x) / 2 := by
  simp [Legendre.leg]; ring

private theorem leg_five (x : ℝ) : (Legendre.leg 5).eval x = (63 * x ^ 5 - 70 * x ^ 3 + 15 * x) / 8 := by
  simp [Legendre.leg]; ring

private theorem int_five : ∫ x in (0 : ℝ)..1, (Legendre.leg 5).eval x = 1 / 16 := by
  rw [Legendre.integral_upper 4]
  simp [Legendre.leg]; norm_num

/-- The zero of the third polynomial stops the sum: for the default asymmetry 0.3 of the clear sky and the sun where the
square of the cosine is 3/5, the result is that of the first term alone, and off by more than 30000 times `TOL`. -/
theorem C142_accident_fails {P : ℕ → ℝ[X]} (hP : IsLegendre P) :
    ∃ b, beta0 (√(3 / 5)) (3 / 10) = .ok b ∧ b = (1 - parts P (√(3 / 5)) (3 / 10) 1) / 2 ∧
      3 / 10 ^ 5 < |b - back P (√(3 / 5)) (3 / 10)| := by
  set μ := √(3 / 5 : ℝ) with hμ
  have hsq : μ ^ 2 = 3 / 5 := Real.sq_sqrt (by norm_num)
  have h0 : 0 < μ := Real.sqrt_pos.2 (by norm_num)
  have hlo : 77 / 100 < μ := by
    by_contra hc
    have hc := not_lt.1 hc
    nlinarith
  have h1 : μ ≤ 1 := by nlinarith
  obtain ⟨b, hb, -, -⟩ := C142_succeeds hP h0 h1 (by norm_num : (0 : ℝ) ≤ 3 / 10) (by norm_num)
  have t3 : term μ (3 / 10) 3 = 0 := by
    rw [term, leg_three]
    have : (5 * μ ^ 3 - 3 * μ) / 2 = 0 := by
      have : μ ^ 3 = μ * (3 / 5) := by rw [← hsq]; ring
      rw [this]; ring
    rw [this]; ring
  have t2 : term μ (3 / 10) 2 = 0 := term_even μ _ 0
  have p3 : psum μ (3 / 10) 3 = 3 * (3 / 10) * μ / 2 := by
    rw [psum_succ, psum_succ, t3, t2, psum_one]; ring
  have hset : Settled P μ (3 / 10) 3 := by
    unfold Settled
    rw [part_eq hP, parts_eq hP, t3, p3]
    refine ⟨?_, by linarith⟩
    rw [abs_zero, abs_of_pos (by positivity)]
    positivity
  obtain ⟨N, a1, -, -, a3, -, -, a5, -⟩ := C142_sum hP hb (by norm_num)
  have hN : N = 3 := by
    by_contra hne
    exact a5 3 (by norm_num) (by omega) (by norm_num) hset
  rw [hN, parts_eq hP, p3] at a3
  refine ⟨b, hb, by rw [a3, parts_eq hP, psum_one], ?_⟩
  have t4 : term μ (3 / 10) 4 = 0 := term_even μ _ 1
  have t6 : term μ (3 / 10) 6 = 0 := term_even μ _ 2
  have t5 : term μ (3 / 10) 5 = -(11 * (3 / 10) ^ 5 * (27 / 50) / 16 * μ) := by
    rw [term, leg_five, int_five]
    have e3 : μ ^ 3 = μ * (3 / 5) := by rw [← hsq]; ring
    have e5 : μ ^ 5 = μ * (3 / 5) ^ 2 := by rw [← hsq]; ring
    rw [e3, e5]; push_cast; ring
  have p6 : psum μ (3 / 10) 6 = 3 * (3 / 10) * μ / 2 - 11 * (3 / 10) ^ 5 * (27 / 50) / 16 * μ := by
    rw [psum_succ, psum_succ, psum_succ, p3, t4, t5, t6]; ring
  have ht := abs_le.1 (tail_le (by linarith : -1 ≤ μ) h1 (by norm_num : (0 : ℝ) ≤ 3 / 10) (by norm_num) 6)
  rw [a3, back_eq hP (by linarith) h1 (by norm_num) (by norm_num), lt_abs]
  right
  rw [p6] at ht
  have := ht.2
  norm_num at this ⊢
  linarith

theorem C142_fails : ¬ C142_full := by
  intro h
  obtain ⟨b, h1, -, h2⟩ := C142_accident_fails C142_recurrence
  have hlo : (0 : ℝ) < √(3 / 5) := Real.sqrt_pos.2 (by norm_num)
  have hhi : √(3 / 5 : ℝ) ≤ 1 := Real.sqrt_le_one.2 (by norm_num)
  obtain ⟨b', h3, h4⟩ := h _ C142_recurrence (√(3 / 5)) (3 / 10) hlo hhi (by norm_num) (by norm_num)
  rw [h1] at h3
  injection h3 with h3
  rw [← h3] at h4
  have := h2.trans_le h4
  norm_num at this

private theorem psum_forward (m : ℕ) : psum 1 1 (2 * m + 1) = 1 - (Legendre.leg (2 * m + 2)).eval 0 := by
  induction m with
  | zero =>
    rw [show 2 * 0 + 1 = 1 from rfl, psum_one]
    have h := Legendre.zero_even 0
    have e : (Legendre.leg 0).eval 0 = 1 := by simp [Legendre.leg]
    simp only [Nat.cast_zero, mul_zero, zero_add, one_mul, e] at h ⊢
    linarith
  | succ m ih =>
    rw [show 2 * (m + 1) + 1 = 2 * m + 1 + 1 + 1 by ring, psum_succ, psum_succ, term_even, ih, term,
      Legendre.integral_upper (2 * m + 1 + 1), Legendre.leg_one]
    have h := Legendre.zero_even (m + 1)
    have e : 2 * (m + 1) = 2 * m + 1 + 1 := by ring
    have e2 : 2 * (m + 1) + 2 = 2 * m + 4 := by ring
    rw [e2, e] at h
    rw [e2]
    push_cast at h ⊢
    have h2 : (2 * (m : ℝ) + 1 + 1 + 2) ≠ 0 := by positivity
    field_simp
    linear_combination h

private theorem term_forward (m : ℕ) : term 1 1 (2 * m + 3) = (4 * (m : ℝ) + 7) / (2 * m + 4) * (Legendre.leg (2 * m + 2)).eval 0 := by
  rw [term, show 2 * m + 3 = 2 * m + 2 + 1 from rfl, Legendre.integral_upper (2 * m + 2), Legendre.leg_one]
  push_cast
  have h2 : (2 * (m : ℝ) + 2 + 2) ≠ 0 := by positivity
  have h3 : (2 * (m : ℝ) + 4) ≠ 0 := by positivity
  field_simp
  ring

/-- The warning of no convergence (twostream.py 235-240) is never printed: with the full asymmetry and the sun overhead
the loop runs out without settling (the last term is more than a hundredth of the sum), and the result is returned like
any other. It says that more than a hundred and twenty-eighth of the light goes back, though with the asymmetry one no
light changes its direction. -/
theorem C142_silent_fails {P : ℕ → ℝ[X]} (hP : IsLegendre P) :
    ∃ b, beta0 1 1 = .ok b ∧ b = (1 - parts P 1 1 2047) / 2 ∧ 1 / 128 ≤ b ∧
      (∀ n, 3 ≤ n → n ≤ 2047 → n % 2 = 1 → parts P 1 1 n / 100 < |part P 1 1 n|) := by
  have hbig : ∀ m : ℕ, m ≤ 1023 → 1 / 64 ≤ |(Legendre.leg (2 * m + 2)).eval 0| := by
    intro m hm
    have h := Legendre.zero_even_sq m
    have hm' : (m : ℝ) ≤ 1023 := by exact_mod_cast hm
    rw [← sq_abs] at h
    by_contra hc
    have hc := not_le.1 hc
    have k := abs_nonneg ((Legendre.leg (2 * m + 2)).eval 0)
    have k2 : |(Legendre.leg (2 * m + 2)).eval 0| ^ 2 < 1 / 4096 := by nlinarith
    nlinarith [Nat.cast_nonneg (α := ℝ) m]
  have hhalf : ∀ m : ℕ, 1 / 2 ≤ psum 1 1 (2 * m + 1) ∧ psum 1 1 (2 * m + 1) ≤ 3 / 2 := by
    intro m
    have := abs_le.1 (Legendre.zero_even_le m)
    rw [psum_forward]
    constructor <;> linarith
  have hterm : ∀ n, 3 ≤ n → n ≤ 2047 → n % 2 = 1 → psum 1 1 n / 100 < |term 1 1 n| := by
    intro n h3 h4 h5
    obtain ⟨m, rfl⟩ : ∃ m, n = 2 * m + 3 := ⟨(n - 3) / 2, by omega⟩
    have k1 := (hhalf (m + 1)).2
    rw [show 2 * (m + 1) + 1 = 2 * m + 3 by ring] at k1
    have k2 := hbig m (by omega)
    rw [term_forward, abs_mul, abs_of_pos (by positivity)]
    have k3 : (3 : ℝ) / 2 ≤ (4 * (m : ℝ) + 7) / (2 * m + 4) := by
      rw [div_le_div_iff₀ (by norm_num) (by positivity)]
      linarith [Nat.cast_nonneg (α := ℝ) m]
    have k4 : (3 : ℝ) / 2 * (1 / 64) ≤ (4 * (m : ℝ) + 7) / (2 * m + 4) * |(Legendre.leg (2 * m + 2)).eval 0| :=
      mul_le_mul k3 k2 (by norm_num) (by linarith)
    linarith
  have hsgn : 0 < (Legendre.leg 2048).eval 0 := Legendre.zero_sign 512
  have hlast : psum 1 1 2047 = 1 - (Legendre.leg 2048).eval 0 := psum_forward 1023
  have hb : 1 / 64 ≤ (Legendre.leg 2048).eval 0 := by
    have := hbig 1023 (le_refl _)
    rwa [show 2 * 1023 + 2 = 2048 from rfl, abs_of_pos hsgn] at this
  have hN : ∀ N, 3 ≤ N → N ≤ 2047 → N % 2 = 1 → psum 1 1 N ≠ 0 ∧ ¬ Stop 1 1 N := by
    intro N a1 a2 a3
    obtain ⟨m, rfl⟩ : ∃ m, N = 2 * m + 1 := ⟨N / 2, by omega⟩
    have k := (hhalf m).1
    have hpos : 0 < psum 1 1 (2 * m + 1) := by linarith
    refine ⟨hpos.ne', fun hs => ?_⟩
    have k2 := hs.1
    rw [abs_div, abs_of_pos hpos, div_lt_iff₀ hpos] at k2
    have k3 := hterm _ a1 a2 a3
    linarith
  rcases beta0_cases one_pos (le_refl (1 : ℝ)) one_pos (le_refl (1 : ℝ)) with ⟨N, a1, a2, a3, a4, -⟩ | ⟨N, ⟨a1, a2, a3, -, -, a6⟩, he⟩
  · exact absurd a4 (hN N a1 a2 a3).1
  · have hN2 : N = 2047 := by
      rcases a6 with h | h
      · exact h
      · exact absurd h (hN N a1 a2 a3).2
    subst hN2
    have hr := hhalf 1023
    rw [show 2 * 1023 + 1 = 2047 from rfl] at hr
    rw [if_pos ⟨by linarith, by rw [hlast]; linarith⟩] at he
    refine ⟨_, he, by rw [parts_eq hP], by rw [hlast]; linarith, fun n b1 b2 b3 => ?_⟩
    rw [part_eq hP, parts_eq hP]
    exact hterm n b1 b2 b3

/-! ### Examples -/

/-- The clear sky of the default configuration, sun at 60° from the zenith. -/
example : ∃ b, beta0 (1 / 2) (3 / 10) = .ok b ∧ (∃ N ≤ 41, b = (1 - parts Legendre.leg (1 / 2) (3 / 10) N) / 2) ∧
    |b - back Legendre.leg (1 / 2) (3 / 10)| ≤ (3 / 10) ^ 4 / (1 - 3 / 10) :=
  C142_succeeds C142_recurrence (by norm_num) (by norm_num) (by norm_num) (by norm_num)

/-- The bounds of the error are met there. -/
example : ∃ b N, beta0 (1 / 2) (3 / 10) = .ok b ∧ 3 ≤ N ∧ |b - back Legendre.leg (1 / 2) (3 / 10)| ≤ (3 / 10) ^ (N + 1) / (1 - 3 / 10) := by
  obtain ⟨b, hb, -, -⟩ := C142_succeeds C142_recurrence (by norm_num : (0 : ℝ) < 1 / 2) (by norm_num) (by norm_num : (0 : ℝ) ≤ 3 / 10) (by norm_num)
  obtain ⟨N, h1, -, -, -, h2⟩ := C142_error C142_recurrence hb (by norm_num) (by norm_num)
  exact ⟨b, N, hb, h1, h2⟩

/-- The second Legendre polynomial. -/
example {P : ℕ → ℝ[X]} (hP : IsLegendre P) : (P 2).eval (1 / 2) = -(1 / 8) := by
  rw [C142_unique hP]
  simp [Legendre.leg]; norm_num

end Verif.Beta
