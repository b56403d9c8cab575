import Verif.TwoFloat
import Verif.TwostreamProps
import Verif.LuFloatProps
import Verif.DiskFloatProps
import Verif.CoordFloatProps
import Verif.RestartFloatProps

/-! C163: the coefficients of the two-stream model with rounding. -/

namespace Verif.TwoFloat
open Verif.Twostream

/-! ### Rounded steps -/

private theorem step {ρ : ℝ → ℝ} {u : ℝ} (hρ : LuFloat.Error u ρ) {a' a k M : ℝ} (h : |a' - a| ≤ k * u) (hM : |a| ≤ M) (hk : k * u ≤ 1) :
    |ρ a' - a| ≤ (k + M + 1) * u := by
  have h1 := hρ.err a'
  have h0 := hρ.nonneg
  have h2 : |a'| ≤ M + 1 := by
    have := abs_add_le (a' - a) a
    rw [sub_add_cancel] at this
    linarith
  calc |ρ a' - a| ≤ |ρ a' - a'| + |a' - a| := abs_sub_le _ _ _
    _ ≤ u * (M + 1) + k * u := add_le_add (h1.trans (mul_le_mul_of_nonneg_left h2 h0)) h
    _ = (k + M + 1) * u := by ring

private theorem scale {x : ℝ} (h0 : 0 ≤ x) (h1 : x ≤ 1) {a' a k : ℝ} (h : |a' - a| ≤ k) : |x * a' - x * a| ≤ k := by
  rw [← mul_sub, abs_mul, abs_of_nonneg h0]
  have := abs_nonneg (a' - a)
  nlinarith

private theorem plus {a' a b' b k l u : ℝ} (h : |a' - a| ≤ k * u) (h' : |b' - b| ≤ l * u) : |a' + b' - (a + b)| ≤ (k + l) * u := by
  have := abs_add_le (a' - a) (b' - b)
  rw [show a' + b' - (a + b) = a' - a + (b' - b) by ring]
  linarith

private theorem minus {a' a b' b k l u : ℝ} (h : |a' - a| ≤ k * u) (h' : |b' - b| ≤ l * u) : |a' - b' - (a - b)| ≤ (k + l) * u := by
  have := abs_sub (a' - a) (b' - b)
  rw [show a' - b' - (a - b) = a' - a - (b' - b) by ring]
  linarith

private theorem shift {a' a c k u : ℝ} (h : |a' - a| ≤ k * u) : |a' + c - (a + c)| ≤ k * u := by
  rw [show a' + c - (a + c) = a' - a by ring]; exact h

theorem sign_pos {ρ : ℝ → ℝ} {u : ℝ} (hρ : LuFloat.Error u ρ) {x : ℝ} (h : 0 < x) : 0 < ρ x := by
  have h1 := (abs_le.1 (hρ.err x)).1
  have h2 := hρ.half
  rw [abs_of_pos h] at h1
  nlinarith

theorem sign_nonneg {ρ : ℝ → ℝ} {u : ℝ} (hρ : LuFloat.Error u ρ) {x : ℝ} (h : 0 ≤ x) : 0 ≤ ρ x := by
  rcases eq_or_lt_of_le h with e | e
  · have := hρ.err x
    rw [← e] at this ⊢
    simp at this
    rw [this]
  · exact (sign_pos hρ e).le

private theorem upper_error {ρ : ℝ → ℝ} {u : ℝ} (hρ : LuFloat.Error u ρ) (hu : u ≤ 1 / 10 ^ 9) {b0 omega g : ℝ} (b1 : 0 ≤ b0) (b2 : b0 ≤ 1)
    (hw : 0 ≤ omega) (hw1 : omega ≤ 1) (hg : 0 ≤ g) (hg1 : g ≤ 1) :
    |upper ρ b0 omega g - (g * (g * ((3 * g + 4 * b0) * omega - 3) - 3 * omega) - 4 * omega + 7)| ≤ 91 * u ∧
      |g * (g * ((3 * g + 4 * b0) * omega - 3) - 3 * omega) - 4 * omega + 7| ≤ 18 := by
  have h0 := hρ.nonneg
  have z : ∀ a : ℝ, |a - a| ≤ 0 * u := fun a => by simp
  have small : ∀ k : ℝ, k ≤ 1000 → k * u ≤ 1 := fun k hk => by nlinarith
  have s1 := step hρ (M := 3) (z (3 * g)) (by rw [abs_le]; constructor <;> linarith) (small _ (by norm_num))
  have s2 := step hρ (M := 4) (z (4 * b0)) (by rw [abs_le]; constructor <;> linarith) (small _ (by norm_num))
  have s3 := step hρ (M := 7) (plus s1 s2) (by rw [abs_le]; constructor <;> linarith) (small _ (by norm_num))
  have r3 : 0 ≤ (3 * g + 4 * b0) * omega ∧ (3 * g + 4 * b0) * omega ≤ 7 := ⟨by positivity, by nlinarith⟩
  have s4' := scale hw hw1 s3
  rw [mul_comm omega, mul_comm omega] at s4'
  have s4 := step hρ (M := 7) s4' (by rw [abs_le]; constructor <;> linarith) (small _ (by norm_num))
  have s5' := shift (c := -3) s4
  rw [← sub_eq_add_neg, ← sub_eq_add_neg] at s5'
  have s5 := step hρ (M := 4) s5' (by rw [abs_le]; constructor <;> linarith) (small _ (by norm_num))
  set x5 := (3 * g + 4 * b0) * omega - 3 with hx5
  have r5 : -3 ≤ x5 ∧ x5 ≤ 4 := by constructor <;> linarith
  have r6 : -3 ≤ g * x5 ∧ g * x5 ≤ 4 := by constructor <;> nlinarith
  have s6 := step hρ (M := 4) (scale hg hg1 s5) (by rw [abs_le]; constructor <;> linarith) (small _ (by norm_num))
  have s7 := step hρ (M := 3) (z (3 * omega)) (by rw [abs_le]; constructor <;> linarith) (small _ (by norm_num))
  have s8 := step hρ (M := 7) (minus s6 s7) (by rw [abs_le]; constructor <;> linarith) (small _ (by norm_num))
  set x8 := g * x5 - 3 * omega with hx8
  have r8 : -6 ≤ x8 ∧ x8 ≤ 4 := by constructor <;> linarith
  have r9 : -6 ≤ g * x8 ∧ g * x8 ≤ 4 := by constructor <;> nlinarith
  have s9 := step hρ (M := 7) (scale hg hg1 s8) (by rw [abs_le]; constructor <;> linarith) (small _ (by norm_num))
  have s10 := step hρ (M := 4) (z (4 * omega)) (by rw [abs_le]; constructor <;> linarith) (small _ (by norm_num))
  have s11 := step hρ (M := 11) (minus s9 s10) (by rw [abs_le]; constructor <;> linarith) (small _ (by norm_num))
  have s12 := step hρ (M := 18) (shift (c := 7) s11) (by rw [abs_le]; constructor <;> linarith) (small _ (by norm_num))
  unfold upper
  refine ⟨s12.trans (le_of_eq ?_), by rw [abs_le]; constructor <;> linarith⟩
  ring

private theorem lower_error {ρ : ℝ → ℝ} {u : ℝ} (hρ : LuFloat.Error u ρ) (hu : u ≤ 1 / 10 ^ 9) {b0 omega g : ℝ} (b1 : 0 ≤ b0) (b2 : b0 ≤ 1)
    (hw : 0 ≤ omega) (hw1 : omega ≤ 1) (hg : 0 ≤ g) (hg1 : g ≤ 1) :
    |lower ρ b0 omega g - (g * (g * ((3 * g + 4 * (b0 - 1)) * omega + 1) - 3 * omega) + 4 * omega - 1)| ≤ 93 * u ∧
      |g * (g * ((3 * g + 4 * (b0 - 1)) * omega + 1) - 3 * omega) + 4 * omega - 1| ≤ 18 := by
  have h0 := hρ.nonneg
  have z : ∀ a : ℝ, |a - a| ≤ 0 * u := fun a => by simp
  have small : ∀ k : ℝ, k ≤ 1000 → k * u ≤ 1 := fun k hk => by nlinarith
  have s1 := step hρ (M := 3) (z (3 * g)) (by rw [abs_le]; constructor <;> linarith) (small _ (by norm_num))
  have s2a := step hρ (M := 1) (z (b0 - 1)) (by rw [abs_le]; constructor <;> linarith) (small _ (by norm_num))
  have s2b : |4 * ρ (b0 - 1) - 4 * (b0 - 1)| ≤ 8 * u := by
    rw [← mul_sub, abs_mul, abs_of_pos (by norm_num : (0 : ℝ) < 4)]
    linarith
  have s2 := step hρ (M := 4) s2b (by rw [abs_le]; constructor <;> linarith) (small _ (by norm_num))
  have s3 := step hρ (M := 4) (plus s1 s2) (by rw [abs_le]; constructor <;> linarith) (small _ (by norm_num))
  have r3 : -4 ≤ (3 * g + 4 * (b0 - 1)) * omega ∧ (3 * g + 4 * (b0 - 1)) * omega ≤ 3 := by
    have l : -4 ≤ 3 * g + 4 * (b0 - 1) := by linarith
    have r : 3 * g + 4 * (b0 - 1) ≤ 3 := by linarith
    constructor <;> nlinarith
  have s4' := scale hw hw1 s3
  rw [mul_comm omega, mul_comm omega] at s4'
  have s4 := step hρ (M := 4) s4' (by rw [abs_le]; constructor <;> linarith) (small _ (by norm_num))
  have s5 := step hρ (M := 5) (shift (c := 1) s4) (by rw [abs_le]; constructor <;> linarith) (small _ (by norm_num))
  set x5 := (3 * g + 4 * (b0 - 1)) * omega + 1 with hx5
  have r5 : -3 ≤ x5 ∧ x5 ≤ 4 := by constructor <;> linarith
  have r6 : -3 ≤ g * x5 ∧ g * x5 ≤ 4 := by constructor <;> nlinarith
  have s6 := step hρ (M := 5) (scale hg hg1 s5) (by rw [abs_le]; constructor <;> linarith) (small _ (by norm_num))
  have s7 := step hρ (M := 3) (z (3 * omega)) (by rw [abs_le]; constructor <;> linarith) (small _ (by norm_num))
  have s8 := step hρ (M := 8) (minus s6 s7) (by rw [abs_le]; constructor <;> linarith) (small _ (by norm_num))
  set x8 := g * x5 - 3 * omega with hx8
  have r8 : -6 ≤ x8 ∧ x8 ≤ 4 := by constructor <;> linarith
  have r9 : -6 ≤ g * x8 ∧ g * x8 ≤ 4 := by constructor <;> nlinarith
  have s9 := step hρ (M := 8) (scale hg hg1 s8) (by rw [abs_le]; constructor <;> linarith) (small _ (by norm_num))
  have s10 := step hρ (M := 4) (z (4 * omega)) (by rw [abs_le]; constructor <;> linarith) (small _ (by norm_num))
  have s11 := step hρ (M := 12) (plus s9 s10) (by rw [abs_le]; constructor <;> linarith) (small _ (by norm_num))
  have s12' := shift (c := -1) s11
  rw [← sub_eq_add_neg, ← sub_eq_add_neg] at s12'
  have s12 := step hρ (M := 13) s12' (by rw [abs_le]; constructor <;> linarith) (small _ (by norm_num))
  unfold lower
  refine ⟨s12.trans (le_of_eq ?_), by rw [abs_le]; constructor <;> linarith⟩
  ring

/-- The divisor is positive when the sun is not closer to the horizon than 0.0000001. -/
theorem hd_pos {ρ : ℝ → ℝ} {u : ℝ} (hρ : LuFloat.Error u ρ) (hu : u ≤ 1 / 10 ^ 9) {cosz g : ℝ} (hc : 1 / 10 ^ 7 ≤ cosz) (hc1 : cosz ≤ 1)
    (hg : 0 ≤ g) (hg1 : g ≤ 1) : 0 < hd ρ cosz g := by
  have h0 := hρ.nonneg
  have up : ∀ x : ℝ, 0 ≤ x → ρ x ≤ (1 + 1 / 10 ^ 9) * x := fun x hx => by
    have := (abs_le.1 (hρ.err x)).2
    rw [abs_of_nonneg hx] at this
    nlinarith
  have a := up (g * g) (by positivity)
  have b := up (1 - cosz) (by linarith)
  have a0 := sign_nonneg hρ (show 0 ≤ g * g by positivity)
  have b0 := sign_nonneg hρ (show 0 ≤ 1 - cosz by linarith)
  have c := up (ρ (g * g) * ρ (1 - cosz)) (mul_nonneg a0 b0)
  have gg : g * g ≤ 1 := by nlinarith
  have a' : ρ (g * g) ≤ 1 + 1 / 10 ^ 9 := by nlinarith
  have b' : ρ (1 - cosz) ≤ (1 + 1 / 10 ^ 9) * (1 - 1 / 10 ^ 7) := by nlinarith
  have ab : ρ (g * g) * ρ (1 - cosz) ≤ (1 + 1 / 10 ^ 9) * ((1 + 1 / 10 ^ 9) * (1 - 1 / 10 ^ 7)) :=
    mul_le_mul a' b' b0 (by norm_num)
  have lt : ρ (ρ (g * g) * ρ (1 - cosz)) < 1 := by
    norm_num at c ab ⊢
    linarith
  unfold hd
  exact sign_pos hρ (mul_pos (by norm_num) (sign_pos hρ (by linarith)))

/-- The value of `beta_0` is at most one half, up to rounding. -/
theorem beta0_range {ρ : ℝ → ℝ} {u : ℝ} (hρ : LuFloat.Error u ρ) (hu : u ≤ 1 / 10 ^ 9) {cosz g b0 : ℝ} (h : beta0 ρ cosz g = .ok b0) :
    0 < cosz ∧ cosz ≤ 1 ∧ 0 ≤ g ∧ g ≤ 1 ∧ 0 ≤ b0 ∧ b0 ≤ 1 / 2 + 2 / 10 ^ 9 := by
  have h0 := hρ.nonneg
  have up : ∀ x : ℝ, 0 ≤ x → ρ x ≤ (1 + 1 / 10 ^ 9) * x := fun x hx => by
    have := (abs_le.1 (hρ.err x)).2
    rw [abs_of_nonneg hx] at this
    nlinarith
  have half : ∀ s : ℝ, 0 ≤ s → s ≤ 1 → 0 ≤ ρ (ρ (1 - s) / 2) ∧ ρ (ρ (1 - s) / 2) ≤ 1 / 2 + 2 / 10 ^ 9 := by
    intro s s0 s1
    have a0 := sign_nonneg hρ (show 0 ≤ 1 - s by linarith)
    have a := up (1 - s) (by linarith)
    have b := up (ρ (1 - s) / 2) (by linarith)
    refine ⟨sign_nonneg hρ (by linarith), ?_⟩
    norm_num at a b ⊢
    linarith
  unfold beta0 at h
  by_cases c1 : 0 < cosz ∧ cosz ≤ 1
  swap
  · rw [if_neg c1] at h; cases h
  by_cases c2 : 0 ≤ g ∧ g ≤ 1
  swap
  · rw [if_pos c1, if_neg c2] at h; cases h
  rw [if_pos c1, if_pos c2] at h
  refine ⟨c1.1, c1.2, c2.1, c2.2, ?_⟩
  split at h
  · split at h
    · cases h
    · rename_i s n hl
      have key : ∀ left m st, legLoop ρ cosz g left m st = .ok (s, n) → 1 ≤ m → n ≤ m + left - 1 := by
        intro left
        induction left with
        | zero =>
          intro m st hh hm
          unfold legLoop at hh
          simp only [Except.ok.injEq, Prod.mk.injEq] at hh
          omega
        | succ l ih =>
          intro m st hh hm
          unfold legLoop at hh
          simp only at hh
          split at hh
          · split at hh
            · cases hh
            · split at hh
              · simp only [Except.ok.injEq, Prod.mk.injEq] at hh
                omega
              · have := ih _ _ hh (by omega)
                omega
          · have := ih _ _ hh (by omega)
            omega
      have hn : n ≠ maxno := by
        have := key _ _ _ hl (by norm_num)
        unfold maxno at this ⊢
        omega
      rw [if_neg hn] at h
      split at h
      · rename_i hs
        simp only [Except.ok.injEq] at h
        subst h
        exact half s hs.1 hs.2
      · cases h
  · simp only [Except.ok.injEq] at h
    subst h
    exact half 0 le_rfl zero_le_one

/-! ### C163 -/

/-- C163: with any rounding of relative error `u`, `gam2` is less than `gam1` as soon as the scattering albedo is below one by more than
`64 u`; their sum is positive for asymmetries up to 0.9. -/
theorem C163_order_partial (ρ : ℝ → ℝ) (u : ℝ) (hρ : LuFloat.Error u ρ) (hu : u ≤ 1 / 10 ^ 9) (b0 cosz omega g : ℝ) (b1 : 0 ≤ b0)
    (b2 : b0 ≤ 1) (hc : 1 / 10 ^ 7 ≤ cosz) (hc1 : cosz ≤ 1) (hw : 0 ≤ omega) (hw1 : 64 * u < 1 - omega) (hg : 0 ≤ g) (hg1 : g < 1) :
    ∃ g1 g2, hybrid ρ b0 cosz omega g = .ok (g1, g2) ∧ g2 < g1 ∧ (g ≤ 9 / 10 → 0 < g2 + g1) := by
  have h0 := hρ.nonneg
  have hd0 := hd_pos hρ hu hc hc1 hg hg1.le
  have hw1' : omega ≤ 1 := by linarith
  obtain ⟨e1, m1⟩ := upper_error hρ hu b1 b2 hw hw1' hg hg1.le
  obtain ⟨e2, m2⟩ := lower_error hρ hu b1 b2 hw hw1' hg hg1.le
  set U := upper ρ b0 omega g
  set L := lower ρ b0 omega g
  set d := hd ρ cosz g
  set N1 := g * (g * ((3 * g + 4 * b0) * omega - 3) - 3 * omega) - 4 * omega + 7 with hN1
  set N2 := g * (g * ((3 * g + 4 * (b0 - 1)) * omega + 1) - 3 * omega) + 4 * omega - 1 with hN2
  have diff : N1 - N2 = (1 - omega) * (8 - 4 * (g * g)) := by rw [hN1, hN2]; ring
  have gg : g * g ≤ 1 := by nlinarith
  have diff' : 4 * (1 - omega) ≤ N1 - N2 := by rw [diff]; nlinarith
  have a1 := abs_le.1 e1
  have a2 := abs_le.1 e2
  have n1 := abs_le.1 m1
  have n2 := abs_le.1 m2
  have su : 93 * u ≤ 1 := by linarith
  have bU : |U| ≤ 19 := by rw [abs_le]; constructor <;> linarith
  have bL : |L| ≤ 19 := by rw [abs_le]; constructor <;> linarith
  have hUL : 72 * u < U - L := by linarith
  have q1 := abs_le.1 (hρ.err (U / d))
  have q2 := abs_le.1 (hρ.err (L / d))
  have f1 : u * |U / d| ≤ u * 19 / d := by
    rw [abs_div, abs_of_pos hd0, mul_div_assoc]
    gcongr
  have f2 : u * |L / d| ≤ u * 19 / d := by
    rw [abs_div, abs_of_pos hd0, mul_div_assoc]
    gcongr
  refine ⟨ρ (U / d), ρ (L / d), ?_, ?_, fun h9 => ?_⟩
  · unfold hybrid
    rw [if_neg hd0.ne', if_neg hg1.ne]
  · have : u * 19 / d + u * 19 / d < U / d - L / d := by
      rw [← add_div, ← sub_div]
      exact div_lt_div_of_pos_right (by linarith) hd0
    linarith [q1.1, q2.2]
  · have sum : 6 / 100 ≤ N1 + N2 := by
      have e : N1 + N2 = 6 * ((1 - g) * (1 - g)) * (1 + g) + (1 - omega) * (2 * g * (3 + 2 * g - 3 * (g * g))) + 8 * (omega * (g * g) * b0) := by
        rw [hN1, hN2]; ring
      have p1 : (1 / 10 : ℝ) * (1 / 10) ≤ (1 - g) * (1 - g) :=
        mul_le_mul (by linarith only [h9]) (by linarith only [h9]) (by norm_num) (by linarith only [h9])
      have p4 : (1 - g) * (1 - g) * 1 ≤ (1 - g) * (1 - g) * (1 + g) :=
        mul_le_mul_of_nonneg_left (by linarith only [hg]) (mul_self_nonneg _)
      have p2 : 0 ≤ (1 - omega) * (2 * g * (3 + 2 * g - 3 * (g * g))) :=
        mul_nonneg (by linarith only [hw1']) (mul_nonneg (by linarith only [hg]) (by linarith only [hg, gg]))
      have p3 : 0 ≤ 8 * (omega * (g * g) * b0) := by positivity
      rw [e]
      linarith only [p1, p2, p3, p4]
    have : u * 19 / d + u * 19 / d < U / d + L / d := by
      rw [← add_div, ← add_div]
      exact div_lt_div_of_pos_right (by linarith only [sum, a1.1, a2.1, su, hu, h0]) hd0
    linarith only [q1.1, q2.1, this, f1, f2]

/-- C163: with any rounding of relative error `u` and a scattering albedo below one by more than `64 u`, no ValueError is raised: every
error is one of `beta_0`. Otherwise the gammas are in their order, and the exponent is positive for asymmetries up to 0.9. -/
theorem C163_value_partial (ρ : ℝ → ℝ) (u : ℝ) (hρ : LuFloat.Error u ρ) (hu : u ≤ 1 / 10 ^ 9) (cosz omega g : ℝ) (hc : 1 / 10 ^ 7 ≤ cosz)
    (hw : 0 ≤ omega) (hw1 : 64 * u < 1 - omega) (hg1 : g < 1) :
    (∃ e, beta0 ρ cosz g = .error e ∧ exponent ρ cosz omega g = .error e) ∨
      ∃ x, exponent ρ cosz omega g = .ok x ∧ x.gam2 < x.gam1 ∧ (g ≤ 9 / 10 → 0 < x.xi) := by
  unfold exponent
  rcases hb : beta0 ρ cosz g with e | b0
  · exact Or.inl ⟨e, rfl, rfl⟩
  · right
    obtain ⟨-, hc1, hg, -, b1, b2⟩ := beta0_range hρ hu hb
    obtain ⟨g1, g2, hh, hlt, hs⟩ := C163_order_partial ρ u hρ hu b0 cosz omega g b1 (b2.trans (by norm_num)) hc hc1 hw hw1 hg hg1
    simp only [hh]
    rw [if_neg (not_lt.2 hlt.le), if_neg hlt.ne']
    refine ⟨_, rfl, hlt, fun h9 => ?_⟩
    exact sign_pos hρ (Real.sqrt_pos.2 (sign_pos hρ (mul_pos (sign_pos hρ (by simpa using hlt)) (sign_pos hρ (hs h9)))))

/-- C163: in double precision, for every scattering albedo below one by `2 ^ (-46)`. -/
theorem C163_double_partial (cosz omega g : ℝ) (hc : 1 / 10 ^ 7 ≤ cosz) (hw : 0 ≤ omega) (hw1 : omega ≤ 1 - (1 / 2) ^ 46) (hg1 : g < 1) :
    (∃ e, beta0 (IdwFloat.binary 53) cosz g = .error e ∧ exponent (IdwFloat.binary 53) cosz omega g = .error e) ∨
      ∃ x, exponent (IdwFloat.binary 53) cosz omega g = .ok x ∧ x.gam2 < x.gam1 ∧ (g ≤ 9 / 10 → 0 < x.xi) :=
  C163_value_partial _ ((1 / 2) ^ 53) ⟨by positivity, by norm_num, fun x => IdwFloat.C144_nearest 52 x⟩ (by norm_num) cosz omega g hc hw
    (by norm_num at hw1 ⊢; linarith) hg1

private theorem legLoop_id (cosz g : ℝ) (left n : Nat) (st : Leg) : legLoop id cosz g left n st = Twostream.legLoop cosz g left n st := by
  induction left generalizing n st with
  | zero => rfl
  | succ l ih =>
    unfold legLoop Twostream.legLoop
    simp only [id, ih]

private theorem beta0_id (cosz g : ℝ) : beta0 id cosz g = Twostream.beta0 cosz g := by
  unfold beta0 Twostream.beta0
  simp only [legLoop_id, id]
  rcases Twostream.legLoop cosz g (maxno - 2) 2 ⟨1, cosz, -1 / 8, 7 * g * g * g, 3 * g * cosz / 2⟩ with e | ⟨s, n⟩ <;> rfl

/-- C163: without rounding these are the coefficients of C49. -/
theorem C163_exact (cosz omega g r0 : ℝ) :
    exponent id cosz omega g = (coef cosz omega g r0).map fun c => ⟨c.gam1, c.gam.g2, c.xi⟩ := by
  unfold exponent coef mwgamma
  rw [beta0_id]
  rcases hb : Twostream.beta0 cosz g with e | b0
  · rfl
  · obtain ⟨hc, hc1, hg, hg1, -⟩ := Twostream.beta0_range hb
    have hd0 := Twostream.hd_pos hc hc1 hg hg1
    have hd' : ¬ hd id cosz g = 0 := by
      unfold hd
      simp only [id]
      exact hd0.ne'
    have hh : hybrid id b0 cosz omega g = .ok ((Twostream.hybrid b0 cosz omega g).g1, (Twostream.hybrid b0 cosz omega g).g2) := by
      unfold hybrid
      rw [if_neg hd']
      by_cases g1 : g = 1
      · rw [if_pos g1]
        unfold Twostream.hybrid
        simp only [if_pos g1]
        rfl
      · rw [if_neg g1]
        unfold Twostream.hybrid
        simp only [if_neg g1]
        rfl
    simp only [hh]
    generalize Twostream.hybrid b0 cosz omega g = γ
    by_cases lt : γ.g1 < γ.g2
    · rw [if_pos lt, if_pos lt]
      rfl
    · rw [if_neg lt, if_neg lt]
      rfl

/-! ### Conservative scattering -/

private theorem keep {x : ℝ} (z k : ℤ) (h : x = z * (2 : ℝ) ^ k) (hz : |z| ≤ 2 ^ 53) : IdwFloat.binary 53 x = x := by
  rw [h]; exact CoordFloat.binary_exact 52 z k hz

private theorem log_abs {x : ℝ} {e : ℤ} (h1 : (2 : ℝ) ^ e ≤ |x|) (h2 : |x| < (2 : ℝ) ^ (e + 1)) : Int.log 2 |x| = e := by
  have hx : 0 < |x| := lt_of_lt_of_le (by positivity) h1
  refine le_antisymm ?_ ?_
  · have := (Int.lt_zpow_iff_log_lt (b := 2) (by norm_num) hx (x := e + 1)).1 (by exact_mod_cast h2)
    omega
  · exact (Int.zpow_le_iff_le_log (b := 2) (by norm_num) hx).1 (by exact_mod_cast h1)

private theorem near {x : ℝ} (e z : ℤ) (h1 : (2 : ℝ) ^ e ≤ |x|) (h2 : |x| < (2 : ℝ) ^ (e + 1)) (h3 : (z : ℝ) - 1 / 2 ≤ x * (2 : ℝ) ^ (52 - e))
    (h4 : x * (2 : ℝ) ^ (52 - e) < z + 1 / 2) : IdwFloat.binary 53 x = z * (2 : ℝ) ^ (e - 52) := by
  unfold IdwFloat.binary
  rw [log_abs h1 h2, show ((53 : ℕ) : ℤ) - 1 - e = 52 - e by push_cast; ring, show e - (((53 : ℕ) : ℤ) - 1) = e - 52 by push_cast; ring]
  have : round (x * (2 : ℝ) ^ (52 - e)) = z := by
    rw [round_eq, Int.floor_eq_iff]
    exact ⟨by linarith, by linarith⟩
  rw [this]

/-- Two numbers between one half and one that are a unit of the last digit apart remain apart. -/
private theorem apart {a b : ℝ} (ha : 1 / 2 ≤ a) (hb : b < 1) (h : a + 1 / 2 ^ 53 ≤ b) : IdwFloat.binary 53 a < IdwFloat.binary 53 b := by
  have p : (0 : ℝ) < 1 / 2 ^ 53 := by positivity
  have la : Int.log 2 |a| = -1 := log_abs (by rw [abs_of_pos (by linarith)]; norm_num; linarith) (by rw [abs_of_pos (by linarith)]; norm_num; linarith)
  have lb : Int.log 2 |b| = -1 := log_abs (by rw [abs_of_pos (by linarith)]; norm_num; linarith) (by rw [abs_of_pos (by linarith)]; norm_num; linarith)
  unfold IdwFloat.binary
  rw [la, lb, show ((53 : ℕ) : ℤ) - 1 - -1 = 53 by norm_num]
  refine mul_lt_mul_of_pos_right ?_ (by positivity)
  have : round (a * (2 : ℝ) ^ (53 : ℤ)) + 1 ≤ round (b * (2 : ℝ) ^ (53 : ℤ)) := by
    rw [← round_add_one]
    rw [round_eq, round_eq]
    refine Int.floor_le_floor ?_
    norm_num at h ⊢
    linarith
  have : round (a * (2 : ℝ) ^ (53 : ℤ)) < round (b * (2 : ℝ) ^ (53 : ℤ)) := by omega
  exact_mod_cast this

local notation "dbl" => IdwFloat.binary 53

private theorem beta_witness : beta0 dbl (3 / 4) (1 / 2 ^ 17) = .ok (1 / 2 - 9 / 2 ^ 21) := by
  have v1 : dbl (7 * (1 / 2 ^ 17)) = 7 / 2 ^ 17 := by rw [keep 7 (-17) (by norm_num) (by norm_num)]; norm_num
  have v2 : dbl (7 / 2 ^ 17 * (1 / 2 ^ 17)) = 7 / 2 ^ 34 := by rw [keep 7 (-34) (by norm_num) (by norm_num)]; norm_num
  have v3 : dbl (7 / 2 ^ 34 * (1 / 2 ^ 17)) = 7 / 2 ^ 51 := by rw [keep 7 (-51) (by norm_num) (by norm_num)]; norm_num
  have v4 : dbl (3 * (1 / 2 ^ 17)) = 3 / 2 ^ 17 := by rw [keep 3 (-17) (by norm_num) (by norm_num)]; norm_num
  have v5 : dbl (3 / 2 ^ 17 * (3 / 4)) = 9 / 2 ^ 19 := by rw [keep 9 (-19) (by norm_num) (by norm_num)]; norm_num
  have v6 : dbl (9 / 2 ^ 19 / 2) = 9 / 2 ^ 20 := by rw [keep 9 (-20) (by norm_num) (by norm_num)]; norm_num
  have p1 : dbl ((2 * ((2 : ℕ) : ℝ) - 1) * (3 / 4)) = 9 / 4 := by rw [keep 9 (-2) (by norm_num) (by norm_num)]; norm_num
  have p2 : dbl (9 / 4 * (3 / 4)) = 27 / 16 := by rw [keep 27 (-4) (by norm_num) (by norm_num)]; norm_num
  have p3 : dbl ((1 - ((2 : ℕ) : ℝ)) * 1) = -1 := by rw [keep (-1) 0 (by norm_num) (by norm_num)]; norm_num
  have p4 : dbl (27 / 16 + -1) = 11 / 16 := by rw [keep 11 (-4) (by norm_num) (by norm_num)]; norm_num
  have p5 : dbl (11 / 16 / ((2 : ℕ) : ℝ)) = 11 / 32 := by rw [keep 11 (-5) (by norm_num) (by norm_num)]; norm_num
  have q1 : dbl ((2 * ((2 + 1 : ℕ) : ℝ) - 1) * (3 / 4)) = 15 / 4 := by rw [keep 15 (-2) (by norm_num) (by norm_num)]; norm_num
  have q2 : dbl (15 / 4 * (11 / 32)) = 165 / 128 := by rw [keep 165 (-7) (by norm_num) (by norm_num)]; norm_num
  have q3 : dbl ((1 - ((2 + 1 : ℕ) : ℝ)) * (3 / 4)) = -3 / 2 := by rw [keep (-3) (-1) (by norm_num) (by norm_num)]; norm_num
  have q4 : dbl (165 / 128 + -3 / 2) = -27 / 128 := by rw [keep (-27) (-7) (by norm_num) (by norm_num)]; norm_num
  have q5 : dbl (-27 / 128 / ((2 + 1 : ℕ) : ℝ)) = -9 / 128 := by rw [keep (-9) (-7) (by norm_num) (by norm_num)]; norm_num
  have r1 : dbl (7 / 2 ^ 51 * (-1 / 8)) = -7 / 2 ^ 54 := by rw [keep (-7) (-54) (by norm_num) (by norm_num)]; norm_num
  have r2 : dbl (-7 / 2 ^ 54 * (-9 / 128)) = 63 / 2 ^ 61 := by rw [keep 63 (-61) (by norm_num) (by norm_num)]; norm_num
  have r3 : dbl (9 / 2 ^ 20 + 63 / 2 ^ 61) = 9 / 2 ^ 20 + 63 / 2 ^ 61 := keep (9 * 2 ^ 41 + 63) (-61) (by norm_num) (by norm_num)
  have r4 : dbl (9 / 2 ^ 20 + 63 / 2 ^ 61 - 9 / 2 ^ 20) = 63 / 2 ^ 61 := by rw [keep 63 (-61) (by norm_num) (by norm_num)]; norm_num
  have r5 : |dbl (63 / 2 ^ 61 / (9 / 2 ^ 20 + 63 / 2 ^ 61))| < dbl (1 / 10 ^ 9) := by
    have a := abs_le.1 (IdwFloat.C144_nearest 52 (63 / 2 ^ 61 / (9 / 2 ^ 20 + 63 / 2 ^ 61)))
    have b := abs_le.1 (IdwFloat.C144_nearest 52 (1 / 10 ^ 9))
    rw [abs_of_pos (by positivity : (0 : ℝ) < 63 / 2 ^ 61 / (9 / 2 ^ 20 + 63 / 2 ^ 61))] at a
    rw [abs_of_pos (by positivity : (0 : ℝ) < 1 / 10 ^ 9)] at b
    have b1 := b.1
    have a1 := a.1
    have a2 := a.2
    show |IdwFloat.binary 53 _| < IdwFloat.binary 53 _
    rw [abs_lt]
    norm_num at a1 a2 b1 ⊢
    constructor <;> linarith
  have s1 : dbl (1 - (9 / 2 ^ 20 + 63 / 2 ^ 61)) = 1 - 9 / 2 ^ 20 := by
    rw [near (-1) (2 ^ 53 - 9 * 2 ^ 33) (by norm_num [abs_of_pos]) (by norm_num [abs_of_pos]) (by norm_num) (by norm_num)]
    norm_num
  have s2 : dbl ((1 - 9 / 2 ^ 20) / 2) = 1 / 2 - 9 / 2 ^ 21 := by
    rw [keep (2 ^ 20 - 9) (-21) (by norm_num) (by norm_num)]; norm_num
  have loop : legLoop dbl (3 / 4) (1 / 2 ^ 17) (maxno - 2) 2 ⟨1, 3 / 4, -1 / 8, 7 / 2 ^ 51, 9 / 2 ^ 20⟩ =
      .ok (9 / 2 ^ 20 + 63 / 2 ^ 61, 3) := by
    rw [show maxno - 2 = 2044 + 1 + 1 from rfl]
    unfold legLoop
    simp only [p1, p2, p3, p4, p5]
    rw [if_neg (by norm_num)]
    unfold legLoop
    simp only [q1, q2, q3, q4, q5, r1, r2, r3, r4]
    rw [if_pos (by norm_num), if_neg (by positivity), if_pos ⟨r5, by norm_num⟩]
  unfold beta0
  rw [if_pos (by norm_num), if_pos (by norm_num), if_pos (by norm_num), v1, v2, v3, v4, v5, v6, loop]
  simp only
  rw [if_neg (by decide), if_pos (by constructor <;> norm_num), s1, s2]

private theorem hd_witness : hd dbl (3 / 4) (1 / 2 ^ 17) = 4 - 1 / 2 ^ 34 := by
  have v1 : dbl (1 / 2 ^ 17 * (1 / 2 ^ 17)) = 1 / 2 ^ 34 := by rw [keep 1 (-34) (by norm_num) (by norm_num)]; norm_num
  have v2 : dbl (1 - 3 / 4) = 1 / 4 := by rw [keep 1 (-2) (by norm_num) (by norm_num)]; norm_num
  have v3 : dbl (1 / 2 ^ 34 * (1 / 4)) = 1 / 2 ^ 36 := by rw [keep 1 (-36) (by norm_num) (by norm_num)]; norm_num
  have v4 : dbl (1 - 1 / 2 ^ 36) = 1 - 1 / 2 ^ 36 := keep (2 ^ 36 - 1) (-36) (by norm_num) (by norm_num)
  have v5 : dbl (4 * (1 - 1 / 2 ^ 36)) = 4 - 1 / 2 ^ 34 := by rw [keep (2 ^ 36 - 1) (-34) (by norm_num) (by norm_num)]; norm_num
  unfold hd
  rw [v1, v2, v3, v4, v5]

private theorem upper_witness : upper dbl (1 / 2 - 9 / 2 ^ 21) 1 (1 / 2 ^ 17) = 3 - 3 / 2 ^ 17 - 1 / 2 ^ 34 := by
  have v1 : dbl (3 * (1 / 2 ^ 17)) = 3 / 2 ^ 17 := by rw [keep 3 (-17) (by norm_num) (by norm_num)]; norm_num
  have v2 : dbl (4 * (1 / 2 - 9 / 2 ^ 21)) = 2 - 9 / 2 ^ 19 := by rw [keep (2 ^ 20 - 9) (-19) (by norm_num) (by norm_num)]; norm_num
  have v3 : dbl (3 / 2 ^ 17 + (2 - 9 / 2 ^ 19)) = 2 + 3 / 2 ^ 19 := by rw [keep (2 ^ 20 + 3) (-19) (by norm_num) (by norm_num)]; norm_num
  have v4 : dbl ((2 + 3 / 2 ^ 19) * 1) = 2 + 3 / 2 ^ 19 := by rw [keep (2 ^ 20 + 3) (-19) (by norm_num) (by norm_num)]; norm_num
  have v5 : dbl (2 + 3 / 2 ^ 19 - 3) = -1 + 3 / 2 ^ 19 := by rw [keep (3 - 2 ^ 19) (-19) (by norm_num) (by norm_num)]; norm_num
  have v6 : dbl (1 / 2 ^ 17 * (-1 + 3 / 2 ^ 19)) = -1 / 2 ^ 17 + 3 / 2 ^ 36 := by
    rw [keep (3 - 2 ^ 19) (-36) (by norm_num) (by norm_num)]; norm_num
  have v7 : dbl (3 * 1) = 3 := by rw [keep 3 0 (by norm_num) (by norm_num)]; norm_num
  have v8 : dbl (-1 / 2 ^ 17 + 3 / 2 ^ 36 - 3) = -3 - 1 / 2 ^ 17 + 3 / 2 ^ 36 := by
    rw [keep (3 - 2 ^ 19 - 3 * 2 ^ 36) (-36) (by norm_num) (by norm_num)]; norm_num
  have v9 : dbl (1 / 2 ^ 17 * (-3 - 1 / 2 ^ 17 + 3 / 2 ^ 36)) = -3 / 2 ^ 17 - 1 / 2 ^ 34 + 3 / 2 ^ 53 := by
    rw [keep (3 - 2 ^ 19 - 3 * 2 ^ 36) (-53) (by norm_num) (by norm_num)]; norm_num
  have v10 : dbl (4 * 1) = 4 := by rw [keep 4 0 (by norm_num) (by norm_num)]; norm_num
  have v11 : dbl (-3 / 2 ^ 17 - 1 / 2 ^ 34 + 3 / 2 ^ 53 - 4) = -4 - 3 / 2 ^ 17 - 1 / 2 ^ 34 := by
    rw [near 2 (-2 ^ 52 - 3 * 2 ^ 33 - 2 ^ 16) (by norm_num [abs_of_neg]) (by norm_num [abs_of_neg]) (by norm_num) (by norm_num)]
    norm_num
  have v12 : dbl (-4 - 3 / 2 ^ 17 - 1 / 2 ^ 34 + 7) = 3 - 3 / 2 ^ 17 - 1 / 2 ^ 34 := by
    rw [keep (3 * 2 ^ 34 - 3 * 2 ^ 17 - 1) (-34) (by norm_num) (by norm_num)]; norm_num
  unfold upper
  rw [v1, v2, v3, v4, v5, v6, v7, v8, v9, v10, v11, v12]

private theorem lower_witness : lower dbl (1 / 2 - 9 / 2 ^ 21) 1 (1 / 2 ^ 17) = 3 - 3 / 2 ^ 17 - 1 / 2 ^ 34 + 1 / 2 ^ 51 := by
  have v1 : dbl (3 * (1 / 2 ^ 17)) = 3 / 2 ^ 17 := by rw [keep 3 (-17) (by norm_num) (by norm_num)]; norm_num
  have v0 : dbl (1 / 2 - 9 / 2 ^ 21 - 1) = -1 / 2 - 9 / 2 ^ 21 := by rw [keep (-2 ^ 20 - 9) (-21) (by norm_num) (by norm_num)]; norm_num
  have v2 : dbl (4 * (-1 / 2 - 9 / 2 ^ 21)) = -2 - 9 / 2 ^ 19 := by rw [keep (-2 ^ 20 - 9) (-19) (by norm_num) (by norm_num)]; norm_num
  have v3 : dbl (3 / 2 ^ 17 + (-2 - 9 / 2 ^ 19)) = -2 + 3 / 2 ^ 19 := by rw [keep (3 - 2 ^ 20) (-19) (by norm_num) (by norm_num)]; norm_num
  have v4 : dbl ((-2 + 3 / 2 ^ 19) * 1) = -2 + 3 / 2 ^ 19 := by rw [keep (3 - 2 ^ 20) (-19) (by norm_num) (by norm_num)]; norm_num
  have v5 : dbl (-2 + 3 / 2 ^ 19 + 1) = -1 + 3 / 2 ^ 19 := by rw [keep (3 - 2 ^ 19) (-19) (by norm_num) (by norm_num)]; norm_num
  have v6 : dbl (1 / 2 ^ 17 * (-1 + 3 / 2 ^ 19)) = -1 / 2 ^ 17 + 3 / 2 ^ 36 := by
    rw [keep (3 - 2 ^ 19) (-36) (by norm_num) (by norm_num)]; norm_num
  have v7 : dbl (3 * 1) = 3 := by rw [keep 3 0 (by norm_num) (by norm_num)]; norm_num
  have v8 : dbl (-1 / 2 ^ 17 + 3 / 2 ^ 36 - 3) = -3 - 1 / 2 ^ 17 + 3 / 2 ^ 36 := by
    rw [keep (3 - 2 ^ 19 - 3 * 2 ^ 36) (-36) (by norm_num) (by norm_num)]; norm_num
  have v9 : dbl (1 / 2 ^ 17 * (-3 - 1 / 2 ^ 17 + 3 / 2 ^ 36)) = -3 / 2 ^ 17 - 1 / 2 ^ 34 + 3 / 2 ^ 53 := by
    rw [keep (3 - 2 ^ 19 - 3 * 2 ^ 36) (-53) (by norm_num) (by norm_num)]; norm_num
  have v10 : dbl (4 * 1) = 4 := by rw [keep 4 0 (by norm_num) (by norm_num)]; norm_num
  have v11 : dbl (-3 / 2 ^ 17 - 1 / 2 ^ 34 + 3 / 2 ^ 53 + 4) = 4 - 3 / 2 ^ 17 - 1 / 2 ^ 34 + 1 / 2 ^ 51 := by
    rw [near 1 (2 ^ 53 - 3 * 2 ^ 34 - 2 ^ 17 + 1) (by norm_num [abs_of_pos]) (by norm_num [abs_of_pos]) (by norm_num) (by norm_num)]
    norm_num
  have v12 : dbl (4 - 3 / 2 ^ 17 - 1 / 2 ^ 34 + 1 / 2 ^ 51 - 1) = 3 - 3 / 2 ^ 17 - 1 / 2 ^ 34 + 1 / 2 ^ 51 := by
    rw [keep (3 * 2 ^ 51 - 3 * 2 ^ 34 - 2 ^ 17 + 1) (-51) (by norm_num) (by norm_num)]; norm_num
  unfold lower
  rw [v1, v0, v2, v3, v4, v5, v6, v7, v8, v9, v10, v11, v12]

/-- No ValueError for a sun above the horizon, any scattering albedo and any asymmetry below one, in double precision; with exact numbers
this is `C49_no_value_error`. -/
def C163_full : Prop := ∀ cosz omega g : ℝ, 1 / 10 ^ 6 ≤ cosz → cosz ≤ 1 → 0 ≤ omega → omega ≤ 1 → 0 ≤ g → g < 1 →
  exponent (IdwFloat.binary 53) cosz omega g ≠ .error .value

/-- C163: false for conservative scattering: the two gammas are the same number, but the code computes them in two ways and the rounding of
the first can be the lower one. The small number that is added when the gammas are equal comes after the comparison. -/
theorem C163_fails : ¬ C163_full := by
  intro h
  refine h (3 / 4) 1 (1 / 2 ^ 17) (by norm_num) (by norm_num) (by norm_num) le_rfl (by norm_num) (by norm_num) ?_
  show exponent dbl _ _ _ = _
  unfold exponent
  rw [beta_witness]
  have hh : hybrid dbl (1 / 2 - 9 / 2 ^ 21) (3 / 4) 1 (1 / 2 ^ 17) =
      .ok (dbl ((3 - 3 / 2 ^ 17 - 1 / 2 ^ 34) / (4 - 1 / 2 ^ 34)), dbl ((3 - 3 / 2 ^ 17 - 1 / 2 ^ 34 + 1 / 2 ^ 51) / (4 - 1 / 2 ^ 34))) := by
    unfold hybrid
    rw [hd_witness, upper_witness, lower_witness, if_neg (by norm_num), if_neg (by norm_num)]
  simp only [hh]
  rw [if_pos]
  exact apart (by norm_num) (by norm_num) (by norm_num)

/-! ### Examples -/

/-- The defaults of the configuration. -/
example : (0 : ℝ) ≤ 0.85 ∧ (0.85 : ℝ) ≤ 1 - (1 / 2) ^ 46 ∧ (0.3 : ℝ) < 1 := by norm_num

/-- Gammas of the defaults in double precision, with one half for `beta_0`. -/
example : ∃ g1 g2, hybrid (IdwFloat.binary 53) (1 / 2) (1 / 2) 0.85 0.3 = .ok (g1, g2) ∧ g2 < g1 := by
  obtain ⟨a, b, h, h1, _⟩ := C163_order_partial (IdwFloat.binary 53) ((1 / 2) ^ 53)
    ⟨by positivity, by norm_num, fun x => IdwFloat.C144_nearest 52 x⟩ (by norm_num) (1 / 2) (1 / 2) 0.85 0.3 (by norm_num) (by norm_num)
    (by norm_num) (by norm_num) (by norm_num) (by norm_num) (by norm_num) (by norm_num)
  exact ⟨a, b, h, h1⟩

/-- `beta_0` is computed in the case of `C163_fails`, so that a smaller albedo gives a positive exponent there. -/
example : ∃ x, exponent (IdwFloat.binary 53) (3 / 4) 0.85 (1 / 2 ^ 17) = .ok x ∧ 0 < x.xi := by
  rcases C163_double_partial (3 / 4) 0.85 (1 / 2 ^ 17) (by norm_num) (by norm_num) (by norm_num) (by norm_num) with ⟨e, h, _⟩ | ⟨x, h, _, h2⟩
  · rw [beta_witness] at h
    cases h
  · exact ⟨x, h, h2 (by norm_num)⟩

end Verif.TwoFloat
