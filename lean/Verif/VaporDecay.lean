import Mathlib.Analysis.SpecialFunctions.Log.Base
import Mathlib.Tactic.Linarith
import Mathlib.Tactic.FieldSimp
import Mathlib.Tactic.Positivity
import Verif.VaporProps

/-!
Helper lemmas: how fast the saturation pressure falls with the temperature, and its value at two
temperatures.
-/

namespace Verif.Vapor

theorem log_ten_ge' : (23025 / 10000 : ℝ) ≤ Real.log 10 := by
  rw [Real.le_log_iff_exp_le (by norm_num)]
  have e : Real.exp (23025 / 10000) = Real.exp 1 ^ 2 * Real.exp (3025 / 10000) := by
    rw [← Real.exp_nat_mul, ← Real.exp_add]; norm_num
  have h1 : Real.exp 1 ^ 2 ≤ (2.7182818286 : ℝ) ^ 2 :=
    pow_le_pow_left₀ (Real.exp_pos 1).le Real.exp_one_lt_d9.le 2
  have h2 := Real.exp_bound' (show (0 : ℝ) ≤ 3025 / 10000 by norm_num) (by norm_num)
    (show 0 < 7 by norm_num)
  rw [e]
  refine le_trans (mul_le_mul h1 h2 (Real.exp_pos _).le (by norm_num)) ?_
  simp only [Finset.sum_range_succ, Finset.sum_range_zero, Nat.factorial]
  norm_num

/-- The exponent of the water formula falls at least like `κ BOIL / t` up to a temperature `T`. -/
theorem waterExp_decay (s t T κ : ℝ) (hs : 0 < s) (hst : s ≤ t) (ht : t ≤ T)
    (hκ : 502808 / 100000 * (T / boil) / (23025 / 10000) + κ ≤ 790298 / 100000) :
    κ * (boil / s - boil / t) ≤ waterExp t - waterExp s := by
  have ht0 : 0 < t := by linarith
  have hT0 : 0 < T := by linarith
  have hb := boil_pos
  have huv : boil / t ≤ boil / s := div_le_div_of_nonneg_left hb.le hs hst
  have hu : boil / T ≤ boil / t := div_le_div_of_nonneg_left hb.le ht0 ht
  have hu0 : 0 < boil / t := by positivity
  have hlog : Real.log (boil / s) - Real.log (boil / t) ≤ (boil / s - boil / t) * (T / boil) := by
    rw [← Real.log_div (by positivity) hu0.ne']
    have h1 := Real.log_le_sub_one_of_pos (show 0 < boil / s / (boil / t) by positivity)
    have h2 : boil / s / (boil / t) - 1 = (boil / s - boil / t) / (boil / t) := by
      rw [sub_div, div_self hu0.ne']
    rw [h2] at h1
    refine le_trans h1 ?_
    have h3 : (boil / s - boil / t) / (boil / t) ≤ (boil / s - boil / t) / (boil / T) :=
      div_le_div_of_nonneg_left (by linarith) (by positivity) hu
    refine le_trans h3 (le_of_eq ?_)
    field_simp
  have hl10 := log_ten_ge'
  have hlog' : Real.log (boil / s) / Real.log 10 - Real.log (boil / t) / Real.log 10 ≤
      (boil / s - boil / t) * (T / boil) / (23025 / 10000) := by
    rw [← sub_div]
    have hnn : 0 ≤ (boil / s - boil / t) * (T / boil) :=
      mul_nonneg (by linarith) (by positivity)
    calc _ ≤ (boil / s - boil / t) * (T / boil) / Real.log 10 :=
          div_le_div_of_nonneg_right hlog (by linarith)
      _ ≤ _ := div_le_div_of_nonneg_left hnn (by norm_num) hl10
  have h3 : (10 : ℝ) ^ (11344 / 1000 * (1 - t / boil)) ≤ (10 : ℝ) ^ (11344 / 1000 * (1 - s / boil)) := by
    apply Real.rpow_le_rpow_of_exponent_le (by norm_num)
    have : s / boil ≤ t / boil := div_le_div_of_nonneg_right hst hb.le
    linarith
  have h4 : (10 : ℝ) ^ (-(349149 / 100000) * (boil / s - 1)) ≤
      (10 : ℝ) ^ (-(349149 / 100000) * (boil / t - 1)) := by
    apply Real.rpow_le_rpow_of_exponent_le (by norm_num)
    linarith
  have h5 := mul_le_mul_of_nonneg_right hκ (sub_nonneg.2 huv)
  unfold waterExp
  simp only
  rw [mul_div_assoc, mul_div_assoc]
  generalize (10 : ℝ) ^ (11344 / 1000 * (1 - t / boil)) = x1 at h3 ⊢
  generalize (10 : ℝ) ^ (11344 / 1000 * (1 - s / boil)) = x2 at h3 ⊢
  generalize (10 : ℝ) ^ (-(349149 / 100000) * (boil / t - 1)) = x3 at h4 ⊢
  generalize (10 : ℝ) ^ (-(349149 / 100000) * (boil / s - 1)) = x4 at h4 ⊢
  generalize Real.log (boil / s) / Real.log 10 = y1 at hlog' ⊢
  generalize Real.log (boil / t) / Real.log 10 = y2 at hlog' ⊢
  have e : (502808 / 100000 * (T / boil) / (23025 / 10000) + κ) * (boil / s - boil / t) =
    502808 / 100000 * ((boil / s - boil / t) * (T / boil) / (23025 / 10000)) + κ * (boil / s - boil / t) := by
    ring
  rw [e] at h5
  linarith

/-- The exponent of the ice formula. -/
theorem iceExp_decay (s t : ℝ) (hs : 0 < s) (hst : s ≤ t) (ht : t ≤ freeze) :
    909718 / 100000 * (freeze / s - freeze / t) ≤ iceExp t - iceExp s := by
  have ht0 : 0 < t := by linarith
  have hf := freeze_pos
  have hlog : 1 - s / t ≤ Real.log (freeze / s) - Real.log (freeze / t) := by
    rw [← Real.log_div (by positivity) (by positivity)]
    have h1 := Real.one_sub_inv_le_log_of_pos (show 0 < freeze / s / (freeze / t) by positivity)
    have e : (freeze / s / (freeze / t))⁻¹ = s / t := by field_simp
    rw [e] at h1; exact h1
  have h0 : 0 ≤ 1 - s / t := by rw [sub_nonneg, div_le_one ht0]; exact hst
  have hl := log_ten_le
  have hlog' : (1 - s / t) / (230259 / 100000) ≤
      Real.log (freeze / s) / Real.log 10 - Real.log (freeze / t) / Real.log 10 := by
    rw [← sub_div]
    calc (1 - s / t) / (230259 / 100000) ≤ (1 - s / t) / Real.log 10 :=
          div_le_div_of_nonneg_left h0 log_ten_pos hl
      _ ≤ _ := div_le_div_of_nonneg_right hlog log_ten_pos.le
  have h2 : t / freeze - s / freeze ≤ 1 - s / t := by
    have e1 : t / freeze - s / freeze = (t - s) / freeze := by field_simp
    have e2 : 1 - s / t = (t - s) / t := by field_simp
    rw [e1, e2]
    exact div_le_div_of_nonneg_left (by linarith) ht0 ht
  unfold iceExp
  simp only
  rw [mul_div_assoc, mul_div_assoc]
  generalize Real.log (freeze / s) / Real.log 10 = y1 at hlog' ⊢
  generalize Real.log (freeze / t) / Real.log 10 = y2 at hlog' ⊢
  have : (1 - s / t) / (230259 / 100000) = (1 - s / t) * (100000 / 230259) := by ring
  rw [this] at hlog'
  nlinarith

theorem ten_rpow_exp (x y b : ℝ) (h0 : 0 ≤ b) (h : b ≤ x - y) :
    (10 : ℝ) ^ y ≤ 10 ^ x * Real.exp (-(23025 / 10000 * b)) := by
  rw [Real.rpow_def_of_pos (by norm_num), Real.rpow_def_of_pos (by norm_num), ← Real.exp_add]
  apply Real.exp_le_exp.2
  have h1 := log_ten_ge'
  nlinarith

theorem satWater_decay (s t T κ B : ℝ) (hs : 0 < s) (hst : s ≤ t) (ht : t ≤ T) (hκ0 : 0 ≤ κ)
    (hκ : 502808 / 100000 * (T / boil) / (23025 / 10000) + κ ≤ 790298 / 100000)
    (hB : B ≤ 23025 / 10000 * κ * boil) :
    satWater s ≤ satWater t * Real.exp (-(B * (1 / s - 1 / t))) := by
  have ht0 : 0 < t := by linarith
  have hb := boil_pos
  have hinv : 0 ≤ 1 / s - 1 / t := by
    rw [sub_nonneg]; exact one_div_le_one_div_of_le hs hst
  have e : boil / s - boil / t = boil * (1 / s - 1 / t) := by ring
  have h := waterExp_decay s t T κ hs hst ht hκ
  rw [e] at h
  have h1 := ten_rpow_exp _ _ _ (by positivity) h
  unfold satWater
  refine le_trans h1 (mul_le_mul_of_nonneg_left (Real.exp_le_exp.2 ?_) (Real.rpow_pos_of_pos (by norm_num) _).le)
  have := mul_le_mul_of_nonneg_right hB hinv
  linarith

theorem satIce_decay (s t B : ℝ) (hs : 0 < s) (hst : s ≤ t) (ht : t ≤ freeze) (hB : B ≤ 5700) :
    satIce s ≤ satIce t * Real.exp (-(B * (1 / s - 1 / t))) := by
  have ht0 : 0 < t := by linarith
  have hf := freeze_pos
  have hinv : 0 ≤ 1 / s - 1 / t := by
    rw [sub_nonneg]; exact one_div_le_one_div_of_le hs hst
  have e : freeze / s - freeze / t = freeze * (1 / s - 1 / t) := by ring
  have h := iceExp_decay s t hs hst ht
  rw [e] at h
  have h1 := ten_rpow_exp _ _ _ (by positivity) h
  unfold satIce
  rw [mul_assoc]
  refine mul_le_mul_of_nonneg_left ?_ (by norm_num)
  refine le_trans h1 (mul_le_mul_of_nonneg_left (Real.exp_le_exp.2 ?_) (Real.rpow_pos_of_pos (by norm_num) _).le)
  have := mul_le_mul_of_nonneg_right hB hinv
  unfold freeze
  nlinarith

/-- The saturation pressure falls at least like `exp (-B / t)` up to a temperature `T`. -/
theorem sat_decay (s t T κ B : ℝ) (hs : 0 < s) (hst : s ≤ t) (ht : t ≤ T) (hκ0 : 0 ≤ κ)
    (hκ : 502808 / 100000 * (T / boil) / (23025 / 10000) + κ ≤ 790298 / 100000)
    (hB : B ≤ 23025 / 10000 * κ * boil) (hB' : B ≤ 5700) :
    sat s ≤ sat t * Real.exp (-(B * (1 / s - 1 / t))) := by
  unfold sat
  by_cases h1 : freeze < t
  · rw [if_pos h1]
    by_cases h2 : freeze < s
    · rw [if_pos h2]; exact satWater_decay s t T κ B hs hst ht hκ0 hκ hB
    · rw [if_neg h2]
      have a := satIce_decay s freeze B hs (not_lt.1 h2) le_rfl hB'
      have b := satWater_decay freeze t T κ B freeze_pos h1.le ht hκ0 hκ hB
      have c := jump_up
      have e : Real.exp (-(B * (1 / s - 1 / t))) =
          Real.exp (-(B * (1 / freeze - 1 / t))) * Real.exp (-(B * (1 / s - 1 / freeze))) := by
        rw [← Real.exp_add]; ring_nf
      rw [e, ← mul_assoc]
      refine le_trans a (mul_le_mul_of_nonneg_right (le_trans c.le b) (Real.exp_pos _).le)
  · rw [if_neg h1, if_neg (by linarith [not_lt.1 h1] : ¬ freeze < s)]
    exact satIce_decay s t B hs hst (not_lt.1 h1) hB'

theorem sat_320 : sat (3202 / 10) ≤ 10720 := by
  unfold sat
  rw [if_pos (by norm_num [freeze])]
  unfold satWater
  rw [← Real.rpow_logb (b := 10) (x := 10720) (by norm_num) (by norm_num) (by norm_num)]
  apply Real.rpow_le_rpow_of_exponent_le (by norm_num)
  rw [Real.logb, le_div_iff₀ log_ten_pos]
  have h10 := log_ten_ge'
  have hlb : Real.log (boil / (3202 / 10)) ≤ 15304 / 100000 := by
    rw [Real.log_le_iff_le_exp (by norm_num [boil])]
    have h2 := Real.sum_le_exp_of_nonneg (show (0 : ℝ) ≤ 15304 / 100000 by norm_num) 6
    simp only [Finset.sum_range_succ, Finset.sum_range_zero, Nat.factorial] at h2
    refine le_trans ?_ h2
    norm_num [boil]
  have hls : Real.log seaLevel - 22463 / 10000 ≤ Real.log 10720 := by
    have : Real.log (seaLevel / 10720) ≤ 22463 / 10000 := by
      rw [Real.log_le_iff_le_exp (by norm_num [seaLevel])]
      have e : Real.exp (22463 / 10000) = Real.exp 1 ^ 2 * Real.exp (2463 / 10000) := by
        rw [← Real.exp_nat_mul, ← Real.exp_add]; norm_num
      have h1 : (2.7182818283 : ℝ) ^ 2 ≤ Real.exp 1 ^ 2 :=
        pow_le_pow_left₀ (by norm_num) Real.exp_one_gt_d9.le 2
      have h2 := Real.sum_le_exp_of_nonneg (show (0 : ℝ) ≤ 2463 / 10000 by norm_num) 6
      simp only [Finset.sum_range_succ, Finset.sum_range_zero, Nat.factorial] at h2
      rw [e]
      refine le_trans ?_ (mul_le_mul h1 h2 (by norm_num) (by positivity))
      norm_num [seaLevel]
    rw [Real.log_div (by norm_num [seaLevel]) (by norm_num)] at this
    linarith
  have h3 : (1 : ℝ) ≤ (10 : ℝ) ^ (11344 / 1000 * (1 - 3202 / 10 / boil)) :=
    Real.one_le_rpow (by norm_num) (by norm_num [boil])
  have h4 : (10 : ℝ) ^ (-(349149 / 100000) * (boil / (3202 / 10) - 1)) ≤ 1 / 3 := by
    have a : (10 : ℝ) ^ (-(349149 / 100000) * (boil / (3202 / 10) - 1)) ≤ (10 : ℝ) ^ (-(1 / 2) : ℝ) :=
      Real.rpow_le_rpow_of_exponent_le (by norm_num) (by norm_num [boil])
    refine le_trans a ?_
    rw [Real.rpow_neg (by norm_num), ← Real.sqrt_eq_rpow, one_div]
    exact inv_anti₀ (by norm_num) (Real.le_sqrt_of_sq_le (by norm_num))
  unfold waterExp
  simp only
  generalize (10 : ℝ) ^ (11344 / 1000 * (1 - 3202 / 10 / boil)) = x1 at h3 ⊢
  generalize (10 : ℝ) ^ (-(349149 / 100000) * (boil / (3202 / 10) - 1)) = x2 at h4 ⊢
  generalize Real.log seaLevel = ls at hls ⊢
  generalize Real.log (boil / (3202 / 10)) = lb at hlb ⊢
  generalize Real.log 10720 = lx at hls ⊢
  have hb : boil / (3202 / 10) - 1 = 5295 / 32020 := by norm_num [boil]
  rw [hb]
  generalize Real.log 10 = l at h10 ⊢
  have hl : l ≠ 0 := by linarith
  have e : (-(790298 / 100000) * (5295 / 32020) + 502808 / 100000 * lb / l -
      13816 / 10 ^ 11 * (x1 - 1) + 81328 / 10 ^ 7 * (x2 - 1) + ls / l) * l =
      (-(790298 / 100000) * (5295 / 32020) - 13816 / 10 ^ 11 * (x1 - 1) +
        81328 / 10 ^ 7 * (x2 - 1)) * l + 502808 / 100000 * lb + ls := by
    field_simp
    ring
  rw [e]
  nlinarith

theorem sat_300 : sat 300 ≤ 3560 := by
  unfold sat
  rw [if_pos (by norm_num [freeze])]
  unfold satWater
  rw [← Real.rpow_logb (b := 10) (x := 3560) (by norm_num) (by norm_num) (by norm_num)]
  apply Real.rpow_le_rpow_of_exponent_le (by norm_num)
  rw [Real.logb, le_div_iff₀ log_ten_pos]
  have h10 := log_ten_ge'
  have hlb : Real.log (boil / 300) ≤ 2182 / 10000 := by
    rw [Real.log_le_iff_le_exp (by norm_num [boil])]
    have h2 := Real.sum_le_exp_of_nonneg (show (0 : ℝ) ≤ 2182 / 10000 by norm_num) 7
    simp only [Finset.sum_range_succ, Finset.sum_range_zero, Nat.factorial] at h2
    refine le_trans ?_ h2
    norm_num [boil]
  have hls : Real.log seaLevel - 33487 / 10000 ≤ Real.log 3560 := by
    have : Real.log (seaLevel / 3560) ≤ 33487 / 10000 := by
      rw [Real.log_le_iff_le_exp (by norm_num [seaLevel])]
      have e : Real.exp (33487 / 10000) = Real.exp 1 ^ 3 * Real.exp (3487 / 10000) := by
        rw [← Real.exp_nat_mul, ← Real.exp_add]; norm_num
      have h1 : (2.7182818283 : ℝ) ^ 3 ≤ Real.exp 1 ^ 3 :=
        pow_le_pow_left₀ (by norm_num) Real.exp_one_gt_d9.le 3
      have h2 := Real.sum_le_exp_of_nonneg (show (0 : ℝ) ≤ 3487 / 10000 by norm_num) 7
      simp only [Finset.sum_range_succ, Finset.sum_range_zero, Nat.factorial] at h2
      rw [e]
      refine le_trans ?_ (mul_le_mul h1 h2 (by norm_num) (by positivity))
      norm_num [seaLevel]
    rw [Real.log_div (by norm_num [seaLevel]) (by norm_num)] at this
    linarith
  have h3 : (1 : ℝ) ≤ (10 : ℝ) ^ (11344 / 1000 * (1 - 300 / boil)) :=
    Real.one_le_rpow (by norm_num) (by norm_num [boil])
  have h4 : (10 : ℝ) ^ (-(349149 / 100000) * (boil / 300 - 1)) ≤ 1 / 3 := by
    have a : (10 : ℝ) ^ (-(349149 / 100000) * (boil / 300 - 1)) ≤ (10 : ℝ) ^ (-(1 / 2) : ℝ) :=
      Real.rpow_le_rpow_of_exponent_le (by norm_num) (by norm_num [boil])
    refine le_trans a ?_
    rw [Real.rpow_neg (by norm_num), ← Real.sqrt_eq_rpow, one_div]
    exact inv_anti₀ (by norm_num) (Real.le_sqrt_of_sq_le (by norm_num))
  unfold waterExp
  simp only
  generalize (10 : ℝ) ^ (11344 / 1000 * (1 - 300 / boil)) = x1 at h3 ⊢
  generalize (10 : ℝ) ^ (-(349149 / 100000) * (boil / 300 - 1)) = x2 at h4 ⊢
  generalize Real.log seaLevel = ls at hls ⊢
  generalize Real.log (boil / 300) = lb at hlb ⊢
  generalize Real.log 3560 = lx at hls ⊢
  have hb : boil / 300 - 1 = 7315 / 30000 := by norm_num [boil]
  rw [hb]
  generalize Real.log 10 = l at h10 ⊢
  have hl : l ≠ 0 := by linarith
  have e : (-(790298 / 100000) * (7315 / 30000) + 502808 / 100000 * lb / l -
      13816 / 10 ^ 11 * (x1 - 1) + 81328 / 10 ^ 7 * (x2 - 1) + ls / l) * l =
      (-(790298 / 100000) * (7315 / 30000) - 13816 / 10 ^ 11 * (x1 - 1) +
        81328 / 10 ^ 7 * (x2 - 1)) * l + 502808 / 100000 * lb + ls := by
    field_simp
    ring
  rw [e]
  nlinarith

end Verif.Vapor
