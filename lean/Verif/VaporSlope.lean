import Verif.VaporProps

/-! How fast the saturation vapor pressure rises at least (helpers for C43). -/

namespace Verif.Vapor

theorem ten_rpow_ge (u : ℝ) : 1 + 2 * u ≤ (10 : ℝ) ^ u ∨ u < 0 := by
  rcases lt_or_ge u 0 with h | h
  · exact .inr h
  left
  have hl10 : (2 : ℝ) ≤ Real.log 10 := by
    rw [Real.le_log_iff_exp_le (by norm_num)]
    have h1 : Real.exp 2 = Real.exp 1 * Real.exp 1 := by rw [← Real.exp_add]; norm_num
    have h2 := Real.exp_one_lt_d9
    rw [h1]
    nlinarith [Real.exp_pos 1]
  rw [Real.rpow_def_of_pos (by norm_num)]
  have := Real.add_one_le_exp (Real.log 10 * u)
  nlinarith

theorem iceExp_slope (s t : ℝ) (hs : 0 < s) (hst : s ≤ t) (ht : t ≤ freeze) : (t - s) * (3 / 100) ≤ iceExp t - iceExp s := by
  have ht0 : 0 < t := by linarith
  have hf := freeze_pos
  have huv : freeze / t ≤ freeze / s := div_le_div_of_nonneg_left hf.le hs hst
  have hlog : Real.log (freeze / t) ≤ Real.log (freeze / s) := Real.log_le_log (by positivity) huv
  have hlog' : Real.log (freeze / t) / Real.log 10 ≤ Real.log (freeze / s) / Real.log 10 :=
    div_le_div_of_nonneg_right hlog log_ten_pos.le
  have hinv : t / freeze - s / freeze ≤ freeze / s - freeze / t := by
    have e1 : freeze / s - freeze / t = freeze * (t - s) / (s * t) := by field_simp
    have e2 : t / freeze - s / freeze = (t - s) / freeze := by field_simp
    rw [e1, e2, div_le_div_iff₀ hf (mul_pos hs ht0)]
    have h1 : s * t ≤ freeze * freeze := mul_le_mul (hst.trans ht) ht ht0.le hf.le
    nlinarith [sub_nonneg.2 hst]
  have hd : (t - s) * (365 / 100000) ≤ t / freeze - s / freeze := by
    rw [← sub_div, le_div_iff₀ hf]
    unfold freeze
    nlinarith
  unfold iceExp
  simp only
  rw [mul_div_assoc, mul_div_assoc]
  nlinarith

theorem waterExp_slope (s t : ℝ) (hs : 0 < s) (hst : s ≤ t) (ht : t ≤ 1000) :
    boil / s - boil / t ≤ waterExp t - waterExp s := by
  have ht0 : 0 < t := by linarith
  have hb := boil_pos
  have huv : boil / t ≤ boil / s := div_le_div_of_nonneg_left hb.le hs hst
  have hu : 37 / 100 ≤ boil / t := by
    rw [le_div_iff₀ ht0]; unfold boil; linarith
  have hu0 : 0 < boil / t := by linarith
  have hlog : Real.log (boil / s) - Real.log (boil / t) ≤ (boil / s - boil / t) / (37 / 100) := by
    rw [← Real.log_div (by linarith) hu0.ne']
    have h1 := Real.log_le_sub_one_of_pos (show 0 < boil / s / (boil / t) by positivity)
    have h2 : boil / s / (boil / t) - 1 = (boil / s - boil / t) / (boil / t) := by
      rw [sub_div, div_self hu0.ne']
    rw [h2] at h1
    refine le_trans h1 ?_
    exact div_le_div_of_nonneg_left (by linarith) (by norm_num) hu
  have hl10 : (2 : ℝ) ≤ Real.log 10 := by
    rw [Real.le_log_iff_exp_le (by norm_num)]
    have h1 : Real.exp 2 = Real.exp 1 * Real.exp 1 := by rw [← Real.exp_add]; norm_num
    have h2 := Real.exp_one_lt_d9
    rw [h1]
    nlinarith [Real.exp_pos 1]
  have hlog' : Real.log (boil / s) / Real.log 10 - Real.log (boil / t) / Real.log 10 ≤
      (boil / s - boil / t) / (37 / 100) / 2 := by
    rw [← sub_div]
    have hnn : 0 ≤ (boil / s - boil / t) / (37 / 100) := by
      apply div_nonneg <;> linarith
    rw [div_le_div_iff₀ (by linarith) (by norm_num)]
    nlinarith
  have h3 : (10 : ℝ) ^ (11344 / 1000 * (1 - t / boil)) ≤ (10 : ℝ) ^ (11344 / 1000 * (1 - s / boil)) := by
    apply Real.rpow_le_rpow_of_exponent_le (by norm_num)
    have : s / boil ≤ t / boil := div_le_div_of_nonneg_right hst hb.le
    linarith
  have h4 : (10 : ℝ) ^ (-(349149 / 100000) * (boil / s - 1)) ≤
      (10 : ℝ) ^ (-(349149 / 100000) * (boil / t - 1)) := by
    apply Real.rpow_le_rpow_of_exponent_le (by norm_num)
    linarith
  unfold waterExp
  simp only
  rw [mul_div_assoc, mul_div_assoc]
  have h5 : (boil / s - boil / t) / (37 / 100) / 2 = (boil / s - boil / t) * (50 / 37) := by ring
  rw [h5] at hlog'
  nlinarith

theorem satIce_slope (s t : ℝ) (hs : 0 < s) (hst : s ≤ t) (ht : t ≤ freeze) :
    satIce s * (6 / 100) * (t - s) ≤ satIce t - satIce s := by
  have h := iceExp_slope s t hs hst ht
  have hpos : 0 < (10 : ℝ) ^ iceExp s := Real.rpow_pos_of_pos (by norm_num) _
  have hu : 0 ≤ (t - s) * (3 / 100) := by nlinarith
  have h1 : (1 : ℝ) + 2 * (iceExp t - iceExp s) ≤ 10 ^ (iceExp t - iceExp s) := by
    rcases ten_rpow_ge (iceExp t - iceExp s) with h | h
    · exact h
    · linarith
  have h2 : (10 : ℝ) ^ iceExp t = 10 ^ iceExp s * 10 ^ (iceExp t - iceExp s) := by
    rw [← Real.rpow_add (by norm_num)]; ring_nf
  unfold satIce
  rw [h2]
  nlinarith [mul_le_mul_of_nonneg_left (show 1 + 2 * ((t - s) * (3 / 100)) ≤ (10 : ℝ) ^ (iceExp t - iceExp s) by linarith) hpos.le]

theorem satWater_slope (s t : ℝ) (hs : 0 < s) (hst : s ≤ t) (ht : t ≤ 1000) :
    satWater s * (74 / 100000) * (t - s) ≤ satWater t - satWater s := by
  have ht0 : 0 < t := by linarith
  have h := waterExp_slope s t hs hst ht
  have hd : (t - s) * (37 / 100000) ≤ boil / s - boil / t := by
    have e1 : boil / s - boil / t = boil * (t - s) / (s * t) := by field_simp
    rw [e1, le_div_iff₀ (mul_pos hs ht0)]
    have h1 : s * t ≤ 1000 * 1000 := mul_le_mul (hst.trans ht) ht ht0.le (by norm_num)
    have h2 := mul_le_mul_of_nonneg_left h1 (sub_nonneg.2 hst)
    unfold boil
    nlinarith
  have hpos : 0 < (10 : ℝ) ^ waterExp s := Real.rpow_pos_of_pos (by norm_num) _
  have hu : 0 ≤ (t - s) * (37 / 100000) := by nlinarith
  have h1 : (1 : ℝ) + 2 * (waterExp t - waterExp s) ≤ 10 ^ (waterExp t - waterExp s) := by
    rcases ten_rpow_ge (waterExp t - waterExp s) with h | h
    · exact h
    · linarith
  have h2 : (10 : ℝ) ^ waterExp t = 10 ^ waterExp s * 10 ^ (waterExp t - waterExp s) := by
    rw [← Real.rpow_add (by norm_num)]; ring_nf
  unfold satWater
  rw [h2]
  nlinarith [mul_le_mul_of_nonneg_left (show 1 + 2 * ((t - s) * (37 / 100000)) ≤ (10 : ℝ) ^ (waterExp t - waterExp s) by linarith) hpos.le]

theorem satIce_freeze : satIce freeze = 61071 / 100 := by
  have hf := freeze_pos
  have hL := log_ten_pos
  unfold satIce iceExp
  simp only [div_self hf.ne', sub_self, mul_zero, Real.log_one, zero_div, zero_add]
  rw [Real.rpow_def_of_pos (by norm_num), mul_div_cancel₀ _ hL.ne', Real.exp_log (by norm_num)]
  norm_num

/-- From a pressure of 10 Pa up, a degree makes at least 0.4 Pa. -/
theorem sat_slope (s t : ℝ) (hs : 0 < s) (hst : s ≤ t) (ht : t ≤ 1000) (h10 : 10 ≤ sat s) : 4 / 10 * (t - s) ≤ sat t - sat s := by
  have hF : freeze = 27316 / 100 := rfl
  have hj := jump_up
  rw [satIce_freeze] at hj
  have water : ∀ u, freeze ≤ u → u ≤ 1000 → 61071 / 100 ≤ satWater u := by
    intro u h1 h2
    have := satWater_slope freeze u freeze_pos h1 h2
    have h3 : 0 ≤ satWater freeze * (74 / 100000) * (u - freeze) :=
      mul_nonneg (mul_nonneg (by linarith) (by norm_num)) (by linarith)
    linarith
  have ice : ∀ u, 0 < u → u ≤ freeze → 10 ≤ satIce u → ∀ v, u ≤ v → v ≤ freeze → 4 / 10 * (v - u) ≤ satIce v - satIce u := by
    intro u h1 _ h3 v h4 h5
    have := satIce_slope u v h1 h4 h5
    nlinarith [mul_le_mul_of_nonneg_right h3 (sub_nonneg.2 h4)]
  have wat : ∀ u, freeze ≤ u → ∀ v, u ≤ v → v ≤ 1000 → 4 / 10 * (v - u) ≤ satWater v - satWater u := by
    intro u h1 v h4 h5
    have := satWater_slope u v (by linarith [freeze_pos]) h4 h5
    have h3 := water u h1 (h4.trans h5)
    nlinarith [mul_le_mul_of_nonneg_right h3 (sub_nonneg.2 h4)]
  unfold sat at h10 ⊢
  rcases lt_or_ge freeze s with h1 | h1
  · rw [if_pos (by linarith), if_pos h1]
    exact wat s h1.le t hst ht
  · rw [if_neg (not_lt.2 h1)] at h10 ⊢
    rcases lt_or_ge freeze t with h2 | h2
    · rw [if_pos h2]
      have a := ice s hs h1 h10 freeze h1 le_rfl
      have b := wat freeze le_rfl t h2.le ht
      rw [satIce_freeze] at a
      linarith
    · rw [if_neg (not_lt.2 h2)]
      exact ice s hs h1 h10 t hst h2

end Verif.Vapor
