import Verif.ThermalResponseProps
import Verif.VaporDecay
import Mathlib.Analysis.SpecialFunctions.Pow.Continuity

/-!
C179: the clear-sky thermal radiation of Marks 1979 in warmer air (smrf/envphys/core/topotherm.c, modelled in `Thermal.topothermC`).
No new model.
-/

namespace Verif.Vapor

theorem log_satIce (t : ℝ) : Real.log (satIce t) = Real.log 100 + iceExp t * Real.log 10 := by
  unfold satIce
  rw [Real.log_mul (by norm_num) (Real.rpow_pos_of_pos (by norm_num) _).ne', Real.log_rpow (by norm_num)]

theorem log_satWater (t : ℝ) : Real.log (satWater t) = waterExp t * Real.log 10 := by
  unfold satWater
  rw [Real.log_rpow (by norm_num)]

/-- The relative step. -/
theorem step_le_log (s t : ℝ) (hs : 0 < s) (h : s ≤ t) : (t - s) / t ≤ Real.log t - Real.log s := by
  have ht := hs.trans_le h
  have k := Real.log_le_sub_one_of_pos (div_pos hs ht)
  rw [Real.log_div hs.ne' ht.ne'] at k
  have e : (t - s) / t = 1 - s / t := by rw [sub_div, div_self ht.ne']
  rw [e]
  linarith

/-- Over ice the pressure grows no faster than the 27th power of the temperature. -/
theorem ice_power (s t c : ℝ) (hs : 230 ≤ s) (h : s ≤ t) (ht : t ≤ freeze)
    (hc : 209472 / 10000 * (freeze / s) + c * t ≤ 2343346 / 100000 + 20188 / 10000 * (t / freeze)) :
    Real.log (satIce t) - Real.log (satIce s) + c * (t - s) ≤ 27 * (Real.log t - Real.log s) := by
  have hs0 : 0 < s := by linarith
  have ht0 : 0 < t := by linarith
  have hf := freeze_pos
  have hL := log_ten_pos
  have l1 := log_ten_le
  have l2 := log_ten_ge'
  have D := step_le_log s t hs0 h
  rw [log_satIce, log_satIce]
  have e : iceExp t * Real.log 10 - iceExp s * Real.log 10 = 909718 / 100000 * Real.log 10 * (freeze / s - freeze / t)
      + 356654 / 100000 * (Real.log t - Real.log s) - 876793 / 1000000 * Real.log 10 * (t / freeze - s / freeze) := by
    unfold iceExp
    simp only
    rw [Real.log_div hf.ne' hs0.ne', Real.log_div hf.ne' ht0.ne']
    field_simp
    ring
  have q0 : 0 ≤ (t - s) / t := div_nonneg (by linarith) ht0.le
  have e1 : freeze / s - freeze / t = freeze / s * ((t - s) / t) := by field_simp
  have e2 : t / freeze - s / freeze = t / freeze * ((t - s) / t) := by field_simp
  have e3 : t - s = t * ((t - s) / t) := by field_simp
  rw [e1, e2] at e
  set q := (t - s) / t with hq
  have f0 : 0 ≤ freeze / s * q := mul_nonneg (div_pos hf hs0).le q0
  have g0 : 0 ≤ t / freeze * q := mul_nonneg (div_pos ht0 hf).le q0
  have a1 : 909718 / 100000 * Real.log 10 * (freeze / s * q) ≤ 209472 / 10000 * (freeze / s * q) :=
    mul_le_mul_of_nonneg_right (by linarith) f0
  have a2 : 20188 / 10000 * (t / freeze * q) ≤ 876793 / 1000000 * Real.log 10 * (t / freeze * q) :=
    mul_le_mul_of_nonneg_right (by linarith) g0
  have a3 := mul_le_mul_of_nonneg_right hc q0
  have e4 : c * (t - s) = c * t * q := by rw [mul_assoc, ← e3]
  rw [e4]
  nlinarith

theorem ten_rpow_gap (x y : ℝ) (h : y ≤ x) : (10 : ℝ) ^ x - (10 : ℝ) ^ y ≤ (10 : ℝ) ^ x * (Real.log 10 * (x - y)) := by
  have e : (10 : ℝ) ^ y = (10 : ℝ) ^ x * Real.exp (-(Real.log 10 * (x - y))) := by
    rw [Real.rpow_def_of_pos (by norm_num), Real.rpow_def_of_pos (by norm_num), ← Real.exp_add]
    congr 1; ring
  have k := Real.add_one_le_exp (-(Real.log 10 * (x - y)))
  have p : 0 < (10 : ℝ) ^ x := Real.rpow_pos_of_pos (by norm_num) _
  rw [e]
  nlinarith

/-- Over water too, with something to spare. -/
theorem water_power (s t : ℝ) (hs : freeze ≤ s) (h : s ≤ t) (ht : t ≤ boil) :
    Real.log (satWater t) - Real.log (satWater s) + 8 / 1000 * (t - s) ≤ 27 * (Real.log t - Real.log s) := by
  have hf := freeze_pos
  have hb := boil_pos
  have hs0 : 0 < s := hf.trans_le hs
  have ht0 : 0 < t := hs0.trans_le h
  have hL := log_ten_pos
  have l1 := log_ten_le
  have D := step_le_log s t hs0 h
  rw [log_satWater, log_satWater]
  have q0 : 0 ≤ (t - s) / t := div_nonneg (by linarith) ht0.le
  have e1 : boil / s - boil / t = boil / s * ((t - s) / t) := by field_simp
  have e2 : t / boil - s / boil = t / boil * ((t - s) / t) := by field_simp
  have e3 : t - s = t * ((t - s) / t) := by field_simp
  have e : waterExp t * Real.log 10 - waterExp s * Real.log 10 = 790298 / 100000 * Real.log 10 * (boil / s - boil / t)
      - 502808 / 100000 * (Real.log t - Real.log s)
      + 13816 / 10 ^ 11 * Real.log 10 * ((10 : ℝ) ^ (11344 / 1000 * (1 - s / boil)) - (10 : ℝ) ^ (11344 / 1000 * (1 - t / boil)))
      + 81328 / 10 ^ 7 * Real.log 10 * ((10 : ℝ) ^ (-(349149 / 100000) * (boil / t - 1)) - (10 : ℝ) ^ (-(349149 / 100000) * (boil / s - 1))) := by
    unfold waterExp
    simp only
    rw [Real.log_div hb.ne' hs0.ne', Real.log_div hb.ne' ht0.ne']
    generalize (10 : ℝ) ^ (11344 / 1000 * (1 - s / boil)) = A1
    generalize (10 : ℝ) ^ (11344 / 1000 * (1 - t / boil)) = A2
    generalize (10 : ℝ) ^ (-(349149 / 100000) * (boil / t - 1)) = A3
    generalize (10 : ℝ) ^ (-(349149 / 100000) * (boil / s - 1)) = A4
    field_simp
    ring
  have bs : boil / s ≤ 13661 / 10000 := by
    rw [div_le_iff₀ hs0]
    unfold boil freeze at *
    linarith
  have bt : t / boil ≤ 1 := by rw [div_le_one hb]; exact ht
  have g1 := ten_rpow_gap (11344 / 1000 * (1 - s / boil)) (11344 / 1000 * (1 - t / boil)) (by
    have : s / boil ≤ t / boil := div_le_div_of_nonneg_right h hb.le
    linarith)
  have g2 := ten_rpow_gap (-(349149 / 100000) * (boil / t - 1)) (-(349149 / 100000) * (boil / s - 1)) (by
    have : boil / t ≤ boil / s := div_le_div_of_nonneg_left hb.le hs0 h
    linarith)
  have p1 : (10 : ℝ) ^ (11344 / 1000 * (1 - s / boil)) ≤ 1500 := by
    refine (Real.rpow_le_rpow_of_exponent_le (by norm_num) ?_).trans ten_pow_le
    have : freeze / boil ≤ s / boil := div_le_div_of_nonneg_right hs hb.le
    have k : (7320 / 10000 : ℝ) ≤ freeze / boil := by norm_num [freeze, boil]
    linarith
  have p2 : (10 : ℝ) ^ (-(349149 / 100000) * (boil / t - 1)) ≤ 1 := by
    apply Real.rpow_le_one_of_one_le_of_nonpos (by norm_num)
    have : 1 ≤ boil / t := by rw [le_div_iff₀ ht0]; linarith
    linarith
  have r1 : 11344 / 1000 * (1 - s / boil) - 11344 / 1000 * (1 - t / boil) = 11344 / 1000 * (t / boil * ((t - s) / t)) := by rw [← e2]; ring
  have r2 : -(349149 / 100000) * (boil / t - 1) - -(349149 / 100000) * (boil / s - 1) = 349149 / 100000 * (boil / s * ((t - s) / t)) := by
    rw [← e1]; ring
  rw [r1] at g1
  rw [r2] at g2
  rw [e1] at e
  set q := (t - s) / t with hq
  have m1 : t / boil * q ≤ q := mul_le_of_le_one_left q0 bt
  have m0 : 0 ≤ t / boil * q := mul_nonneg (div_pos ht0 hb).le q0
  have m2 : boil / s * q ≤ 13661 / 10000 * q := mul_le_mul_of_nonneg_right bs q0
  have m3 : 0 ≤ boil / s * q := mul_nonneg (div_pos hb hs0).le q0
  have P1 := Real.rpow_pos_of_pos (show (0 : ℝ) < 10 by norm_num) (11344 / 1000 * (1 - s / boil))
  have P2 := Real.rpow_pos_of_pos (show (0 : ℝ) < 10 by norm_num) (-(349149 / 100000) * (boil / t - 1))
  have x1 : (10 : ℝ) ^ (11344 / 1000 * (1 - s / boil)) * (Real.log 10 * (11344 / 1000 * (t / boil * q))) ≤
      1500 * (230259 / 100000 * (11344 / 1000 * q)) :=
    mul_le_mul p1 (mul_le_mul l1 (by linarith) (by linarith) (by norm_num)) (by positivity) (by norm_num)
  have x2 : (10 : ℝ) ^ (-(349149 / 100000) * (boil / t - 1)) * (Real.log 10 * (349149 / 100000 * (boil / s * q))) ≤
      1 * (230259 / 100000 * (349149 / 100000 * (13661 / 10000 * q))) :=
    mul_le_mul p2 (mul_le_mul l1 (by linarith) (by linarith) (by norm_num)) (by positivity) (by norm_num)
  have y1 := (mul_le_mul_of_nonneg_left (g1.trans x1) (show 0 ≤ 13816 / 10 ^ 11 * Real.log 10 by positivity)).trans
    (mul_le_mul_of_nonneg_right (show 13816 / 10 ^ 11 * Real.log 10 ≤ 1 / 10 ^ 6 by
      have : (13816 / 10 ^ 11 : ℝ) * Real.log 10 ≤ 13816 / 10 ^ 11 * (230259 / 100000) := mul_le_mul_of_nonneg_left l1 (by norm_num)
      exact this.trans (by norm_num)) (by positivity))
  have y2 := (mul_le_mul_of_nonneg_left (g2.trans x2) (show 0 ≤ 81328 / 10 ^ 7 * Real.log 10 by positivity)).trans
    (mul_le_mul_of_nonneg_right (show 81328 / 10 ^ 7 * Real.log 10 ≤ 2 / 100 by
      have : (81328 / 10 ^ 7 : ℝ) * Real.log 10 ≤ 81328 / 10 ^ 7 * (230259 / 100000) := mul_le_mul_of_nonneg_left l1 (by norm_num)
      exact this.trans (by norm_num)) (by positivity))
  have y0 : 790298 / 100000 * Real.log 10 * (boil / s * q) ≤ 182 / 10 * (13661 / 10000 * q) :=
    mul_le_mul (by linarith) m2 m3 (by norm_num)
  have e4 : 8 / 1000 * (t - s) = 8 / 1000 * t * q := by rw [mul_assoc, ← e3]
  have m4 : t * q ≤ 374 * q := mul_le_mul_of_nonneg_right (by unfold boil at ht; linarith) q0
  rw [e4]
  nlinarith

theorem log_ratio_le : Real.log (boil / freeze) ≤ 3120 / 10000 := by
  rw [Real.log_le_iff_le_exp (div_pos boil_pos freeze_pos)]
  have h2 := Real.sum_le_exp_of_nonneg (show (0 : ℝ) ≤ 3120 / 10000 by norm_num) 7
  simp only [Finset.sum_range_succ, Finset.sum_range_zero, Nat.factorial] at h2
  refine le_trans ?_ h2
  norm_num [boil, freeze]

theorem log_sea_le : Real.log (seaLevel / (61071 / 100)) ≤ 51117 / 10000 := by
  rw [Real.log_le_iff_le_exp (by norm_num [seaLevel])]
  have e : Real.exp (51117 / 10000) = Real.exp 1 ^ 5 * Real.exp (1117 / 10000) := by
    rw [← Real.exp_nat_mul, ← Real.exp_add]; norm_num
  have h1 : (2.7182818283 : ℝ) ^ 5 ≤ Real.exp 1 ^ 5 := pow_le_pow_left₀ (by norm_num) Real.exp_one_gt_d9.le 5
  have h2 := Real.sum_le_exp_of_nonneg (show (0 : ℝ) ≤ 1117 / 10000 by norm_num) 5
  simp only [Finset.sum_range_succ, Finset.sum_range_zero, Nat.factorial] at h2
  rw [e]
  refine le_trans ?_ (mul_le_mul h1 h2 (by norm_num) (by positivity))
  norm_num [seaLevel]

theorem ten_pow_small : (10 : ℝ) ^ (-(127 / 100) : ℝ) ≤ 6 / 100 := by
  have h : ((10 : ℝ) ^ (127 / 100 : ℝ)) ^ 100 = 10 ^ 127 := by
    rw [← Real.rpow_natCast, ← Real.rpow_mul (by norm_num), ← Real.rpow_natCast]; norm_num
  have h2 : (100 / 6 : ℝ) ≤ (10 : ℝ) ^ (127 / 100 : ℝ) :=
    le_of_pow_le_pow_left₀ (n := 100) (by norm_num) (by positivity) (by rw [h]; norm_num)
  rw [Real.rpow_neg (by norm_num), show (6 / 100 : ℝ) = (100 / 6)⁻¹ by norm_num]
  exact inv_anti₀ (by norm_num) h2

/-- The step between the two formulas is below four parts in a thousand. -/
theorem jump_small : Real.log (satWater freeze) ≤ Real.log (satIce freeze) + 4 / 1000 := by
  have hf := freeze_pos
  have hice : satIce freeze = 61071 / 100 := by
    unfold satIce iceExp
    simp only [div_self hf.ne', sub_self, mul_zero, Real.log_one, zero_div, zero_add]
    rw [Real.rpow_def_of_pos (by norm_num), mul_div_cancel₀ _ log_ten_pos.ne', Real.exp_log (by norm_num)]
    norm_num
  rw [hice, log_satWater]
  have l1 := log_ten_le
  have l2 := log_ten_ge'
  have h5 := log_ratio_le
  have h6 := log_sea_le
  have hL := log_ten_pos
  have hsea : Real.log (seaLevel / (61071 / 100)) = Real.log seaLevel - Real.log (61071 / 100) :=
    Real.log_div (by norm_num [seaLevel]) (by norm_num)
  rw [hsea] at h6
  have hu : boil / freeze - 1 = 9999 / 27316 := by norm_num [boil, freeze]
  have h3 : 1 ≤ (10 : ℝ) ^ (11344 / 1000 * (1 - freeze / boil)) := by
    apply Real.one_le_rpow (by norm_num)
    norm_num [freeze, boil]
  have h4 : (10 : ℝ) ^ (-(349149 / 100000) * (boil / freeze - 1)) ≤ 6 / 100 := by
    refine (Real.rpow_le_rpow_of_exponent_le (by norm_num) ?_).trans ten_pow_small
    rw [hu]; norm_num
  unfold waterExp
  simp only
  generalize (10 : ℝ) ^ (11344 / 1000 * (1 - freeze / boil)) = A at h3 ⊢
  generalize (10 : ℝ) ^ (-(349149 / 100000) * (boil / freeze - 1)) = B at h4 ⊢
  rw [hu]
  have e : (-(790298 / 100000) * (9999 / 27316) + 502808 / 100000 * Real.log (boil / freeze) / Real.log 10 -
      13816 / 10 ^ 11 * (A - 1) + 81328 / 10 ^ 7 * (B - 1) + Real.log seaLevel / Real.log 10) * Real.log 10 =
      -(790298 / 100000) * (9999 / 27316) * Real.log 10 + 502808 / 100000 * Real.log (boil / freeze)
      - 13816 / 10 ^ 11 * ((A - 1) * Real.log 10) + 81328 / 10 ^ 7 * ((B - 1) * Real.log 10) + Real.log seaLevel := by
    field_simp
  rw [e]
  have a1 : 0 ≤ (A - 1) * Real.log 10 := mul_nonneg (by linarith) hL.le
  have a2 : (B - 1) * Real.log 10 ≤ (6 / 100 - 1) * Real.log 10 := mul_le_mul_of_nonneg_right (by linarith) hL.le
  linarith

/-- On one side of the freezing point, or half a degree apart. -/
def Apart (s t : ℝ) : Prop := t ≤ freeze ∨ freeze < s ∨ s + 1 / 2 ≤ t

theorem ice_power0 (s t : ℝ) (hs : 230 ≤ s) (h : s ≤ t) (ht : t ≤ freeze) :
    Real.log (satIce t) - Real.log (satIce s) ≤ 27 * (Real.log t - Real.log s) := by
  have k := ice_power s t 0 hs h ht (by
    have a : freeze / s ≤ 11877 / 10000 := by
      rw [div_le_iff₀ (by linarith)]; unfold freeze; linarith
    have b : 8419 / 10000 ≤ t / freeze := by
      rw [le_div_iff₀ freeze_pos]; unfold freeze; linarith
    linarith)
  linarith

/-- Saturation grows no faster than the 27th power of the temperature. -/
theorem sat_power (s t : ℝ) (hs : 230 ≤ s) (h : s ≤ t) (ht : t ≤ boil) (ha : Apart s t) : sat t * s ^ 27 ≤ sat s * t ^ 27 := by
  have hs0 : 0 < s := by linarith
  have ht0 : 0 < t := by linarith
  have p := C41_positive s
  have p' := C41_positive t
  rw [← Real.log_le_log_iff (by positivity) (by positivity), Real.log_mul p'.ne' (by positivity), Real.log_mul p.ne' (by positivity),
    Real.log_pow, Real.log_pow]
  push_cast
  suffices Real.log (sat t) - Real.log (sat s) ≤ 27 * (Real.log t - Real.log s) by linarith
  unfold sat
  rcases le_or_gt t freeze with h1 | h1
  · rw [if_neg (not_lt.2 h1), if_neg (not_lt.2 (h.trans h1))]
    exact ice_power0 s t hs h h1
  · rcases lt_or_ge freeze s with h2 | h2
    · rw [if_pos h1, if_pos h2]
      have := water_power s t h2.le h ht
      linarith
    · rw [if_pos h1, if_neg (not_lt.2 h2)]
      have hgap : s + 1 / 2 ≤ t := by
        rcases ha with h3 | h3 | h3
        · linarith
        · linarith
        · exact h3
      have k1 := ice_power0 s (max s 250) hs (le_max_left _ _) (max_le h2 (by norm_num [freeze]))
      have m1 : 250 ≤ max s 250 := le_max_right _ _
      have m2 : max s 250 ≤ freeze := max_le h2 (by norm_num [freeze])
      have m3 : max s 250 + 1 / 2 ≤ t := by
        rw [← max_add_add_right]
        refine max_le hgap ?_
        unfold freeze at h1
        linarith
      have k2 := ice_power (max s 250) freeze (8 / 1000) (by linarith) m2 le_rfl (by
        have a : freeze / max s 250 ≤ 10927 / 10000 := by
          rw [div_le_iff₀ (by linarith)]; unfold freeze; linarith
        rw [div_self freeze_pos.ne']
        unfold freeze at *
        linarith)
      have k3 := water_power freeze t le_rfl h1.le ht
      have k4 := jump_small
      linarith

end Verif.Vapor

namespace Verif.Thermal

open Verif.Vapor Verif.Twostream

theorem sat_le (s t : ℝ) (hs : 0 < s) (h : s ≤ t) (ht : t ≤ 1000) : sat s ≤ sat t := by
  rcases h.lt_or_eq with h1 | h1
  · exact (C41_increasing s t hs h1 ht).le
  · rw [h1]

/-- The pressure of `topotherm` at the elevation of the cell, as a fraction of that at sea level. -/
theorem press_eq (ta z : ℝ) (ht : 0 < ta + freeze) (hp : 0 < ta + freeze - lapseM * z) :
    hysat Vapor.seaLevel (ta + freeze - lapseM * z) stdLapse (z / 1000) gravity molAir / Vapor.seaLevel =
      ((ta + freeze) / (ta + freeze - lapseM * z)) ^ (gravity * molAir / (rgas * (65 / 10) * (1 / 1000))) := by
  unfold hysat
  rw [if_neg (by norm_num [stdLapse])]
  have e : ta + freeze - lapseM * z + stdLapse * (z / 1000) = ta + freeze := by unfold lapseM stdLapse; ring
  rw [e, mul_div_cancel_left₀ _ (by norm_num [Vapor.seaLevel])]
  have e2 : gravity * molAir / (rgas * stdLapse * (1 / 1000)) = -(gravity * molAir / (rgas * (65 / 10) * (1 / 1000))) := by
    norm_num [gravity, molAir, rgas, stdLapse]
  rw [e2, Real.rpow_neg (div_nonneg hp.le ht.le), ← Real.inv_rpow (div_nonneg hp.le ht.le), inv_div]

/-- Marks and Dozier's method rises with the air temperature. -/
theorem marks_hot (ta ta' tw z svf r r' : ℝ) (h : topothermC ta tw z svf = some r) (h' : topothermC ta' tw z svf = some r')
    (ht : ta ≤ ta') (hc : -43 ≤ ta) (hw : ta' ≤ 99) (ha : ta' ≤ 0 ∨ 0 < ta ∨ ta + 1 / 2 ≤ ta') (hz : 0 ≤ z) (hz' : z ≤ 50000)
    (h0 : 0 ≤ svf) (h1 : svf ≤ 1) : r ≤ r' := by
  obtain ⟨hT, hW, hp, rh, hrh, hr⟩ := topothermC_eq h
  obtain ⟨hT', -, hp', rh', hrh', hr'⟩ := topothermC_eq h'
  have bb : ∀ t, blackBody t = stefBoltz * (t + freeze) ^ 4 := by
    intro t; unfold blackBody stefBoltz freeze; ring
  have l0 : 0 ≤ -(lapseM * z) := by unfold lapseM; linarith
  have l1 : -(lapseM * z) ≤ 325 := by unfold lapseM; linarith
  rw [press_eq _ _ hT hp] at hr
  rw [press_eq _ _ hT' hp'] at hr'
  have hS : 230 ≤ ta + freeze := by unfold freeze; linarith
  have hS' : ta' + freeze ≤ boil := by unfold freeze boil; linarith
  have hap : Apart (ta + freeze) (ta' + freeze) := by
    unfold Apart
    rcases ha with k | k | k
    · left; linarith
    · right; left; linarith
    · right; right; linarith
  have hle : ta + freeze ≤ ta' + freeze := by linarith
  have hpow := sat_power _ _ hS hle hS' hap
  have hmin : sat (min (ta + freeze) (tw + freeze)) ≤ sat (min (ta' + freeze) (tw + freeze)) :=
    sat_le _ _ (lt_min hT hW) (min_le_min_right _ hle) ((min_le_left _ _).trans (hS'.trans (by norm_num [boil])))
  have hb : ta' + freeze ≤ 374 := hS'.trans (by norm_num [boil])
  have hsp : sat (ta + freeze - lapseM * z) ≤ sat (ta' + freeze - lapseM * z) := sat_le _ _ hp (by linarith) (by linarith)
  rw [bb] at hr hr'
  rw [hr, hr']
  clear hr hr' h h'
  generalize hTd : ta + freeze = T at *
  generalize hTd' : ta' + freeze = T' at *
  have hst := stefBoltz_pos
  have P := C41_positive T
  have P' := C41_positive T'
  have Pw := C41_positive (min T (tw + freeze))
  have Pw' := C41_positive (min T' (tw + freeze))
  have Q := C41_positive (T - lapseM * z)
  -- humidity
  have i1 : rh * T ^ 27 ≤ rh' * T' ^ 27 := by
    have t27 : T ^ 27 ≤ T' ^ 27 := pow_le_pow_left₀ hT.le hle 27
    rw [hrh, hrh']
    rcases le_total 1 (sat (min T' (tw + freeze)) / sat T') with k | k
    · rw [inf_eq_right.2 k, one_mul]
      refine le_trans (mul_le_mul_of_nonneg_right inf_le_right (by positivity)) ?_
      rw [one_mul]; exact t27
    · rw [inf_eq_left.2 k]
      refine le_trans (mul_le_mul_of_nonneg_right inf_le_left (by positivity)) ?_
      rw [div_mul_eq_mul_div, div_mul_eq_mul_div, div_le_div_iff₀ P P']
      have a1 := mul_le_mul_of_nonneg_left hpow Pw.le
      have a2 := mul_le_mul_of_nonneg_right hmin (show 0 ≤ sat T * T' ^ 27 by positivity)
      nlinarith
  have rh0 : 0 ≤ rh := by rw [hrh]; exact le_min (div_pos Pw P).le zero_le_one
  have rh0' : 0 ≤ rh' := by rw [hrh']; exact le_min (div_pos Pw' P').le zero_le_one
  -- the ratio of the two temperatures
  have i2 : T / (T - lapseM * z) ≤ T' / (T' - lapseM * z) := by
    rw [div_le_div_iff₀ hp hp']
    nlinarith
  have R0 : 0 ≤ T / (T - lapseM * z) := (div_pos hT hp).le
  have i3 : rh * sat (T - lapseM * z) / 100 / (T - lapseM * z) * T ^ 28 ≤ rh' * sat (T' - lapseM * z) / 100 / (T' - lapseM * z) * T' ^ 28 := by
    have e : ∀ (a b c d : ℝ), a * b / 100 / c * d ^ 28 = a * d ^ 27 * (d / c) * b / 100 := by intro a b c d; ring
    rw [e, e]
    refine div_le_div_of_nonneg_right ?_ (by norm_num)
    exact mul_le_mul (mul_le_mul i1 i2 R0 (by positivity)) hsp Q.le (by positivity)
  have root : ∀ x d : ℝ, 0 ≤ x → 0 ≤ d → x ^ (1 / 7 : ℝ) * d ^ 4 = (x * d ^ 28) ^ (1 / 7 : ℝ) := by
    intro x d hx hd
    rw [Real.mul_rpow hx (by positivity), ← Real.rpow_natCast d 28, ← Real.rpow_mul hd, ← Real.rpow_natCast d 4]
    norm_num
  have x0 : 0 ≤ rh * sat (T - lapseM * z) / 100 / (T - lapseM * z) := by positivity
  have x0' : 0 ≤ rh' * sat (T' - lapseM * z) / 100 / (T' - lapseM * z) := by
    have := C41_positive (T' - lapseM * z)
    positivity
  have t4 : T ^ 4 ≤ T' ^ 4 := pow_le_pow_left₀ hT.le hle 4
  have i4 : min (124 / 100 * (rh * sat (T - lapseM * z) / 100 / (T - lapseM * z)) ^ (1 / 7 : ℝ)) 1 * T ^ 4 ≤
      min (124 / 100 * (rh' * sat (T' - lapseM * z) / 100 / (T' - lapseM * z)) ^ (1 / 7 : ℝ)) 1 * T' ^ 4 := by
    rw [min_mul_of_nonneg _ _ (by positivity), min_mul_of_nonneg _ _ (by positivity)]
    refine min_le_min ?_ (by linarith)
    rw [mul_assoc, mul_assoc, root _ _ x0 hT.le, root _ _ x0' hT'.le]
    refine mul_le_mul_of_nonneg_left ?_ (by norm_num)
    exact Real.rpow_le_rpow (by positivity) i3 (by norm_num)
  have i5 : (T / (T - lapseM * z)) ^ (gravity * molAir / (rgas * (65 / 10) * (1 / 1000))) ≤
      (T' / (T' - lapseM * z)) ^ (gravity * molAir / (rgas * (65 / 10) * (1 / 1000))) :=
    Real.rpow_le_rpow R0 i2 (by norm_num [gravity, molAir, rgas])
  have m0 : 0 ≤ min (124 / 100 * (rh' * sat (T' - lapseM * z) / 100 / (T' - lapseM * z)) ^ (1 / 7 : ℝ)) 1 :=
    le_min (by positivity) zero_le_one
  have c0 := Real.rpow_nonneg R0 (gravity * molAir / (rgas * (65 / 10) * (1 / 1000)))
  generalize min (124 / 100 * (rh * sat (T - lapseM * z) / 100 / (T - lapseM * z)) ^ (1 / 7 : ℝ)) 1 = E at *
  generalize min (124 / 100 * (rh' * sat (T' - lapseM * z) / 100 / (T' - lapseM * z)) ^ (1 / 7 : ℝ)) 1 = E' at *
  generalize (T / (T - lapseM * z)) ^ (gravity * molAir / (rgas * (65 / 10) * (1 / 1000))) = C at *
  generalize (T' / (T' - lapseM * z)) ^ (gravity * molAir / (rgas * (65 / 10) * (1 / 1000))) = C' at *
  have i6 : E * T ^ 4 * C ≤ E' * T' ^ 4 * C' := mul_le_mul i4 i5 c0 (by positivity)
  have i7 : min (E * C * svf + (1 - svf)) 1 * T ^ 4 ≤ min (E' * C' * svf + (1 - svf)) 1 * T' ^ 4 := by
    rw [min_mul_of_nonneg _ _ (by positivity), min_mul_of_nonneg _ _ (by positivity)]
    refine min_le_min ?_ (by linarith)
    have a1 := mul_le_mul_of_nonneg_right i6 h0
    have a2 := mul_le_mul_of_nonneg_left t4 (sub_nonneg.2 h1)
    linarith
  have := mul_le_mul_of_nonneg_left i7 hst.le
  linarith

/-- C179 in full: over ground at or above sea level, air not below -43 degrees, warmer air never gives less radiation. -/
def C179_full : Prop :=
  ∀ (ι : Type) (c : Cfg) (g : Maps ι) (x x' : In ι) (o o' : Out ι), c.sky = .marks1979 → c.cloud ≠ some .kimball1982 → Sound g x → Hotter x x' →
    (∀ i, 0 ≤ g.dem i ∧ g.dem i ≤ 50000) → (∀ i, -43 ≤ x.airTemp i) → (∀ i, x'.airTemp i ≤ 99) →
    distribute c g x = .ok o → distribute c g x' = .ok o' → ∀ i, o.thermal i ≤ o'.thermal i

/-- Warmer air gives no less thermal radiation with the method of Marks and Dozier, up to the published image, in every cell where both
temperatures are on one side of the freezing point or at least half a degree apart. Missing: smaller steps across the freezing
point (`C179_jump_fails`), air below -43 degrees, ground below sea level. -/
theorem C179_hot_partial {ι : Type} (c : Cfg) (hs : c.sky = .marks1979) (hc : c.cloud ≠ some .kimball1982) (g : Maps ι) (x x' : In ι)
    (hx : Sound g x) (hm : Hotter x x') (o o' : Out ι) (h : distribute c g x = .ok o) (h' : distribute c g x' = .ok o') (i : ι)
    (hz : 0 ≤ g.dem i ∧ g.dem i ≤ 50000) (hl : -43 ≤ x.airTemp i) (hu : x'.airTemp i ≤ 99)
    (ha : x'.airTemp i ≤ 0 ∨ 0 < x.airTemp i ∨ x.airTemp i + 1 / 2 ≤ x'.airTemp i) : o.thermal i ≤ o'.thermal i := by
  obtain ⟨cth, hs1, e⟩ := step_cell c g x o h
  obtain ⟨cth', hs2, e'⟩ := step_cell c g x' o' h'
  rw [e, e', congrFun hm.cloud i]
  refine later_le c hc _ _ _ _ _ _ _ _ _ ?_ (hx.temp i).1 (hm.temp i) (hx.tau i).1 (hx.tau i).2 (hx.cloud i).1 (hx.cloud i).2
  unfold terrain
  rw [hs] at hs1 hs2 ⊢
  by_cases hT : c.terrain = true
  · simp only [if_pos hT, if_true] at hs1 hs2 ⊢
    unfold clearSky at hs1 hs2
    simp only at hs1 hs2
    split at hs1
    · rename_i k
      split at hs2
      · rename_i k'
        cases hs1
        cases hs2
        have e1 := (Option.some_get (k' i)).symm
        refine marks_hot _ _ _ _ _ _ _ (Option.some_get (k i)).symm ?_ (hm.temp i) hl hu ha hz.1 hz.2 (hx.svf i).1 (hx.svf i).2
        rw [← congrFun hm.dew i]
        exact e1
      · cases hs2
    · cases hs1
  · simp only [if_neg hT] at hs1
    cases hs1

theorem waterExp_cont (t : ℝ) (ht : 0 < t) : ContinuousAt waterExp t := by
  have b : ContinuousAt (fun t : ℝ => boil / t) t := continuousAt_const.div continuousAt_id ht.ne'
  have l : ContinuousAt (fun t : ℝ => Real.log (boil / t)) t := b.log (div_pos boil_pos ht).ne'
  have c1 : ContinuousAt (fun t : ℝ => (10 : ℝ) ^ (11344 / 1000 * (1 - t / boil))) t :=
    continuousAt_const.rpow (by fun_prop) (.inl (by norm_num))
  have c2 : ContinuousAt (fun t : ℝ => (10 : ℝ) ^ (-(349149 / 100000) * (boil / t - 1))) t :=
    continuousAt_const.rpow (continuousAt_const.mul (b.sub continuousAt_const)) (.inl (by norm_num))
  unfold waterExp
  simp only
  exact ((((continuousAt_const.mul (b.sub continuousAt_const)).add ((continuousAt_const.mul l).div_const _)).sub
    (continuousAt_const.mul (c1.sub continuousAt_const))).add (continuousAt_const.mul (c2.sub continuousAt_const))).add continuousAt_const

theorem satWater_cont (t : ℝ) (ht : 0 < t) : ContinuousAt satWater t :=
  continuousAt_const.rpow (waterExp_cont t ht) (.inl (by norm_num))

/-- Radiation with the formula over water and without the limits on the emissivity; `A` vapor pressure of the air, `d` the difference
of the temperature to that at sea level. -/
noncomputable def wetSky (A d svf T : ℝ) : ℝ :=
  (124 / 100 * (A / satWater T * satWater (T + d) / 100 / (T + d)) ^ (1 / 7 : ℝ) * (T / (T + d)) ^ (gravity * molAir / (rgas * (65 / 10) * (1 / 1000)))
    * svf + (1 - svf)) * (stefBoltz * T ^ 4)

theorem satWater_pos (t : ℝ) : 0 < satWater t := Real.rpow_pos_of_pos (by norm_num) _

theorem wetSky_cont (A d svf T : ℝ) (hT : 0 < T) (hd : 0 ≤ d) : ContinuousAt (wetSky A d svf) T := by
  have hs : ContinuousAt (fun t : ℝ => t + d) T := by fun_prop
  have hs0 : T + d ≠ 0 := by linarith
  have w : ContinuousAt (fun t : ℝ => satWater (t + d)) T := ContinuousAt.comp (f := fun t : ℝ => t + d) (g := satWater) (satWater_cont (T + d) (by linarith)) hs
  have r : ContinuousAt (fun t : ℝ => A / satWater t * satWater (t + d) / 100 / (t + d)) T :=
    (((continuousAt_const.div (satWater_cont T hT) (satWater_pos T).ne').mul w).div_const _).div hs hs0
  unfold wetSky
  refine ContinuousAt.mul ?_ (by fun_prop)
  refine ContinuousAt.add (ContinuousAt.mul (ContinuousAt.mul (continuousAt_const.mul (r.rpow_const (.inr (by norm_num)))) ?_) continuousAt_const) continuousAt_const
  exact (continuousAt_id.div hs hs0).rpow_const (.inr (by norm_num [gravity, molAir, rgas]))

theorem topothermC_def (ta tw z svf : ℝ) (ht : 0 < ta + freeze) (hw : 0 < tw + freeze) (hp : 0 < ta + freeze - lapseM * z) :
    ∃ r, topothermC ta tw z svf = some r := by
  unfold topothermC
  simp only
  rw [if_neg (by rw [not_or]; exact ⟨not_lt.2 ht.le, not_lt.2 hw.le⟩)]
  have hm : ¬ (if ta + freeze < tw + freeze then ta + freeze else tw + freeze) ≤ 0 := by split <;> linarith
  generalize (if ta + freeze < tw + freeze then ta + freeze else tw + freeze) = w at hm
  unfold brutsaertC satiC
  simp only
  rw [if_neg hm, if_neg (not_le.2 ht), if_neg (not_le.2 hp)]
  simp only [Option.bind_some]
  exact ⟨_, rfl⟩

/-- Every cell between sea level and 4000 m that sees some sky, in air no moister than saturated at the freezing point: there is a temperature
above the freezing point at which the method gives less radiation than at the freezing point. -/
theorem C179_jump_fails (tw z svf : ℝ) (hz : 0 < z) (hz' : z ≤ 4000) (hw : -(27316 / 100) < tw) (hw' : tw ≤ 0) (h0 : 0 < svf) (h1 : svf ≤ 1) :
    ∃ ta r r', 0 < ta ∧ ta < 1 ∧ topothermC 0 tw z svf = some r ∧ topothermC ta tw z svf = some r' ∧ r' < r := by
  have hf := freeze_pos
  have d0 : 0 < -(lapseM * z) := by unfold lapseM; linarith
  have d1 : -(lapseM * z) ≤ 26 := by unfold lapseM; linarith
  have hW : 0 < tw + freeze := by unfold freeze; linarith
  obtain ⟨r, hr⟩ := topothermC_def 0 tw z svf (by linarith) hW (by linarith)
  have hlt : wetSky (sat (tw + freeze)) (-(lapseM * z)) svf freeze < r := by
    obtain ⟨hT, -, hp, rh, hrh, e⟩ := topothermC_eq hr
    rw [press_eq _ _ hT hp] at e
    simp only [zero_add] at hT hp hrh e
    rw [min_eq_right (show tw + freeze ≤ freeze by linarith)] at hrh
    have s1 : sat (tw + freeze) ≤ sat freeze := sat_le _ _ hW (by linarith) (by norm_num [freeze])
    have P := C41_positive freeze
    have Pw := C41_positive (tw + freeze)
    rw [inf_eq_left.2 ((div_le_one P).2 s1)] at hrh
    have esub : freeze - lapseM * z = freeze + -(lapseM * z) := by ring
    rw [esub] at e hp
    have es : sat (freeze + -(lapseM * z)) = satWater (freeze + -(lapseM * z)) := by unfold sat; rw [if_pos (by linarith)]
    have ei : sat freeze = satIce freeze := by unfold sat; rw [if_neg (lt_irrefl _)]
    have Q := C41_positive (freeze + -(lapseM * z))
    have s2 : sat (freeze + -(lapseM * z)) ≤ 3560 := (sat_le _ 300 hp (by unfold freeze; linarith) (by norm_num)).trans sat_300
    have rh1 : rh ≤ 1 := by rw [hrh]; exact (div_le_one P).2 s1
    have rh0 : 0 < rh := by rw [hrh]; exact div_pos Pw P
    -- the emissivity is below one
    have em : 124 / 100 * (rh * sat (freeze + -(lapseM * z)) / 100 / (freeze + -(lapseM * z))) ^ (1 / 7 : ℝ) ≤ 1 := by
      have k : rh * sat (freeze + -(lapseM * z)) / 100 / (freeze + -(lapseM * z)) ≤ (100 / 124 : ℝ) ^ 7 := by
        rw [div_le_iff₀ hp, div_le_iff₀ (by norm_num)]
        have a : rh * sat (freeze + -(lapseM * z)) ≤ 1 * 3560 := mul_le_mul rh1 s2 Q.le (by norm_num)
        have b : 273 ≤ freeze + -(lapseM * z) := by unfold freeze; linarith
        refine a.trans ?_
        have := mul_le_mul_of_nonneg_left b (show (0 : ℝ) ≤ (100 / 124) ^ 7 * 100 by norm_num)
        refine le_trans ?_ (this.trans (le_of_eq (by ring)))
        norm_num
      have k2 := Real.rpow_le_rpow (by positivity) k (show (0 : ℝ) ≤ 1 / 7 by norm_num)
      rw [← Real.rpow_natCast, ← Real.rpow_mul (by norm_num)] at k2
      norm_num at k2 ⊢
      linarith
    rw [min_eq_left em] at e
    have em0 : 0 ≤ 124 / 100 * (rh * sat (freeze + -(lapseM * z)) / 100 / (freeze + -(lapseM * z))) ^ (1 / 7 : ℝ) := by positivity
    have c1 : (freeze / (freeze + -(lapseM * z))) ^ (gravity * molAir / (rgas * (65 / 10) * (1 / 1000))) ≤ 1 :=
      Real.rpow_le_one (by positivity) ((div_le_one hp).2 (by linarith)) (by norm_num [gravity, molAir, rgas])
    have c0 : 0 < (freeze / (freeze + -(lapseM * z))) ^ (gravity * molAir / (rgas * (65 / 10) * (1 / 1000))) := by positivity
    have ee := mul_le_mul em c1 c0.le zero_le_one
    rw [min_eq_left (by nlinarith)] at e
    have bb : blackBody 0 = stefBoltz * freeze ^ 4 := by unfold blackBody stefBoltz freeze; ring
    rw [e, bb]
    unfold wetSky
    refine mul_lt_mul_of_pos_right ?_ (mul_pos stefBoltz_pos (by positivity))
    refine add_lt_add_left ?_ _
    refine mul_lt_mul_of_pos_right (mul_lt_mul_of_pos_right (mul_lt_mul_of_pos_left ?_ (by norm_num)) c0) h0
    have W := satWater_pos freeze
    refine Real.rpow_lt_rpow ?_ ?_ (by norm_num)
    · have := satWater_pos (freeze + -(lapseM * z))
      positivity
    · rw [es, hrh, ei]
      have := satWater_pos (freeze + -(lapseM * z))
      refine div_lt_div_of_pos_right (div_lt_div_of_pos_right (mul_lt_mul_of_pos_right ?_ this) (by norm_num)) hp
      exact div_lt_div_of_pos_left Pw (by rw [← ei]; exact P) jump_up
  have ev := (wetSky_cont (sat (tw + freeze)) (-(lapseM * z)) svf freeze hf d0.le).eventually_lt continuousAt_const hlt
  obtain ⟨ε, he, hball⟩ := Metric.eventually_nhds_iff.1 ev
  have hm : 0 < min (ε / 2) (1 / 2) := lt_min (by linarith) (by norm_num)
  obtain ⟨r', hr'⟩ := topothermC_def (min (ε / 2) (1 / 2)) tw z svf (by linarith) hW (by linarith)
  refine ⟨min (ε / 2) (1 / 2), r, r', hm, lt_of_le_of_lt (min_le_right _ _) (by norm_num), hr, hr', lt_of_le_of_lt ?_ (hball (y := min (ε / 2) (1 / 2) + freeze) ?_)⟩
  · obtain ⟨hT, -, hp, rh, hrh, e⟩ := topothermC_eq hr'
    rw [press_eq _ _ hT hp] at e
    generalize min (ε / 2) (1 / 2) = a at *
    rw [min_eq_right (show tw + freeze ≤ a + freeze by linarith)] at hrh
    have esub : a + freeze - lapseM * z = a + freeze + -(lapseM * z) := by ring
    rw [esub] at e hp
    have es : sat (a + freeze + -(lapseM * z)) = satWater (a + freeze + -(lapseM * z)) := by unfold sat; rw [if_pos (by linarith)]
    have ei : sat (a + freeze) = satWater (a + freeze) := by unfold sat; rw [if_pos (by linarith)]
    have bb : blackBody a = stefBoltz * (a + freeze) ^ 4 := by unfold blackBody stefBoltz freeze; ring
    rw [e, bb]
    unfold wetSky
    refine mul_le_mul_of_nonneg_right ?_ (mul_nonneg stefBoltz_pos.le (by positivity))
    refine (min_le_left _ _).trans (add_le_add_left ?_ _)
    refine mul_le_mul_of_nonneg_right (mul_le_mul_of_nonneg_right ((min_le_left _ _).trans (mul_le_mul_of_nonneg_left ?_ (by norm_num))) (by positivity)) h0.le
    have P := C41_positive (a + freeze)
    have Pw := C41_positive (tw + freeze)
    have W := satWater_pos (a + freeze + -(lapseM * z))
    have rh0 : 0 ≤ rh := by rw [hrh]; exact le_min (div_pos Pw P).le zero_le_one
    rw [es]
    refine Real.rpow_le_rpow (by positivity) ?_ (by norm_num)
    refine div_le_div_of_nonneg_right (div_le_div_of_nonneg_right (mul_le_mul_of_nonneg_right ?_ W.le) (by norm_num)) hp.le
    rw [hrh, ← ei]
    exact inf_le_left
  · rw [Real.dist_eq, add_sub_cancel_right, abs_of_pos hm]
    exact lt_of_le_of_lt (min_le_left _ _) (by linarith)

/-- A step of one cell with only the clear sky. -/
theorem marks_step (ta tw z svf r : ℝ) (h : topothermC ta tw z svf = some r) : ∃ o : Out Unit,
    distribute ⟨.marks1979, none, false, true, none, none⟩ ⟨fun _ => z, fun _ => svf, fun _ => 0, fun _ => 1⟩
      ⟨fun _ => ta, fun _ => 0, fun _ => tw, fun _ => 1⟩ = .ok o ∧ o.thermal () = r := by
  have hs : ∀ _ : Unit, (topothermC ta tw z svf).isSome := fun _ => by rw [h]; rfl
  rcases hd : distribute ⟨.marks1979, none, false, true, none, none⟩ ⟨fun _ => z, fun _ => svf, fun _ => 0, fun _ => 1⟩
      (⟨fun _ => ta, fun _ => 0, fun _ => tw, fun _ => 1⟩ : In Unit) with e | o
  · unfold distribute clearSky at hd
    simp only [if_true] at hd
    rw [dif_pos hs] at hd
    cases hd
  · refine ⟨o, rfl, ?_⟩
    obtain ⟨cth, k, e⟩ := step_cell _ _ _ o hd
    unfold clearSky at k
    simp only [if_true] at k
    rw [dif_pos hs] at k
    cases k
    rw [e]
    simp [later, terrain, Solar.clamp, h]

theorem C179_fails : ¬ C179_full := by
  intro hall
  obtain ⟨ta, r, r', h1, h2, h3, h4, h5⟩ := C179_jump_fails (-5) 2000 1 (by norm_num) (by norm_num) (by norm_num) (by norm_num) (by norm_num) le_rfl
  obtain ⟨o, ho, eo⟩ := marks_step _ _ _ _ _ h3
  obtain ⟨o', ho', eo'⟩ := marks_step _ _ _ _ _ h4
  have k := hall Unit _ _ ⟨fun _ => 0, fun _ => 0, fun _ => -5, fun _ => 1⟩ ⟨fun _ => ta, fun _ => 0, fun _ => -5, fun _ => 1⟩ o o' rfl (by simp) ⟨fun _ => by norm_num, fun _ => by norm_num, fun _ => by norm_num, fun _ => le_rfl, fun _ => by norm_num⟩
    ⟨fun _ => h1.le, rfl, rfl, rfl⟩ (fun _ => by norm_num) (fun _ => by norm_num) (fun _ => by simp only; linarith) ho ho' ()
  rw [eo, eo'] at k
  linarith

/-! ### The hypotheses are met -/

/-- A cell at 2000 m, from -5 to 5 degrees, dew point -8. -/
example : ∃ o o' : Out Unit,
    distribute ⟨.marks1979, none, false, true, none, none⟩ ⟨fun _ => 2000, fun _ => 1, fun _ => 0, fun _ => 1⟩
      ⟨fun _ => -5, fun _ => 0, fun _ => -8, fun _ => 1⟩ = .ok o ∧
    distribute ⟨.marks1979, none, false, true, none, none⟩ ⟨fun _ => 2000, fun _ => 1, fun _ => 0, fun _ => 1⟩
      ⟨fun _ => 5, fun _ => 0, fun _ => -8, fun _ => 1⟩ = .ok o' ∧ o.thermal () ≤ o'.thermal () := by
  obtain ⟨r, h3⟩ := topothermC_def (-5) (-8) 2000 1 (by norm_num [freeze]) (by norm_num [freeze]) (by norm_num [freeze, lapseM])
  obtain ⟨r', h4⟩ := topothermC_def 5 (-8) 2000 1 (by norm_num [freeze]) (by norm_num [freeze]) (by norm_num [freeze, lapseM])
  obtain ⟨o, ho, -⟩ := marks_step _ _ _ _ _ h3
  obtain ⟨o', ho', -⟩ := marks_step _ _ _ _ _ h4
  exact ⟨o, o', ho, ho', C179_hot_partial _ rfl (by simp) _ ⟨fun _ => -5, fun _ => 0, fun _ => -8, fun _ => 1⟩ ⟨fun _ => 5, fun _ => 0, fun _ => -8, fun _ => 1⟩
    ⟨fun _ => by norm_num, fun _ => by norm_num, fun _ => by norm_num, fun _ => le_rfl, fun _ => by norm_num⟩
    ⟨fun _ => by norm_num, rfl, rfl, rfl⟩ o o' ho ho' () (by norm_num) (by norm_num) (by norm_num) (by norm_num)⟩

end Verif.Thermal
