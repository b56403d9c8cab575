import Verif.RunSpec
import Verif.AtmosProps
import Verif.WetBulbLoopProps
import Verif.DewpointBrentProps

/-! Lemmas for C125: the wet-bulb method. -/

namespace Verif.Run
open Verif.Vapor Verif.Twostream

theorem pow_bound (x y : ℝ) (hx : 1 ≤ x) (hx' : x ≤ 1142 / 1000) (hy : y ≤ 53 / 10) : x ^ y ≤ 2026 / 1000 := by
  have h0 : 0 ≤ x := by linarith
  have h1 : x ^ y ≤ x ^ (53 / 10 : ℝ) := Real.rpow_le_rpow_of_exponent_le hx hy
  have h : (x ^ (53 / 10 : ℝ)) ^ 10 = x ^ 53 := by
    rw [← Real.rpow_natCast, ← Real.rpow_mul h0, ← Real.rpow_natCast]
    congr 1
    norm_num
  have h2 : x ^ 53 ≤ (1142 / 1000 : ℝ) ^ 53 := pow_le_pow_left₀ h0 hx' 53
  have h3 : (1142 / 1000 : ℝ) ^ 53 ≤ (2026 / 1000) ^ 10 := by norm_num
  refine le_trans h1 (le_of_pow_le_pow_left₀ (n := 10) (by decide) (by norm_num) ?_)
  rw [h]
  exact le_trans h2 h3

/-- The pressure of the standard atmosphere up to 5500 m. -/
theorem pressure_ge (z : ℝ) (hz : z ≤ 5500) :
    50000 ≤ hysat Vapor.seaLevel stdAirtmp stdLapse (z / 1000) gravity molAir := by
  have key : 50000 ≤ hysat Twostream.seaLevel stdAirtmp stdLapse (5500 / 1000) gravity molAir := by
    rw [Atmos.pressure_eq]
    have e : (980665 / 100000 * (289644 / 10000) / (831432 / 100 * (-65 / 10) * (1 / 1000)) : ℝ) =
        -(980665 / 100000 * (289644 / 10000) / (831432 / 100 * (65 / 10) * (1 / 1000))) := by norm_num
    have hy : (980665 / 100000 * (289644 / 10000) / (831432 / 100 * (65 / 10) * (1 / 1000)) : ℝ) ≤ 53 / 10 := by
      norm_num
    have hx : (1 : ℝ) ≤ 288 / (288 - 65 / 10 * (5500 / 1000)) := by norm_num
    have hx' : (288 / (288 - 65 / 10 * (5500 / 1000)) : ℝ) ≤ 1142 / 1000 := by norm_num
    rw [e]
    generalize (980665 / 100000 * (289644 / 10000) / (831432 / 100 * (65 / 10) * (1 / 1000)) : ℝ) = y at hy ⊢
    generalize (288 / (288 - 65 / 10 * (5500 / 1000)) : ℝ) = x at hx hx' ⊢
    rw [Real.rpow_neg (by linarith)]
    have h3 := inv_anti₀ (Real.rpow_pos_of_pos (by linarith) y) (pow_bound x y hx hx' hy)
    generalize (x ^ y)⁻¹ = w at h3 ⊢
    have : (2026 / 1000 : ℝ)⁻¹ = 1000 / 2026 := by norm_num
    rw [this] at h3
    linarith
  rcases eq_or_lt_of_le hz with e | e
  · rw [e]; exact key
  · exact le_trans key (Atmos.pressure_lt z 5500 e (by unfold Atmos.BelowTop; norm_num)).le

/-- With 20 Pa or more the search for a bracket goes down once at most. -/
theorem lower_ge (e : ℝ) (he : 20 ≤ e) (n : Nat) (a : ℝ) (h : Dewpoint.lowerLoop e n freeze = some a) : 204 ≤ a := by
  have hf : freeze = 27316 / 100 := rfl
  have hs : sat (freeze * (3 / 4)) ≤ 20 := by
    unfold sat
    rw [if_neg (by rw [hf]; norm_num)]
    refine le_trans (satIce_decay (freeze * (3 / 4)) freeze 5700 (by rw [hf]; norm_num) (by rw [hf]; norm_num) le_rfl le_rfl) ?_
    rw [satIce_freeze]
    have := WetBulb.exp_neg_bound (5700 * (1 / (freeze * (3 / 4)) - 1 / freeze)) (1 / 100) (by rw [hf]; norm_num)
      (by rw [hf]; norm_num) (by norm_num)
    linarith
  cases n with
  | zero =>
    rw [Dewpoint.lowerLoop] at h
    split at h
    · cases h
    · simp only [Option.some.injEq] at h; rw [← h, hf]; norm_num
  | succ n =>
    rw [Dewpoint.lowerLoop] at h
    split at h
    · have hno : ¬ e < sat (freeze * (3 / 4)) := by linarith
      cases n with
      | zero =>
        rw [Dewpoint.lowerLoop, if_neg hno] at h
        simp only [Option.some.injEq] at h; rw [← h, hf]; norm_num
      | succ n =>
        rw [Dewpoint.lowerLoop, if_neg hno] at h
        simp only [Option.some.injEq] at h; rw [← h, hf]; norm_num
    · simp only [Option.some.injEq] at h; rw [← h, hf]; norm_num

/-- The wet-bulb routine on a cell. -/
theorem wet_cell (tol ta td z : ℝ) (ht : 7 / 1000 ≤ tol) (h1 : 199 ≤ td + freeze) (h2 : td < ta) (h3 : ta ≤ 47)
    (hz : z ≤ 5500) : ∃ w, wetCelsius tol ta td z = some w := by
  have hf : freeze = 27316 / 100 := rfl
  unfold wetCelsius
  simp only
  rw [if_neg (by rintro (h | h) <;> linarith)]
  generalize hp : (if z = 0 then Vapor.seaLevel
    else hysat Vapor.seaLevel stdAirtmp stdLapse (z / 1000) gravity molAir) = pa
  have hpa : 50000 ≤ pa := by
    rw [← hp]
    split
    · unfold Vapor.seaLevel; norm_num
    · exact pressure_ge z hz
  rcases lt_or_ge tol 1 with h | h
  · obtain ⟨ti, last, n, e, -⟩ := WetBulb.C44_returns_partial (ta + freeze) (td + freeze) pa tol h1 (by linarith)
      (by rw [hf]; linarith) hpa ht h
    rw [e]
    exact ⟨_, rfl⟩
  · rw [WetBulb.C44_large_tolerance (ta + freeze) (td + freeze) pa tol (by linarith) (by linarith) h]
    exact ⟨_, rfl⟩

end Verif.Run
