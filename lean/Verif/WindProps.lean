import Verif.Wind
import Mathlib.Data.Rat.Floor
import Mathlib.Algebra.Order.Field.Rat
import Mathlib.Algebra.BigOperators.Ring.Finset
import Mathlib.Algebra.Order.BigOperators.Group.Finset
import Mathlib.Tactic.Linarith
import Mathlib.Tactic.LinearCombination
import Mathlib.Tactic.NormNum
import Mathlib.Tactic.Positivity
import Mathlib.Tactic.FieldSimp

/-!
Properties of the wind distribution: directions (C58), sectors (C59), terrain adjustment (C60, C82) and
stations (C61).
-/

namespace Verif.Wind
open Finset

/-! ### C58 -/

theorem arg_scaled (u v : ℝ) : -180 < Complex.arg ⟨v, u⟩ * 180 / Real.pi ∧ Complex.arg ⟨v, u⟩ * 180 / Real.pi ≤ 180 := by
  have hp := Real.pi_pos
  have h1 := Complex.neg_pi_lt_arg ⟨v, u⟩
  have h2 := Complex.arg_le_pi ⟨v, u⟩
  constructor
  · rw [lt_div_iff₀ hp]; linarith
  · rw [div_le_iff₀ hp]; linarith

/-- The direction is an azimuth in degrees. -/
theorem C58_range (u v : ℝ) : 0 ≤ azimuth u v ∧ azimuth u v < 360 := by
  obtain ⟨h1, h2⟩ := arg_scaled u v
  unfold azimuth
  simp only
  split
  · constructor <;> linarith
  · rename_i h
    constructor <;> linarith

/-- The components are those of the direction, times the length of the vector. -/
theorem C58_components (u v : ℝ) :
    u = Real.sqrt (u ^ 2 + v ^ 2) * Real.sin (azimuth u v * Real.pi / 180) ∧
    v = Real.sqrt (u ^ 2 + v ^ 2) * Real.cos (azimuth u v * Real.pi / 180) := by
  have hp := Real.pi_ne_zero
  have hn : Real.sqrt (u ^ 2 + v ^ 2) = ‖(⟨v, u⟩ : ℂ)‖ := by
    rw [Complex.norm_def, Complex.normSq_apply]
    congr 1
    ring
  have key : Real.sin (azimuth u v * Real.pi / 180) = Real.sin (Complex.arg ⟨v, u⟩) ∧
      Real.cos (azimuth u v * Real.pi / 180) = Real.cos (Complex.arg ⟨v, u⟩) := by
    unfold azimuth
    simp only
    split
    · rw [show (Complex.arg ⟨v, u⟩ * 180 / Real.pi + 360) * Real.pi / 180 = Complex.arg ⟨v, u⟩ + 2 * Real.pi by
        field_simp; ring]
      exact ⟨Real.sin_add_two_pi _, Real.cos_add_two_pi _⟩
    · rw [show Complex.arg ⟨v, u⟩ * 180 / Real.pi * Real.pi / 180 = Complex.arg ⟨v, u⟩ by field_simp]
      exact ⟨rfl, rfl⟩
  rw [key.1, key.2, hn, Complex.norm_mul_sin_arg, Complex.norm_mul_cos_arg]
  exact ⟨rfl, rfl⟩

/-- An angle in degrees within one turn is determined by the direction of its components. -/
theorem angle_unique (a b : ℝ) (ha : 0 ≤ a ∧ a < 360) (hb : 0 ≤ b ∧ b < 360)
    (hs : Real.sin (a * Real.pi / 180) = Real.sin (b * Real.pi / 180))
    (hc : Real.cos (a * Real.pi / 180) = Real.cos (b * Real.pi / 180)) : a = b := by
  have hp := Real.pi_pos
  have h : Real.cos (a * Real.pi / 180 - b * Real.pi / 180) = 1 := by
    rw [Real.cos_sub, hs, hc]
    have := Real.sin_sq_add_cos_sq (b * Real.pi / 180)
    nlinarith
  rw [Real.cos_eq_one_iff] at h
  obtain ⟨n, hn⟩ := h
  have e : (n : ℝ) * 360 = a - b := by
    have : (n : ℝ) * (2 * Real.pi) = (a - b) / 180 * Real.pi := by rw [hn]; ring
    have : (n : ℝ) * 2 = (a - b) / 180 := by
      apply mul_right_cancel₀ hp.ne'
      linarith
    linarith
  have hn1 : (-1 : ℝ) < n := by linarith
  have hn2 : (n : ℝ) < 1 := by linarith
  have : n = 0 := by
    have h1 : (-1 : ℤ) < n := by exact_mod_cast hn1
    have h2 : n < (1 : ℤ) := by exact_mod_cast hn2
    omega
  rw [this] at e
  simp at e
  linarith

/-- Components of a direction, of whatever length, give the direction back. In particular this holds
wherever all stations agree on the direction. -/
theorem C58_roundtrip (d r : ℝ) (hd : 0 ≤ d ∧ d < 360) (hr : 0 < r) :
    azimuth (r * uDirection d) (r * vDirection d) = d := by
  obtain ⟨h1, h2⟩ := C58_components (r * uDirection d) (r * vDirection d)
  have hl : Real.sqrt ((r * uDirection d) ^ 2 + (r * vDirection d) ^ 2) = r := by
    rw [show (r * uDirection d) ^ 2 + (r * vDirection d) ^ 2 = r ^ 2 by
      have := Real.sin_sq_add_cos_sq (d * Real.pi / 180)
      unfold uDirection vDirection
      linear_combination r ^ 2 * this]
    exact Real.sqrt_sq hr.le
  rw [hl] at h1 h2
  refine angle_unique _ _ (C58_range _ _) hd ?_ ?_
  · exact (mul_left_cancel₀ hr.ne' h1).symm
  · exact (mul_left_cancel₀ hr.ne' h2).symm

example : azimuth (uDirection 270) (vDirection 270) = 270 := by
  have := C58_roundtrip 270 1 (by norm_num) one_pos
  simpa using this

theorem sin_nonneg_cases (x : ℝ) (h : -360 < x ∧ x < 360) (hs : 0 ≤ Real.sin (x * Real.pi / 180)) :
    (0 ≤ x ∧ x ≤ 180) ∨ x ≤ -180 := by
  have hp := Real.pi_pos
  by_contra hc
  have hc1 : ¬ (0 ≤ x ∧ x ≤ 180) := fun h => hc (Or.inl h)
  have hc2 : -180 < x := by
    by_contra h
    exact hc (Or.inr (not_lt.1 h))
  rcases lt_or_ge x 0 with hx | hx
  · have : Real.sin (x * Real.pi / 180) < 0 := by
      apply Real.sin_neg_of_neg_of_neg_pi_lt <;> nlinarith
    linarith
  · have hx' : 180 < x := by
      by_contra h
      exact hc1 ⟨hx, not_lt.1 h⟩
    have : Real.sin (x * Real.pi / 180 - 2 * Real.pi) < 0 := by
      apply Real.sin_neg_of_neg_of_neg_pi_lt <;> nlinarith
    rw [Real.sin_sub_two_pi] at this
    linarith

/-- Directions between `a` and `b`, less than half a turn apart, average with non-negative weights to a
direction between `a` and `b`. -/
theorem C58_between {ι : Type} (S : Finset ι) (w d : ι → ℝ) (a b : ℝ) (ha : 0 ≤ a) (hb : b < 360) (hab : b - a < 180)
    (hd : ∀ i ∈ S, a ≤ d i ∧ d i ≤ b) (hw : ∀ i ∈ S, 0 ≤ w i) (hpos : 0 < ∑ i ∈ S, w i) :
    a ≤ azimuth (∑ i ∈ S, w i * uDirection (d i)) (∑ i ∈ S, w i * vDirection (d i)) ∧
    azimuth (∑ i ∈ S, w i * uDirection (d i)) (∑ i ∈ S, w i * vDirection (d i)) ≤ b := by
  have hp := Real.pi_pos
  obtain ⟨h1, h2⟩ := C58_components (∑ i ∈ S, w i * uDirection (d i)) (∑ i ∈ S, w i * vDirection (d i))
  obtain ⟨hz0, hz1⟩ := C58_range (∑ i ∈ S, w i * uDirection (d i)) (∑ i ∈ S, w i * vDirection (d i))
  have hr0 := Real.sqrt_nonneg ((∑ i ∈ S, w i * uDirection (d i)) ^ 2 + (∑ i ∈ S, w i * vDirection (d i)) ^ 2)
  generalize azimuth (∑ i ∈ S, w i * uDirection (d i)) (∑ i ∈ S, w i * vDirection (d i)) = z at *
  generalize Real.sqrt ((∑ i ∈ S, w i * uDirection (d i)) ^ 2 + (∑ i ∈ S, w i * vDirection (d i)) ^ 2) = r at *
  -- projections on the directions of the sector
  have sinproj : ∀ x : ℝ, ∑ i ∈ S, w i * Real.sin ((d i - x) * Real.pi / 180) = r * Real.sin ((z - x) * Real.pi / 180) := by
    intro x
    have e : ∀ y : ℝ, Real.sin ((y - x) * Real.pi / 180) = Real.sin (y * Real.pi / 180) * Real.cos (x * Real.pi / 180) -
        Real.cos (y * Real.pi / 180) * Real.sin (x * Real.pi / 180) := by
      intro y
      rw [← Real.sin_sub]
      congr 1
      ring
    rw [e z]
    have : ∑ i ∈ S, w i * Real.sin ((d i - x) * Real.pi / 180) =
        (∑ i ∈ S, w i * uDirection (d i)) * Real.cos (x * Real.pi / 180) -
        (∑ i ∈ S, w i * vDirection (d i)) * Real.sin (x * Real.pi / 180) := by
      rw [sum_mul, sum_mul, ← sum_sub_distrib]
      refine sum_congr rfl fun i _ => ?_
      rw [e (d i)]
      unfold uDirection vDirection
      ring
    rw [this, h1, h2]
    ring
  have cosproj : ∀ x : ℝ, ∑ i ∈ S, w i * Real.cos ((d i - x) * Real.pi / 180) = r * Real.cos ((z - x) * Real.pi / 180) := by
    intro x
    have e : ∀ y : ℝ, Real.cos ((y - x) * Real.pi / 180) = Real.cos (y * Real.pi / 180) * Real.cos (x * Real.pi / 180) +
        Real.sin (y * Real.pi / 180) * Real.sin (x * Real.pi / 180) := by
      intro y
      rw [← Real.cos_sub]
      congr 1
      ring
    rw [e z]
    have : ∑ i ∈ S, w i * Real.cos ((d i - x) * Real.pi / 180) =
        (∑ i ∈ S, w i * vDirection (d i)) * Real.cos (x * Real.pi / 180) +
        (∑ i ∈ S, w i * uDirection (d i)) * Real.sin (x * Real.pi / 180) := by
      rw [sum_mul, sum_mul, ← sum_add_distrib]
      refine sum_congr rfl fun i _ => ?_
      rw [e (d i)]
      unfold uDirection vDirection
      ring
    rw [this, h1, h2]
    ring
  have hmid : 0 < ∑ i ∈ S, w i * Real.cos ((d i - (a + b) / 2) * Real.pi / 180) := by
    obtain ⟨i, hi, hwi⟩ : ∃ i ∈ S, 0 < w i := by
      by_contra hc
      have : ∑ i ∈ S, w i ≤ 0 := sum_nonpos fun i hi => by
        by_contra h
        exact hc ⟨i, hi, not_le.1 h⟩
      linarith
    have hcos : ∀ j ∈ S, 0 < Real.cos ((d j - (a + b) / 2) * Real.pi / 180) := by
      intro j hj
      obtain ⟨q1, q2⟩ := hd j hj
      apply Real.cos_pos_of_mem_Ioo
      constructor <;> nlinarith
    exact sum_pos' (fun j hj => mul_nonneg (hw j hj) (hcos j hj).le) ⟨i, hi, mul_pos hwi (hcos i hi)⟩
  rw [cosproj] at hmid
  have hle : a ≤ b := by
    obtain ⟨i, hi, -⟩ : ∃ i ∈ S, w i ≠ 0 := by
      by_contra hc
      have : ∑ i ∈ S, w i = 0 := sum_eq_zero fun i hi => by
        by_contra h
        exact hc ⟨i, hi, h⟩
      linarith
    have := hd i hi
    linarith
  have hr : 0 < r := by
    rcases hr0.lt_or_eq with h | h
    · exact h
    · rw [← h, zero_mul] at hmid; exact absurd hmid (lt_irrefl _)
  have hcz : 0 < Real.cos ((z - (a + b) / 2) * Real.pi / 180) := (pos_iff_pos_of_mul_pos hmid).1 hr
  have hpa : 0 ≤ r * Real.sin ((z - a) * Real.pi / 180) := by
    rw [← sinproj]
    refine sum_nonneg fun i hi => mul_nonneg (hw i hi) ?_
    obtain ⟨q1, q2⟩ := hd i hi
    apply Real.sin_nonneg_of_nonneg_of_le_pi <;> nlinarith
  have hpb : r * Real.sin ((z - b) * Real.pi / 180) ≤ 0 := by
    rw [← sinproj]
    refine sum_nonpos fun i hi => mul_nonpos_of_nonneg_of_nonpos (hw i hi) ?_
    obtain ⟨q1, q2⟩ := hd i hi
    apply Real.sin_nonpos_of_nonpos_of_neg_pi_le <;> nlinarith
  have hsa : 0 ≤ Real.sin ((z - a) * Real.pi / 180) := nonneg_of_mul_nonneg_right hpa hr
  have hsb : 0 ≤ Real.sin ((b - z) * Real.pi / 180) := by
    rw [show (b - z) * Real.pi / 180 = -((z - b) * Real.pi / 180) by ring, Real.sin_neg]
    have : Real.sin ((z - b) * Real.pi / 180) ≤ 0 := by
      by_contra h
      have := mul_pos hr (not_le.1 h)
      linarith
    linarith
  -- half a turn away the cosine would be negative
  have hhalf : ∀ k : ℝ, (k = 1 ∨ k = -1) → z - (a + b) / 2 ≠ 180 * k := by
    intro k hk e
    rw [e] at hcz
    rcases hk with rfl | rfl
    · rw [show (180 : ℝ) * 1 * Real.pi / 180 = Real.pi by ring, Real.cos_pi] at hcz; linarith
    · rw [show (180 : ℝ) * -1 * Real.pi / 180 = -Real.pi by ring, Real.cos_neg, Real.cos_pi] at hcz; linarith
  rcases sin_nonneg_cases (z - a) ⟨by linarith, by linarith⟩ hsa with ⟨c1, c2⟩ | c1 <;>
    rcases sin_nonneg_cases (b - z) ⟨by linarith, by linarith⟩ hsb with ⟨e1, e2⟩ | e1
  · exact ⟨by linarith, by linarith⟩
  · exact absurd (by linarith) (hhalf 1 (Or.inl rfl))
  · exact absurd (by linarith) (hhalf (-1) (Or.inr rfl))
  · linarith

example : 100 ≤ azimuth (0.5 * uDirection 100 + 0.5 * uDirection 200) (0.5 * vDirection 100 + 0.5 * vDirection 200) ∧
    azimuth (0.5 * uDirection 100 + 0.5 * uDirection 200) (0.5 * vDirection 100 + 0.5 * vDirection 200) ≤ 200 := by
  have := C58_between (Finset.univ : Finset (Fin 2)) (fun _ => 0.5) (fun i => if i = 0 then 100 else 200) 100 200
    (by norm_num) (by norm_num) (by norm_num) (fun i _ => by split <;> norm_num) (fun _ _ => by norm_num) (by norm_num)
  simpa using this

/-! ### C59 -/

variable {K : Type} [Field K] [LinearOrder K] [IsStrictOrderedRing K] [FloorRing K]

/-- The rounded quotient is the nearest integer. -/
theorem ceil_nearest (step az : K) (hs : 0 < step) :
    |az - (⌈(az - step / 2) / step⌉ : K) * step| ≤ step / 2 := by
  have h1 := Int.le_ceil ((az - step / 2) / step)
  have h2 := Int.ceil_lt_add_one ((az - step / 2) / step)
  rw [div_le_iff₀ hs] at h1
  have h3 : (⌈(az - step / 2) / step⌉ : K) * step < az - step / 2 + step := by
    have := mul_lt_mul_of_pos_right h2 hs
    rw [add_mul, div_mul_cancel₀ _ hs.ne', one_mul] at this
    exact this
  rw [abs_le]
  constructor <;> linarith

theorem ceil_range (nbins : Nat) (hn : 0 < nbins) (az : K) (h0 : 0 ≤ az) (h1 : az ≤ 360) :
    0 ≤ ⌈(az - nstep nbins / 2) / nstep nbins⌉ ∧ ⌈(az - nstep nbins / 2) / (nstep nbins : K)⌉ ≤ nbins := by
  have hN : (0 : K) < nbins := by exact_mod_cast hn
  have hs : (0 : K) < nstep nbins := by unfold nstep; positivity
  have hsN : nstep nbins * (nbins : K) = 360 := by unfold nstep; field_simp
  constructor
  · have : (-1 : K) < (az - nstep nbins / 2) / nstep nbins := by
      rw [lt_div_iff₀ hs]; linarith
    have h2 := lt_of_lt_of_le this (Int.le_ceil _)
    have : (-1 : ℤ) < ⌈(az - nstep nbins / 2) / (nstep nbins : K)⌉ := by exact_mod_cast h2
    omega
  · rw [Int.ceil_le, div_le_iff₀ hs]
    push_cast
    rw [mul_comm, hsN]
    linarith

/-- The sector is one of the directions of the library, and no direction is nearer around the circle:
all multiples of the step stand for the library's directions and their copies after full turns. -/
theorem C59_nearest (nbins : Nat) (hn : 0 < nbins) (az : K) (h0 : 0 ≤ az) (h1 : az < 360) :
    ∃ k < nbins, dirRound (nstep nbins) az = k * nstep nbins ∧
      ∃ m : ℤ, |az - (dirRound (nstep nbins) az + 360 * m)| ≤ nstep nbins / 2 ∧
        ∀ j : ℤ, |az - (dirRound (nstep nbins) az + 360 * m)| ≤ |az - j * nstep nbins| := by
  have hN : (0 : K) < nbins := by exact_mod_cast hn
  have hs : (0 : K) < nstep nbins := by unfold nstep; positivity
  have hsN : (nbins : K) * nstep nbins = 360 := by unfold nstep; field_simp
  obtain ⟨z0, z1⟩ := ceil_range nbins hn az h0 h1.le
  have hnear := ceil_nearest (nstep nbins) az hs
  unfold dirRound
  generalize ⌈(az - nstep nbins / 2) / (nstep nbins : K)⌉ = z at *
  have hz0 : (0 : K) ≤ z := by exact_mod_cast z0
  have hfar : ∀ j : ℤ, |az - z * nstep nbins| ≤ |az - j * nstep nbins| := by
    intro j
    by_cases e : j = z
    · rw [e]
    · have hd : nstep nbins ≤ |((z : K) - j) * nstep nbins| := by
        rw [abs_mul, abs_of_pos hs]
        have : (1 : K) ≤ |(z : K) - j| := by
          have h : (1 : ℤ) ≤ |z - j| := Int.one_le_abs (sub_ne_zero.2 (Ne.symm e))
          exact_mod_cast h
        nlinarith
      have ht : |((z : K) - j) * nstep nbins| ≤ |az - j * nstep nbins| + |az - z * nstep nbins| := by
        rw [show ((z : K) - j) * nstep nbins = (az - j * nstep nbins) - (az - z * nstep nbins) by ring]
        exact abs_sub _ _
      linarith
  have hpos : ¬ (z : K) * nstep nbins < 0 := not_lt.2 (mul_nonneg hz0 hs.le)
  simp only [if_neg hpos]
  by_cases e : (z : K) * nstep nbins = 360
  · rw [if_pos e]
    refine ⟨0, hn, by simp, 1, ?_, ?_⟩
    · rw [show (0 : K) + 360 * ((1 : ℤ) : K) = z * nstep nbins by rw [e]; simp]
      exact hnear
    · rw [show (0 : K) + 360 * ((1 : ℤ) : K) = z * nstep nbins by rw [e]; simp]
      exact hfar
  · rw [if_neg e]
    have hzN : z < nbins := by
      rcases z1.lt_or_eq with h | h
      · exact h
      · exfalso
        apply e
        rw [h]
        exact_mod_cast hsN
    refine ⟨z.toNat, by omega, ?_, 0, ?_, ?_⟩
    · have : ((z.toNat : ℤ) : K) = z := by rw [Int.toNat_of_nonneg z0]
      rw [← this, Int.cast_natCast]
    · simpa using hnear
    · simpa using hfar

example : dirRound (nstep 72) (358 : ℚ) = 0 := by
  have : ⌈((358 : ℚ) - nstep 72 / 2) / nstep 72⌉ = 72 := by
    rw [Int.ceil_eq_iff]; unfold nstep; norm_num
  unfold dirRound
  rw [this]
  unfold nstep
  norm_num

/-- The look-up in a library of equally spaced directions succeeds for every cell, at the place of the
sector. -/
theorem C59_lookup (nbins : Nat) (hn : 0 < nbins) (az : K) (h0 : 0 ≤ az) (h1 : az < 360) :
    ∃ k < nbins, dirRound (nstep nbins) az = k * nstep nbins ∧
      maxusIndex ((List.range nbins).map fun k : Nat => (k : K) * nstep nbins) (dirRound (nstep nbins) az) = some k := by
  obtain ⟨k, hk, e, -⟩ := C59_nearest nbins hn az h0 h1
  refine ⟨k, hk, e, ?_⟩
  have hN : (0 : K) < nbins := by exact_mod_cast hn
  have hs : (0 : K) < nstep nbins := by unfold nstep; positivity
  unfold maxusIndex
  rw [e, List.findIdx?_eq_some_iff_getElem]
  refine ⟨by simpa using hk, by simp, fun j hj => ?_⟩
  simp only [List.getElem_map, List.getElem_range, decide_eq_true_eq]
  intro h
  have := mul_right_cancel₀ hs.ne' h
  have : j = k := by exact_mod_cast this
  omega

/-- Stations and cells use the same sector when the step is a whole number of degrees. -/
theorem C59_station_partial (nbins n : Nat) (hn : nbins * n = 360) (d : K) (h0 : 0 ≤ d) (h1 : d < 360) :
    (stationIdx (nstep nbins) d : K) = dirRound (nstep nbins) d := by
  have hpos : 0 < nbins := Nat.pos_of_ne_zero fun e => by rw [e] at hn; omega
  have hN : (0 : K) < nbins := by exact_mod_cast hpos
  have hs : (nstep nbins : K) = n := by
    unfold nstep
    rw [div_eq_iff hN.ne']
    have : ((nbins * n : ℕ) : K) = 360 := by rw [hn]; norm_num
    push_cast at this
    rw [← this]; ring
  obtain ⟨z0, z1⟩ := ceil_range nbins hpos d h0 h1.le
  unfold stationIdx dirRound
  generalize ⌈(d - nstep nbins / 2) / (nstep nbins : K)⌉ = z at *
  rw [hs]
  have hx : (0 : K) ≤ (z : K) * n := by
    have : (0 : K) ≤ z := by exact_mod_cast z0
    positivity
  have hcast : (z : K) * n = ((z * n : ℤ) : K) := by push_cast; ring
  simp only [if_pos hx, if_neg (not_lt.2 hx)]
  rw [hcast, Int.floor_intCast]
  by_cases e : z * n = 360
  · rw [if_pos e, e]; simp
  · rw [if_neg e, if_neg]
    intro h
    exact e (by exact_mod_cast h)

/-- With 48 directions the step is 7.5 degrees: a station's wind from 7.5 degrees is looked up at 7, which
is not a direction of the library. -/
theorem C59_station_fails :
    stationIdx (nstep 48) (15 / 2 : ℚ) = 7 ∧ dirRound (nstep 48) (15 / 2 : ℚ) = 15 / 2 ∧
      ∀ s : Sta ℚ, tableValue ((List.range 48).map fun k : Nat => (k : ℚ) * nstep 48) (nstep 48) (15 / 2) s = .error .value := by
  have hc : ⌈((15 / 2 : ℚ) - nstep 48 / 2) / nstep 48⌉ = 1 := by
    rw [Int.ceil_eq_iff]; unfold nstep; norm_num
  have hi : stationIdx (nstep 48) (15 / 2 : ℚ) = 7 := by
    unfold stationIdx
    rw [hc]
    have hf : ⌊((1 : ℤ) : ℚ) * nstep 48⌋ = 7 := by
      rw [Int.floor_eq_iff]; unfold nstep; norm_num
    have hp : (0 : ℚ) ≤ ((1 : ℤ) : ℚ) * nstep 48 := by unfold nstep; norm_num
    simp only [if_pos hp, hf]
    norm_num
  refine ⟨hi, ?_, fun s => ?_⟩
  · unfold dirRound
    rw [hc]
    unfold nstep
    norm_num
  · unfold tableValue
    rw [hi]
    have : (List.zip ((List.range 48).map fun k : Nat => (k : ℚ) * nstep 48) s.maxus).filter
        (fun p => decide (p.1 = ((7 : ℤ) : ℚ))) = [] := by
      rw [List.filter_eq_nil_iff]
      intro p hp
      have := (List.of_mem_zip (a := p.1) (b := p.2) hp).1
      rw [List.mem_map] at this
      obtain ⟨k, -, hk⟩ := this
      simp only [decide_eq_true_eq]
      rw [← hk]
      unfold nstep
      intro h
      have h' : (k : ℚ) * 15 = 14 := by
        push_cast at h
        linarith
      have : k * 15 = 14 := by exact_mod_cast h'
      omega
    rw [this]

/-! ### C60 -/

section
variable {K : Type} [Field K] [LinearOrder K] [IsStrictOrderedRing K]

/-- The documented relation of Winstral and Marks: by how much exposure raises the wind. -/
def enhancement (c : K) : K :=
  if 30.1 ≤ c then 4.211
  else if 21.3 ≤ c then 1.756507 - 0.1678945 * c + 0.01927844 * c * c - 0.0003651592 * c * c * c
  else 1 + 0.1031717 * c - 0.008003561 * c * c + 0.0003996581 * c * c * c

/-- Wind of a cell: raised where exposed, lowered where sheltered, converted from 3 m to 5 m. -/
def documented (factor flat c : K) : K :=
  1.07985 * if c < 0 then factor * flat * enhancement (-c) else flat / enhancement c

theorem enhancement_pos (c : K) (h : 0 ≤ c) : 1 ≤ enhancement c := by
  unfold enhancement
  split
  · norm_num
  · rename_i h1
    have h1 := not_le.1 h1
    split
    · rename_i h2
      nlinarith [mul_nonneg (sub_nonneg.2 h2) (sub_nonneg.2 h1.le), mul_nonneg h (mul_nonneg (sub_nonneg.2 h2) (sub_nonneg.2 h1.le))]
    · have : 0 ≤ c * (0.1031717 - 0.008003561 * c + 0.0003996581 * c * c) := by
        apply mul_nonneg h
        nlinarith [sq_nonneg (c - 10)]
      linarith

/-- The full claim. -/
def C60_full (K : Type) [Field K] [LinearOrder K] [FloorRing K] [IsStrictOrderedRing K] : Prop :=
  ∀ factor flat c : K, -32 ≤ c → c ≤ 32 → cellWind factor flat c = documented factor flat c

variable [FloorRing K]

/-- Away from the four class boundaries the wind is the documented one. -/
theorem C60_documented_partial (factor flat c : K) (h1 : |c| ≠ 21.3) (h2 : |c| ≠ 30.1) :
    cellWind factor flat c = documented factor flat c := by
  unfold documented enhancement
  by_cases hc : c < 0
  · rw [abs_of_neg hc] at h1 h2
    unfold cellWind steep gentle
    simp only [abs_of_neg hc, if_pos hc]
    have n1 : ¬ 30.10 < c := by norm_num; linarith
    have n2 : ¬ (c < 30.10 ∧ 21.3 < c) := fun h => by norm_num at h; linarith [h.2]
    have n3 : ¬ (c < 21.3 ∧ 0 ≤ c) := fun h => by linarith [h.2]
    rw [if_neg n1, if_neg n2, if_neg n3]
    by_cases a1 : c < -30.10
    · rw [if_neg (fun h => by linarith [h.1]), if_neg (fun h => by norm_num at h a1; linarith [h.1]), if_pos a1,
        if_pos (by norm_num at a1 ⊢; linarith)]
      ring
    · have a1' : -c < 30.1 := lt_of_le_of_ne (by linarith) h2
      by_cases a2 : c < -21.3
      · rw [if_neg (fun h => by linarith [h.1]), if_pos ⟨by linarith, a2⟩, if_neg (by linarith), if_pos (by linarith)]
        ring
      · have a2' : -c < 21.3 := lt_of_le_of_ne (by linarith) h1
        rw [if_pos ⟨by linarith, hc⟩, if_neg (by linarith), if_neg (by linarith)]
        norm_num
        ring
  · have hc0 := not_lt.1 hc
    rw [abs_of_nonneg hc0] at h1 h2
    unfold cellWind steep gentle
    simp only [if_neg hc]
    have n1 : ¬ c < -30.10 := fun h => by norm_num at h; linarith
    have n2 : ¬ (-30.10 < c ∧ c < -21.3) := fun h => by have := h.2; norm_num at this; linarith
    have n3 : ¬ (-21.3 < c ∧ c < 0) := fun h => hc h.2
    rw [if_neg n1, if_neg n2, if_neg n3]
    by_cases a1 : 30.1 < c
    · rw [if_neg (fun h => by have := h.1; norm_num at this a1; linarith), if_neg (fun h => by linarith [h.1]),
        if_pos (by linarith), if_pos a1.le]
      ring
    · have a1' : c < 30.1 := lt_of_le_of_ne (not_lt.1 a1) h2
      by_cases a2 : 21.3 < c
      · rw [if_neg (fun h => by linarith [h.1]), if_pos ⟨by linarith, a2⟩, if_neg (by linarith), if_pos a2.le]
        ring
      · have a2' : c < 21.3 := lt_of_le_of_ne (not_lt.1 a2) h1
        rw [if_pos ⟨a2', hc0⟩, if_neg (by linarith), if_neg (by linarith)]
        norm_num
        ring

/-- Away from the class boundaries positive wind stays positive; sheltered cells never get more than the
flat wind (apart from the height conversion), exposed cells never less than the reduced flat wind. -/
theorem C60_positive_partial (factor flat c : K) (h1 : |c| ≠ 21.3) (h2 : |c| ≠ 30.1) (hf : 0 < factor) (hw : 0 < flat) :
    0 < cellWind factor flat c ∧ (0 ≤ c → cellWind factor flat c ≤ 1.07985 * flat) ∧
      (c < 0 → 1.07985 * (factor * flat) ≤ cellWind factor flat c) := by
  rw [C60_documented_partial factor flat c h1 h2]
  unfold documented
  by_cases hc : c < 0
  · rw [if_pos hc]
    have he := enhancement_pos (-c) (by linarith)
    have hff := mul_pos hf hw
    have h3 : factor * flat * 1 ≤ factor * flat * enhancement (-c) := mul_le_mul_of_nonneg_left he hff.le
    refine ⟨by positivity, fun h => absurd h (not_le.2 hc), fun _ => ?_⟩
    apply mul_le_mul_of_nonneg_left _ (by norm_num)
    linarith
  · rw [if_neg hc]
    have he := enhancement_pos c (not_lt.1 hc)
    refine ⟨by positivity, fun _ => ?_, fun h => absurd h hc⟩
    apply mul_le_mul_of_nonneg_left _ (by norm_num)
    rw [div_le_iff₀ (by linarith)]
    nlinarith

example : (0 : ℚ) < cellWind 1 5 10 :=
  (C60_positive_partial 1 5 10 (by norm_num) (by norm_num) (by norm_num) (by norm_num)).1

/-- At the class boundaries the wind is zero whatever the flat wind. -/
theorem C60_gaps_fails (factor flat c : K) (h : |c| = 21.3 ∨ |c| = 30.1) : cellWind factor flat c = 0 := by
  have hc : c = 21.3 ∨ c = -21.3 ∨ c = 30.1 ∨ c = -30.1 := by
    rcases h with h | h <;> rcases abs_choice c with e | e <;> rw [e] at h
    · exact Or.inl h
    · exact Or.inr (Or.inl (by linarith))
    · exact Or.inr (Or.inr (Or.inl h))
    · exact Or.inr (Or.inr (Or.inr (by linarith)))
  unfold cellWind
  rcases hc with rfl | rfl | rfl | rfl <;> norm_num

theorem C60_fails : ¬ C60_full ℚ := by
  intro h
  have h1 := h 1 1 21.3 (by norm_num) (by norm_num)
  rw [C60_gaps_fails _ _ _ (Or.inl (by norm_num))] at h1
  unfold documented enhancement at h1
  norm_num at h1

/-- The limits: the value is kept within -32 and 32, and unchanged there. -/
theorem C60_limits (c : K) : -32 ≤ clampMaxus c ∧ clampMaxus c ≤ 32 ∧ (-32 ≤ c → c ≤ 32 → clampMaxus c = c) := by
  unfold clampMaxus
  simp only
  by_cases h1 : 32 < c
  · rw [if_pos h1, if_neg (by norm_num)]
    exact ⟨by norm_num, le_refl _, fun _ h => by linarith⟩
  · rw [if_neg h1]
    by_cases h2 : c < -32
    · rw [if_pos h2]
      exact ⟨le_refl _, by norm_num, fun h _ => by linarith⟩
    · rw [if_neg h2]
      exact ⟨by linarith, by linarith, fun _ _ => rfl⟩

/-! ### C82: shelter and exposure -/

theorem enhancement_gentle (x y : K) (hx : 0 ≤ x) (h : x < y) (hy : y < 21.3) : enhancement x ≤ enhancement y := by
  unfold enhancement
  rw [if_neg (by linarith), if_neg (by linarith), if_neg (by linarith), if_neg (by linarith)]
  have : 0 ≤ (y - x) * (0.1031717 - 0.008003561 * (x + y) + 0.0003996581 * (x ^ 2 + x * y + y ^ 2)) := by
    apply mul_nonneg (by linarith)
    nlinarith [sq_nonneg (x - y), sq_nonneg (x + y - 13)]
  nlinarith

theorem enhancement_steep (x y : K) (hx : 21.3 ≤ x) (h : x < y) (hy : y < 30.1) : enhancement x ≤ enhancement y := by
  unfold enhancement
  rw [if_neg (by linarith), if_pos hx, if_neg (by linarith), if_pos (by linarith)]
  have : 0 ≤ (y - x) * (-0.1678945 + 0.01927844 * (x + y) - 0.0003651592 * (x ^ 2 + x * y + y ^ 2)) := by
    apply mul_nonneg (by linarith)
    nlinarith [mul_nonneg (sub_nonneg.2 hx) (sub_nonneg.2 hy.le), mul_nonneg (sub_nonneg.2 hx) (sub_nonneg.2 h.le),
      mul_nonneg (sub_nonneg.2 h.le) (sub_nonneg.2 hy.le), mul_nonneg (sub_nonneg.2 (h.trans hy).le) (sub_nonneg.2 (hx.trans h.le)),
      mul_nonneg (sub_nonneg.2 hx) (sub_nonneg.2 (h.trans hy).le)]
  nlinarith

theorem enhancement_top (x y : K) (hx : 30.1 ≤ x) (h : x < y) : enhancement x ≤ enhancement y := by
  unfold enhancement
  rw [if_pos hx, if_pos (hx.trans h.le)]

/-- Within one class more exposure gives no less wind and more shelter no more. -/
theorem C82_within_class_partial (factor flat c c' : K) (hf : 0 < factor) (hw : 0 ≤ flat) (h : c < c')
    (hcls : (0 ≤ c ∧ c' < 21.3) ∨ (21.3 < c ∧ c' < 30.1) ∨ 30.1 < c ∨
      (-21.3 < c ∧ c' < 0) ∨ (-30.1 < c ∧ c' < -21.3) ∨ c' < -30.1) :
    cellWind factor flat c' ≤ cellWind factor flat c := by
  have sheltered : 0 ≤ c → enhancement c ≤ enhancement c' → documented factor flat c' ≤ documented factor flat c := by
    intro h0 he
    have := enhancement_pos c h0
    unfold documented
    rw [if_neg (by linarith), if_neg (by linarith)]
    apply mul_le_mul_of_nonneg_left _ (by norm_num)
    exact div_le_div_of_nonneg_left hw (by linarith) he
  have exposed : c' < 0 → enhancement (-c') ≤ enhancement (-c) → documented factor flat c' ≤ documented factor flat c := by
    intro h0 he
    unfold documented
    rw [if_pos h0, if_pos (h.trans h0)]
    apply mul_le_mul_of_nonneg_left _ (by norm_num)
    exact mul_le_mul_of_nonneg_left he (by positivity)
  have hne : ∀ x : K, (c ≤ x ∧ x ≤ c') → |x| ≠ 21.3 ∧ |x| ≠ 30.1 := by
    rintro x ⟨q1, q2⟩
    constructor <;> intro e <;> rcases abs_choice x with a | a <;> rw [a] at e <;>
      rcases hcls with ⟨e1, e2⟩ | ⟨e1, e2⟩ | e1 | ⟨e1, e2⟩ | ⟨e1, e2⟩ | e1 <;> norm_num at e e1 <;> try norm_num at e2
    all_goals linarith
  rw [C60_documented_partial factor flat c (hne c ⟨le_refl _, h.le⟩).1 (hne c ⟨le_refl _, h.le⟩).2,
    C60_documented_partial factor flat c' (hne c' ⟨h.le, le_refl _⟩).1 (hne c' ⟨h.le, le_refl _⟩).2]
  rcases hcls with ⟨e1, e2⟩ | ⟨e1, e2⟩ | e1 | ⟨e1, e2⟩ | ⟨e1, e2⟩ | e1
  · exact sheltered e1 (enhancement_gentle c c' e1 h e2)
  · exact sheltered (by norm_num at e1; linarith) (enhancement_steep c c' e1.le h e2)
  · exact sheltered (by norm_num at e1; linarith) (enhancement_top c c' e1.le h)
  · exact exposed e2 (enhancement_gentle (-c') (-c) (by linarith) (by linarith) (by linarith))
  · exact exposed (by norm_num at e2; linarith) (enhancement_steep (-c') (-c) (by linarith) (by linarith) (by linarith))
  · exact exposed (by norm_num at e1; linarith) (enhancement_top (-c') (-c) (by linarith) (by linarith))

/-- Across the boundary at 21.3 degrees a more sheltered cell gets more wind, and a more exposed cell
less. -/
theorem C82_boundary_fails :
    cellWind 1 1 (21.29 : ℚ) < cellWind 1 1 21.31 ∧ cellWind 1 1 (-21.31 : ℚ) < cellWind 1 1 (-21.29) := by
  rw [C60_documented_partial _ _ _ (by norm_num) (by norm_num), C60_documented_partial _ _ _ (by norm_num) (by norm_num),
    C60_documented_partial _ _ _ (by norm_num [abs_of_neg]) (by norm_num [abs_of_neg]),
    C60_documented_partial _ _ _ (by norm_num [abs_of_neg]) (by norm_num [abs_of_neg])]
  unfold documented enhancement
  norm_num

/-! ### C83: station and cell adjustment -/

/-- For slopes up to 30 degrees (but exactly 21.3) adjusting the flattened wind of a station by the
station's own slope gives the measured wind again, apart from the height conversion (and the reduction
factor for exposed cells). -/
theorem C83_inverse_partial (factor speed v : K) (h1 : |v| < 30) (h2 : |v| ≠ 21.3) :
    cellWind factor (flatten v speed) v = 1.07985 * (if v < 0 then factor * speed else speed) := by
  rw [C60_documented_partial _ _ _ h2 (by intro e; rw [e] at h1; norm_num at h1)]
  have key : ∀ c : K, 0 ≤ c → c < 30 → c ≠ 21.3 → expVal c = enhancement c := by
    intro c h0 h3 h4
    unfold expVal enhancement steep gentle
    rw [if_neg (show ¬ 30.1 ≤ c by intro h; norm_num at h; linarith)]
    by_cases h : 21.3 < c
    · rw [if_pos ⟨h, by norm_num; linarith⟩, if_pos h.le]; ring
    · have h' : c < 21.3 := lt_of_le_of_ne (not_lt.1 h) h4
      rw [if_neg (fun h'' => h h''.1), if_neg (show ¬ 30.0 ≤ c by intro h; norm_num at h; linarith), if_neg (by linarith)]
      norm_num
      ring
  unfold documented flatten
  rw [key |v| (abs_nonneg v) h1 h2]
  have hpos := enhancement_pos |v| (abs_nonneg v)
  by_cases hv : v < 0
  · rw [if_pos hv, if_neg (by linarith), if_pos hv]
    rw [abs_of_neg hv] at hpos ⊢
    field_simp
  · rw [if_neg hv, if_neg hv]
    have hv0 := not_lt.1 hv
    rw [abs_of_nonneg hv0] at hpos ⊢
    by_cases h0 : 0 < v
    · rw [if_pos h0]; field_simp
    · have : v = 0 := by linarith
      rw [if_neg h0]
      have h1 : enhancement v = 1 := by rw [this]; unfold enhancement; norm_num
      rw [h1]; simp

/-- Beyond 30 degrees stations and cells use different numbers (4.21 from 30.0, 4.211 from 30.1). -/
theorem C83_steep_fails : cellWind 1 (flatten 31 (1 : ℚ)) 31 ≠ 1.07985 * 1 := by
  unfold cellWind flatten expVal
  norm_num

/-! ### C84: vegetation -/

omit [FloorRing K] in
/-- A class of the configuration changes the slope by its own value, all other classes by the default. -/
theorem C84_vegetation (veg : List (Int × K)) (hk : (veg.map Prod.fst).Nodup) (dflt : K) (cls : Int) (c : K) :
    (∀ v, (cls, v) ∈ veg → vegAdjust veg dflt cls c = c + v) ∧
    (cls ∉ veg.map Prod.fst → vegAdjust veg dflt cls c = c + dflt) := by
  have none_case : ∀ (l : List (Int × K)) (s : K × Bool), cls ∉ l.map Prod.fst →
      l.foldl (fun (s : K × Bool) kv => if cls = kv.1 then (s.1 + kv.2, false) else s) s = s := by
    intro l
    induction l with
    | nil => intro s _; rfl
    | cons a l ih =>
      intro s h
      simp only [List.map_cons, List.mem_cons, not_or] at h
      rw [List.foldl_cons, if_neg h.1]
      exact ih s h.2
  constructor
  · intro v hv
    have : veg.foldl (fun (s : K × Bool) kv => if cls = kv.1 then (s.1 + kv.2, false) else s) (c, true) = (c + v, false) := by
      induction veg with
      | nil => simp at hv
      | cons a l ih =>
        rw [List.map_cons, List.nodup_cons] at hk
        rw [List.foldl_cons]
        rcases List.mem_cons.1 hv with e | e
        · rw [← e] at hk ⊢
          simp only [if_true]
          exact none_case l _ hk.1
        · have : cls ≠ a.1 := fun e' => hk.1 (e' ▸ List.mem_map_of_mem (f := Prod.fst) e)
          rw [if_neg this]
          exact ih hk.2 e
    unfold vegAdjust
    rw [this]
    simp
  · intro h
    unfold vegAdjust
    rw [none_case veg _ h]
    simp only [if_true]
    split
    · rfl
    · rename_i h0
      rw [not_not.1 h0, add_zero]

example : vegAdjust [(41, (11 : ℚ)), (42, 8)] 3 42 1 = 9 ∧ vegAdjust [(41, (11 : ℚ)), (42, 8)] 3 7 1 = 4 := by
  obtain ⟨h1, h2⟩ := C84_vegetation [(41, (11 : ℚ)), (42, 8)] (by simp) 3 42 1
  obtain ⟨h3, h4⟩ := C84_vegetation [(41, (11 : ℚ)), (42, 8)] (by simp) 3 7 1
  constructor
  · rw [h1 8 (by simp)]; norm_num
  · rw [h4 (by simp)]; norm_num

/-! ### C61 -/

/-- The rule for one station alone: missing direction gives a missing value; a peak is taken at its most
exposed direction, every other station in the direction of the wind. -/
def ownFlat (dirs : List K) (step : K) (peaks : List String) (s : Sta K) : Except Err (Option K) :=
  match s.direction with
  | none => .ok none
  | some d =>
    (if s.name ∈ peaks then peakValue s else tableValue dirs step d s).map fun v =>
      s.speed.map (flatten (max (-35) (min 35 v)))

theorem clampStation_eq (v : K) : clampStation v = max (-35) (min 35 v) := by
  unfold clampStation
  simp only
  by_cases h1 : 35 < v
  · rw [if_pos h1, if_neg (by norm_num), min_eq_left h1.le, max_eq_right (by norm_num)]
  · rw [if_neg h1, min_eq_right (not_lt.1 h1)]
    by_cases h2 : v < -35
    · rw [if_pos h2, max_eq_left h2.le]
    · rw [if_neg h2, max_eq_right (not_lt.1 h2)]

/-- The full claim: each station's flat wind comes from its own data. -/
def C61_full (K : Type) [Field K] [LinearOrder K] [FloorRing K] [IsStrictOrderedRing K] : Prop :=
  ∀ (dirs : List K) (step : K) (peaks : Option (List String)) (ss : List (Sta K)),
    stationMaxus dirs step peaks none ss = ss.mapM (ownFlat dirs step (peaks.getD []))

/-- Without a list of peaks, or with all stations in it, every station uses its own data. -/
theorem C61_own_partial (dirs : List K) (step : K) (peaks : Option (List String)) (old : Option K) (ss : List (Sta K))
    (h : peaks = none ∨ ∀ s ∈ ss, s.direction ≠ none → s.name ∈ peaks.getD []) :
    stationMaxus dirs step peaks old ss = ss.mapM (ownFlat dirs step (peaks.getD [])) := by
  induction ss generalizing old with
  | nil => rfl
  | cons s ss ih =>
    have hss : peaks = none ∨ ∀ s ∈ ss, s.direction ≠ none → s.name ∈ peaks.getD [] := by
      rcases h with h | h
      · exact Or.inl h
      · exact Or.inr fun t ht => h t (List.mem_cons_of_mem _ ht)
    have hval : ∀ d, s.direction = some d → valMaxus dirs step d peaks old s =
        if s.name ∈ peaks.getD [] then peakValue s else tableValue dirs step d s := by
      intro d hd
      cases peaks with
      | none => simp [valMaxus]
      | some l =>
        rcases h with h | h
        · cases h
        · have := h s List.mem_cons_self (by rw [hd]; simp)
          simp only [Option.getD_some] at this
          simp [valMaxus, this]
    rw [stationMaxus, List.mapM_cons]
    unfold stationStep
    cases hd : s.direction with
    | none =>
      have ho : ownFlat dirs step (peaks.getD []) s = .ok none := by unfold ownFlat; rw [hd]
      simp only
      rw [ih old hss, ho]
      cases ss.mapM (ownFlat dirs step (peaks.getD [])) <;> rfl
    | some d =>
      have ho : ownFlat dirs step (peaks.getD []) s =
          (if s.name ∈ peaks.getD [] then peakValue s else tableValue dirs step d s).map fun v =>
            s.speed.map (flatten (max (-35) (min 35 v))) := by unfold ownFlat; rw [hd]
      simp only
      rw [hval d hd, ho]
      cases (if s.name ∈ peaks.getD [] then peakValue s else tableValue dirs step d s) with
      | error e => rfl
      | ok v =>
        simp only
        rw [ih _ hss, clampStation_eq]
        cases ss.mapM (ownFlat dirs step (peaks.getD [])) <;> rfl

/-- Two stations, one of them a peak. -/
def peakSta : Sta ℚ := ⟨"A", some 5, some 0, 0, [10, 20]⟩
def otherSta : Sta ℚ := ⟨"B", some 5, some 0, 0, [0, 20]⟩

example : ∀ s ∈ [peakSta], s.direction ≠ none → s.name ∈ (some ["A"]).getD [] := by
  intro s hs _
  rw [List.mem_singleton.1 hs]
  exact List.mem_singleton.2 rfl

/-- With a list of peaks any other station is treated with the slope of the station before it, or stops
the program if it comes first. -/
theorem C61_order_fails :
    stationMaxus [0, 180] 180 (some ["A"]) none [peakSta, otherSta] = .ok [some (flatten 10 5), some (flatten 10 5)] ∧
    stationMaxus [0, 180] 180 (some ["A"]) none [otherSta, peakSta] = .error .unbound ∧
    ownFlat [0, 180] 180 ["A"] otherSta = .ok (some (5 : ℚ)) := by
  have hA : "A" ∈ ["A"] := by decide
  have hB : "B" ∉ ["A"] := by decide
  have hc : clampStation (10 : ℚ) = 10 := by unfold clampStation; norm_num
  have hpk : peakValue peakSta = .ok (10 : ℚ) := by
    unfold peakValue peakSta
    norm_num
  have hi : stationIdx (180 : ℚ) 0 = 0 := by
    have : ⌈((0 : ℚ) - 180 / 2) / 180⌉ = 0 := by rw [Int.ceil_eq_iff]; norm_num
    unfold stationIdx
    rw [this]
    norm_num
  have hpA : peakSta.name ∈ ["A"] := hA
  have hpB : otherSta.name ∉ ["A"] := hB
  have d1 : peakSta.direction = some 0 := rfl
  have d2 : otherSta.direction = some 0 := rfl
  have s1 : peakSta.speed = some 5 := rfl
  have s2 : otherSta.speed = some 5 := rfl
  refine ⟨?_, ?_, ?_⟩
  · have h1 : stationStep [0, 180] (180 : ℚ) (some ["A"]) none peakSta = .ok (some 10, some (flatten 10 5)) := by
      simp only [stationStep, valMaxus, d1, s1, if_pos hpA, hpk, hc, Option.map_some]
    have h2 : stationStep [0, 180] (180 : ℚ) (some ["A"]) (some 10) otherSta = .ok (some 10, some (flatten 10 5)) := by
      simp only [stationStep, valMaxus, d2, s2, if_neg hpB, hc, Option.map_some]
    simp only [stationMaxus, h1, h2]
  · have h1 : stationStep [0, 180] (180 : ℚ) (some ["A"]) none otherSta = .error .unbound := by
      simp only [stationStep, valMaxus, d2, if_neg hpB]
    simp only [stationMaxus, h1]
  · have ht : tableValue [0, 180] (180 : ℚ) 0 otherSta = .ok 0 := by
      unfold tableValue otherSta
      rw [hi]
      norm_num
    have hf : flatten (max (-35) (min 35 (0 : ℚ))) 5 = 5 := by
      unfold flatten expVal gentle
      norm_num
    simp only [ownFlat, d2, s2, if_neg hpB, ht, Except.map, Option.map_some, hf]

/-- The exposure used for a station: a peak is taken at the smallest of its own values over all directions,
another station at the one value of its own column whose direction is the sector of the wind; the
station's enhancement is added. -/
theorem C61_slope (dirs : List K) (step d : K) (s : Sta K) (v : K) :
    (peakValue s = .ok v ↔ (∃ m ∈ s.maxus, v = m + s.enhancement) ∧ ∀ m ∈ s.maxus, v ≤ m + s.enhancement) ∧
    (dirs.Nodup → dirs.length = s.maxus.length →
      (tableValue dirs step d s = .ok v ↔
        ∃ i : Nat, dirs[i]? = some (stationIdx step d : K) ∧ ∃ m, s.maxus[i]? = some m ∧ v = m + s.enhancement)) := by
  constructor
  · unfold peakValue
    have key : ∀ (x : K) (xs : List K), (∃ m ∈ x :: xs, xs.foldl min x = m) ∧ ∀ m ∈ x :: xs, xs.foldl min x ≤ m := by
      intro x xs
      induction xs generalizing x with
      | nil => simp
      | cons y ys ih =>
        obtain ⟨⟨m, hm, e⟩, h2⟩ := ih (min x y)
        rw [List.foldl_cons]
        constructor
        · rcases List.mem_cons.1 hm with h | h
          · rcases min_choice x y with hc | hc
            · exact ⟨x, by simp, by rw [e, h, hc]⟩
            · exact ⟨y, by simp, by rw [e, h, hc]⟩
          · exact ⟨m, by simp [h], e⟩
        · intro m hm
          have h0 := h2 (min x y) (by simp)
          rcases List.mem_cons.1 hm with h | h
          · rw [h]; exact h0.trans (min_le_left _ _)
          · rcases List.mem_cons.1 h with h | h
            · rw [h]; exact h0.trans (min_le_right _ _)
            · exact h2 m (by simp [h])
    cases hm : s.maxus with
    | nil => simp
    | cons x xs =>
      obtain ⟨⟨m, h1, e⟩, h2⟩ := key (x + s.enhancement) (xs.map (· + s.enhancement))
      rw [← List.map_cons (f := (· + s.enhancement)), List.mem_map] at h1
      obtain ⟨m', h3, e'⟩ := h1
      simp only [List.map_cons, Except.ok.injEq]
      constructor
      · intro h
        rw [← h]
        exact ⟨⟨m', h3, by rw [e, ← e']⟩, fun m hm => h2 _ (by
          rw [← List.map_cons (f := (· + s.enhancement))]; exact List.mem_map_of_mem hm)⟩
      · rintro ⟨⟨m₁, h4, e₁⟩, h5⟩
        apply le_antisymm
        · rw [e₁]
          exact h2 _ (by rw [← List.map_cons (f := (· + s.enhancement))]; exact List.mem_map_of_mem h4)
        · rw [e, ← e']
          exact h5 m' h3
  · unfold tableValue
    generalize (stationIdx step d : K) = t
    generalize s.maxus = col
    intro hn hl
    induction dirs generalizing col with
    | nil => simp
    | cons a l ih =>
      cases col with
      | nil => simp at hl
      | cons c cs =>
        rw [List.nodup_cons] at hn
        have hl' : l.length = cs.length := by simpa using hl
        by_cases hat : a = t
        · have hempty : (List.zip l cs).filter (fun p => decide (p.1 = t)) = [] := by
            rw [List.filter_eq_nil_iff]
            intro p hp
            have := (List.of_mem_zip hp).1
            simp only [decide_eq_true_eq]
            intro e
            exact hn.1 (by rw [hat, ← e]; exact this)
          rw [List.zip_cons_cons, List.filter_cons_of_pos (by simpa using hat), hempty]
          simp only [Except.ok.injEq]
          constructor
          · intro h
            exact ⟨0, by simp [hat], c, by simp, h.symm⟩
          · rintro ⟨i, h1, m, h2, h3⟩
            cases i with
            | zero => simp at h2; rw [h3, ← h2]
            | succ i =>
              simp at h1
              exact absurd (by rw [hat]; exact List.mem_of_getElem? h1) hn.1
        · rw [List.zip_cons_cons, List.filter_cons_of_neg (by simpa using hat), ih cs hn.2 hl']
          constructor
          · rintro ⟨i, h1, m, h2, h3⟩
            exact ⟨i + 1, by simpa using h1, m, by simpa using h2, h3⟩
          · rintro ⟨i, h1, m, h2, h3⟩
            cases i with
            | zero => simp at h1; exact absurd h1 hat
            | succ i => exact ⟨i, by simpa using h1, m, by simpa using h2, h3⟩

example : [(0 : ℚ), 180].Nodup ∧ [(0 : ℚ), 180].length = peakSta.maxus.length := by
  constructor
  · norm_num
  · rfl

theorem C61_fails : ¬ C61_full ℚ := by
  intro h
  have h1 := h [0, 180] 180 (some ["A"]) [otherSta, peakSta]
  rw [C61_order_fails.2.1, List.mapM_cons] at h1
  simp only [Option.getD_some] at h1
  rw [C61_order_fails.2.2] at h1
  have hp : ∃ y, ownFlat [0, 180] (180 : ℚ) ["A"] peakSta = .ok y := by
    refine ⟨some (flatten (max (-35) (min 35 10)) 5), ?_⟩
    have hA : "A" ∈ ["A"] := by decide
    have hpk : peakValue peakSta = .ok (10 : ℚ) := by
      unfold peakValue peakSta
      norm_num
    have hpA : peakSta.name ∈ ["A"] := hA
    have d1 : peakSta.direction = some 0 := rfl
    have s1 : peakSta.speed = some 5 := rfl
    simp only [ownFlat, d1, s1, if_pos hpA, hpk, Except.map, Option.map_some]
  obtain ⟨y, hy⟩ := hp
  rw [List.mapM_cons, hy] at h1
  simp only [List.mapM_nil] at h1
  cases h1

end
end Verif.Wind
