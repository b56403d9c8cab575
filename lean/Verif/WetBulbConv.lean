import Mathlib.Analysis.SpecialFunctions.Exp
import Mathlib.Analysis.Convex.SpecificFunctions.Basic
import Mathlib.Tactic.Linarith
import Mathlib.Tactic.FieldSimp
import Mathlib.Tactic.Positivity
import Verif.WetBulb
import Verif.VaporProps

/-!
Helper lemmas on the speed of the Newton iteration of the wet-bulb routine.
-/

namespace Verif.WetBulb
open Verif.Vapor

/-- Chord of the exponential. -/
theorem exp_chord (r U m u : ℝ) (hU : 0 < U) (h : Real.exp (-(U * r)) ≤ 1 - m * U) (h0 : 0 ≤ u)
    (hu : u ≤ U) : Real.exp (-(u * r)) ≤ 1 - m * u := by
  have hc := convexOn_exp.2 (Set.mem_univ (0 : ℝ)) (Set.mem_univ (-(U * r)))
    (show 0 ≤ 1 - u / U by rw [sub_nonneg, div_le_one hU]; exact hu)
    (show 0 ≤ u / U by positivity) (by ring)
  simp only [smul_eq_mul, mul_zero, zero_add, Real.exp_zero, mul_one] at hc
  have e : u / U * -(U * r) = -(u * r) := by field_simp
  rw [e] at hc
  have h1 : u / U * Real.exp (-(U * r)) ≤ u / U * (1 - m * U) :=
    mul_le_mul_of_nonneg_left h (by positivity)
  have e2 : u / U * (1 - m * U) = u / U - m * u := by field_simp
  linarith

/-- The relative correction after a step. `A` is `psyc * dedt`, `u` the correction in units of
`461.5 ti^2 / xlh`, `q` the ratio of the saturation pressures. -/
theorem ratio_step (A Ab u U m q : ℝ) (hA : 0 < A) (hAb : A ≤ Ab) (hu0 : 0 ≤ u) (hu : u ≤ U) (hU : U ≤ 1)
    (hm0 : 0 ≤ m) (hm1 : m ≤ 1) (hq0 : 0 < q) (hq : q ≤ 1 - m * u) (hmU : m * U < 1) :
    A * (u - 1 + q) / (1 + A * q) ≤ Ab * U * (1 - m) / (1 + Ab * (1 - m * U)) := by
  have hAb0 : 0 < Ab := lt_of_lt_of_le hA hAb
  have hd : 0 < 1 + Ab * (1 - m * U) := by
    have := mul_pos hAb0 (sub_pos.2 hmU); linarith
  have hd1 : 0 < 1 + A * q := by positivity
  have hmu : m * u ≤ m * U := mul_le_mul_of_nonneg_left hu hm0
  have hd2 : 0 < 1 + Ab * (1 - m * u) := by
    have := mul_pos hAb0 (sub_pos.2 (lt_of_le_of_lt hmu hmU)); linarith
  rcases le_or_gt (u - 1 + q) 0 with hn | hn
  · have h1 : A * (u - 1 + q) / (1 + A * q) ≤ 0 :=
      div_nonpos_of_nonpos_of_nonneg (mul_nonpos_of_nonneg_of_nonpos hA.le hn) hd1.le
    have h2 : 0 ≤ Ab * U * (1 - m) / (1 + Ab * (1 - m * U)) :=
      div_nonneg (mul_nonneg (mul_nonneg hAb0.le (le_trans hu0 hu)) (by linarith)) hd.le
    linarith
  · have s1 : A * (u - 1 + q) / (1 + A * q) ≤ Ab * (u - 1 + q) / (1 + Ab * q) := by
      rw [div_le_div_iff₀ hd1 (by positivity)]
      nlinarith [mul_nonneg (sub_nonneg.2 hAb) hn.le]
    have s2 : Ab * (u - 1 + q) / (1 + Ab * q) ≤ Ab * (u * (1 - m)) / (1 + Ab * (1 - m * u)) := by
      rw [div_le_div_iff₀ (by positivity) hd2]
      have : 0 ≤ Ab * ((1 - m * u - q) * (1 + Ab * (1 - u))) :=
        mul_nonneg hAb0.le (mul_nonneg (by linarith) (by
          have := mul_nonneg hAb0.le (sub_nonneg.2 (le_trans hu hU)); linarith))
      nlinarith
    have s3 : Ab * (u * (1 - m)) / (1 + Ab * (1 - m * u)) ≤ Ab * U * (1 - m) / (1 + Ab * (1 - m * U)) := by
      have t1 : Ab * (u * (1 - m)) ≤ Ab * U * (1 - m) := by
        have := mul_le_mul_of_nonneg_right hu (mul_nonneg hAb0.le (sub_nonneg.2 hm1))
        nlinarith
      have t2 : 1 + Ab * (1 - m * U) ≤ 1 + Ab * (1 - m * u) := by nlinarith
      have t3 : 0 ≤ Ab * U * (1 - m) := mul_nonneg (mul_nonneg hAb0.le (le_trans hu0 hu)) (by linarith)
      exact div_le_div₀ t3 t1 hd t2
    linarith

/-- `psyc * dedt` at a temperature. -/
noncomputable def slopeA (xlh ps t : ℝ) : ℝ := ps * (xlh * (sat t / (4615 / 10 * (t * t))))

/-- The correction in units of `461.5 t^2 / xlh`. -/
noncomputable def rel (xlh ps ea ta t : ℝ) : ℝ :=
  xlh / (4615 / 10 * (t * t)) * (t - newton xlh ps ea ta t (sat t))

theorem corr_eq (xlh ps ea ta t : ℝ) :
    t - newton xlh ps ea ta t (sat t) = ((t - ta) + ps * (sat t - ea)) / (1 + slopeA xlh ps t) := by
  unfold newton slopeA; simp only; ring

theorem slopeA_pos (xlh ps t : ℝ) (hL : 0 < xlh) (hp : 0 < ps) (ht : 0 < t) : 0 < slopeA xlh ps t := by
  have := C41_positive t
  unfold slopeA; positivity

/-- Any correction is less than the unit. -/
theorem rel_first (xlh ps ea ta t Ab : ℝ) (hL : 0 < xlh) (hp : 0 < ps) (hea : 0 ≤ ea) (ht : 0 < t) (hta : t ≤ ta)
    (hA : slopeA xlh ps t ≤ Ab) : rel xlh ps ea ta t ≤ Ab / (1 + Ab) := by
  have hA0 := slopeA_pos xlh ps t hL hp ht
  have hs := C41_positive t
  unfold rel
  rw [corr_eq]
  set A := slopeA xlh ps t with hAd
  have hg : 0 < xlh / (4615 / 10 * (t * t)) := by positivity
  have e : xlh / (4615 / 10 * (t * t)) * (ps * sat t) = A := by
    rw [hAd]; unfold slopeA; field_simp
  have h1 : xlh / (4615 / 10 * (t * t)) * ((t - ta) + ps * (sat t - ea)) ≤ A := by
    rw [← e]
    apply mul_le_mul_of_nonneg_left _ hg.le
    nlinarith [mul_nonneg hp.le hea]
  rw [← mul_div_assoc, div_le_div_iff₀ (by linarith) (by linarith)]
  nlinarith

/-- One step of the iteration. -/
theorem rel_step (xlh ps ea ta t B Ab U m c : ℝ) (hL : 0 < xlh) (hp : 0 < ps) (ht : 0 < t)
    (hB : 0 < B)
    (hsat : ∀ t', 0 < t' → t' ≤ t → sat t' ≤ sat t * Real.exp (-(B * (1 / t' - 1 / t))))
    (hA : slopeA xlh ps t ≤ Ab) (hU0 : 0 < U) (hU1 : U ≤ 1) (hm0 : 0 ≤ m) (hm1 : m ≤ 1) (hmU : m * U < 1)
    (hexp : Real.exp (-(U * (B * (4615 / 10) / xlh))) ≤ 1 - m * U)
    (hc : 4615 / 10 * t ≤ c * xlh) (hcU : c * U < 1)
    (hpos : 0 < t - newton xlh ps ea ta t (sat t))
    (hrel : rel xlh ps ea ta t ≤ U) :
    0 < newton xlh ps ea ta t (sat t) ∧
    rel xlh ps ea ta (newton xlh ps ea ta t (sat t)) ≤
      Ab * U * (1 - m) / (1 + Ab * (1 - m * U)) / (1 - c * U) ^ 2 := by
  have hA0 := slopeA_pos xlh ps t hL hp ht
  have hst := C41_positive t
  set t' := newton xlh ps ea ta t (sat t) with ht'
  set g := xlh / (4615 / 10 * (t * t)) with hg
  have hg0 : 0 < g := by positivity
  set u := g * (t - t') with hu
  have hu0 : 0 < u := mul_pos hg0 hpos
  have hrel' : u ≤ U := hrel
  have hc0 : 0 ≤ c := by
    by_contra hcn
    have h1 : c * xlh < 0 := mul_neg_of_neg_of_pos (not_le.1 hcn) hL
    have h2 : 0 < 4615 / 10 * t := by positivity
    linarith
  -- the new temperature
  have hs : t - t' = u * (4615 / 10 * (t * t)) / xlh := by
    rw [hu, hg]; field_simp
  have hle : t - t' ≤ t * (c * U) := by
    rw [hs, div_le_iff₀ hL]
    calc u * (4615 / 10 * (t * t)) = (4615 / 10 * t) * (u * t) := by ring
      _ ≤ (c * xlh) * (u * t) := mul_le_mul_of_nonneg_right hc (by positivity)
      _ ≤ (c * xlh) * (U * t) := by
          apply mul_le_mul_of_nonneg_left _ (by positivity)
          exact mul_le_mul_of_nonneg_right hrel' ht.le
      _ = t * (c * U) * xlh := by ring
  have hlow : t * (1 - c * U) ≤ t' := by nlinarith
  have h1c : 0 < 1 - c * U := by linarith
  have ht'0 : 0 < t' := lt_of_lt_of_le (mul_pos ht h1c) hlow
  refine ⟨ht'0, ?_⟩
  have hst' := C41_positive t'
  -- the ratio of the saturation pressures
  set q := sat t' / sat t with hq
  have hq0 : 0 < q := div_pos hst' hst
  have hqe : q ≤ Real.exp (-(u * (B * (4615 / 10) / xlh))) := by
    rw [hq, div_le_iff₀ hst, mul_comm]
    refine le_trans (hsat t' ht'0 (by linarith)) ?_
    apply mul_le_mul_of_nonneg_left _ hst.le
    apply Real.exp_le_exp.2
    have e1 : u * (B * (4615 / 10) / xlh) = B * ((t - t') / (t * t)) := by
      rw [hu, hg]; field_simp
    have e2 : 1 / t' - 1 / t = (t - t') / (t' * t) := by field_simp
    rw [e1, e2]
    have : (t - t') / (t * t) ≤ (t - t') / (t' * t) :=
      div_le_div_of_nonneg_left hpos.le (by positivity)
        (mul_le_mul_of_nonneg_right (by linarith) ht.le)
    have := mul_le_mul_of_nonneg_left this hB.le
    linarith
  have hqm : q ≤ 1 - m * u := le_trans hqe (exp_chord _ U m u hU0 hexp hu0.le hrel')
  have key := ratio_step (slopeA xlh ps t) Ab u U m q hA0 hA hu0.le hrel' hU1 hm0 hm1 hq0 hqm hmU
  -- the correction at the new temperature
  have hF : (t - ta) + ps * (sat t - ea) = (1 + slopeA xlh ps t) * (t - t') := by
    have := corr_eq xlh ps ea ta t
    rw [← ht'] at this
    rw [this, mul_div_cancel₀ _ (by linarith : (1 + slopeA xlh ps t) ≠ 0)]
  have hAe : slopeA xlh ps t = g * (ps * sat t) := by
    rw [hg]; unfold slopeA; field_simp
  have hF' : g * ((t' - ta) + ps * (sat t' - ea)) = slopeA xlh ps t * (u - 1 + q) := by
    have e1 : (t' - ta) + ps * (sat t' - ea) =
        slopeA xlh ps t * (t - t') - ps * (sat t - sat t') := by linarith
    have e2 : sat t' = q * sat t := by rw [hq]; field_simp
    rw [e1, e2, hu]
    rw [hAe]; ring
  -- unit at the new temperature
  set v := (t / t') ^ 2 with hv
  have hv1 : 1 ≤ v := by
    rw [hv]; apply one_le_pow₀; rw [one_le_div ht'0]; linarith
  have hvc : v ≤ 1 / (1 - c * U) ^ 2 := by
    rw [hv, div_pow, div_le_div_iff₀ (by positivity) (by positivity), one_mul, ← mul_pow]
    apply pow_le_pow_left₀ (by positivity) hlow
  have hg' : xlh / (4615 / 10 * (t' * t')) = g * v := by
    rw [hg, hv]; field_simp
  have hA' : slopeA xlh ps t * q ≤ slopeA xlh ps t' := by
    have : slopeA xlh ps t' = slopeA xlh ps t * q * v := by
      rw [hq, hv]; unfold slopeA; field_simp
    rw [this]
    have h0 : 0 ≤ slopeA xlh ps t * q := by positivity
    nlinarith
  have hA'0 := slopeA_pos xlh ps t' hL hp ht'0
  have hnn : 0 ≤ Ab * U * (1 - m) / (1 + Ab * (1 - m * U)) := by
    have hAb0 : 0 < Ab := lt_of_lt_of_le hA0 hA
    have : 0 < 1 - m * U := by linarith
    have : 0 ≤ 1 - m := by linarith
    positivity
  unfold rel
  rw [corr_eq, hg']
  have e : g * v * (((t' - ta) + ps * (sat t' - ea)) / (1 + slopeA xlh ps t')) =
      v * (slopeA xlh ps t * (u - 1 + q) / (1 + slopeA xlh ps t')) := by
    rw [← hF']; ring
  rw [e]
  have hb : slopeA xlh ps t * (u - 1 + q) / (1 + slopeA xlh ps t') ≤
      Ab * U * (1 - m) / (1 + Ab * (1 - m * U)) := by
    rcases le_or_gt (u - 1 + q) 0 with hn | hn
    · refine le_trans (div_nonpos_of_nonpos_of_nonneg
        (mul_nonpos_of_nonneg_of_nonpos hA0.le hn) (by linarith)) hnn
    · refine le_trans ?_ key
      exact div_le_div_of_nonneg_left (by positivity) (by positivity) (by linarith)
  calc v * (slopeA xlh ps t * (u - 1 + q) / (1 + slopeA xlh ps t'))
      ≤ v * (Ab * U * (1 - m) / (1 + Ab * (1 - m * U))) :=
        mul_le_mul_of_nonneg_left hb (by linarith)
    _ ≤ 1 / (1 - c * U) ^ 2 * (Ab * U * (1 - m) / (1 + Ab * (1 - m * U))) :=
        mul_le_mul_of_nonneg_right hvc hnn
    _ = _ := by ring

end Verif.WetBulb
