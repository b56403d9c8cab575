import Verif.ViewErrorProps

/-!
C193: how much an error in the dew point can change the thermal radiation of the method of Marks and Dozier. No new model: two runs of `Thermal.distribute`
(`smrf/distribute/thermal.py:254-342`, `smrf/envphys/core/topotherm.c`).
-/

namespace Verif.Thermal

open Verif.Vapor Verif.Twostream

theorem seventh_root (k R R' s t : ℝ) (hk : 0 ≤ k) (hR : 0 ≤ R) (hR' : 0 ≤ R') (hs : 0 < s) (h : s ≤ t) (hp : R' * s ^ 27 ≤ R * t ^ 27) :
    (R' * k) ^ (1 / 7 : ℝ) * s ^ 4 ≤ (R * k) ^ (1 / 7 : ℝ) * t ^ 4 := by
  have ht := hs.trans_le h
  have e (x : ℝ) (hx : 0 < x) : x ^ 4 = (x ^ 28) ^ (1 / 7 : ℝ) := by
    rw [show x ^ 28 = (x ^ 4) ^ 7 by ring, show (1 / 7 : ℝ) = ((7 : ℕ) : ℝ)⁻¹ by norm_num, Real.pow_rpow_inv_natCast (by positivity) (by norm_num)]
  rw [e s hs, e t ht, ← Real.mul_rpow (by positivity) (by positivity), ← Real.mul_rpow (by positivity) (by positivity)]
  apply Real.rpow_le_rpow (by positivity) _ (by norm_num)
  have a : R' * s ^ 27 * (k * s) ≤ R * t ^ 27 * (k * t) :=
    mul_le_mul hp (mul_le_mul_of_nonneg_left h hk) (by positivity) (by positivity)
  calc R' * k * s ^ 28 = R' * s ^ 27 * (k * s) := by ring
    _ ≤ R * t ^ 27 * (k * t) := a
    _ = R * k * t ^ 28 := by ring

/-- One cell, two dew points below the air temperature. -/
theorem marks_dew_rate (ta tw tw' z v r r' : ℝ) (h : topothermC ta tw z v = some r) (h' : topothermC ta tw' z v = some r') (hz : 0 ≤ z) (v0 : 0 ≤ v) (v1 : v ≤ 1)
    (hw : tw ≤ tw') (hlo : 230 ≤ tw + freeze) (hta : tw' ≤ ta) (hhi : ta ≤ 100 - 1 / 100) (ha : Vapor.Apart (tw + freeze) (tw' + freeze)) :
    r' - r ≤ blackBody ta * (4 / 230 * (tw' - tw)) := by
  obtain ⟨ht, -, hp, R, hR, hr⟩ := topothermC_eq h
  obtain ⟨-, -, -, R', hR', hr'⟩ := topothermC_eq h'
  have hb := blackBody_nonneg ta
  obtain ⟨p0, p1⟩ := press_share ta z ht hp hz
  have pa := C41_positive (ta + freeze)
  have hf : freeze = 27316 / 100 := rfl
  have one (u : ℝ) (hu : 0 < u + freeze) (hut : u ≤ ta) : sat (min (ta + freeze) (u + freeze)) / sat (ta + freeze) ⊓ 1 = sat (u + freeze) / sat (ta + freeze) := by
    rw [min_eq_right (by linarith : u + freeze ≤ ta + freeze)]
    apply min_eq_left
    rw [div_le_one pa]
    exact sat_le _ _ hu (by linarith) (by rw [hf]; linarith)
  rw [one tw (by linarith) (by linarith)] at hR
  rw [one tw' (by linarith) hta] at hR'
  have R0 : 0 ≤ R := by rw [hR]; exact div_nonneg (C41_positive _).le pa.le
  have R0' : 0 ≤ R' := by rw [hR']; exact div_nonneg (C41_positive _).le pa.le
  have hpow : R' * (tw + freeze) ^ 27 ≤ R * (tw' + freeze) ^ 27 := by
    have := sat_power (tw + freeze) (tw' + freeze) hlo (by linarith) (by unfold boil; rw [hf]; linarith) ha
    rw [hR, hR', div_mul_eq_mul_div, div_mul_eq_mul_div]
    exact div_le_div_of_nonneg_right this pa.le
  have k0 : 0 ≤ sat (ta + freeze - lapseM * z) / 100 / (ta + freeze - lapseM * z) := by
    have := (C41_positive (ta + freeze - lapseM * z)).le
    positivity
  have sev := seventh_root _ R R' (tw + freeze) (tw' + freeze) k0 R0 R0' (by linarith) (by linarith) hpow
  rw [show R * sat (ta + freeze - lapseM * z) / 100 / (ta + freeze - lapseM * z) = R * (sat (ta + freeze - lapseM * z) / 100 / (ta + freeze - lapseM * z)) by ring] at hr
  rw [show R' * sat (ta + freeze - lapseM * z) / 100 / (ta + freeze - lapseM * z) = R' * (sat (ta + freeze - lapseM * z) / 100 / (ta + freeze - lapseM * z)) by ring] at hr'
  have E0' := Real.rpow_nonneg (mul_nonneg R0' k0) (1 / 7 : ℝ)
  revert sev hr hr' E0' p0 p1
  generalize (R * (sat (ta + freeze - lapseM * z) / 100 / (ta + freeze - lapseM * z))) ^ (1 / 7 : ℝ) = E
  generalize (R' * (sat (ta + freeze - lapseM * z) / 100 / (ta + freeze - lapseM * z))) ^ (1 / 7 : ℝ) = E'
  generalize hysat Vapor.seaLevel (ta + freeze - lapseM * z) stdLapse (z / 1000) gravity molAir / Vapor.seaLevel = P
  intro hr hr' p0 p1 sev E0'
  have hts : tw' - tw = (tw' + freeze) - (tw + freeze) := by ring
  have hst : tw + freeze ≤ tw' + freeze := by linarith
  rw [hts]
  revert sev hlo hst
  generalize tw + freeze = s
  generalize tw' + freeze = t
  intro hlo sev hst
  have t0 : 0 < t := by linarith
  have m1 : min (124 / 100 * E') 1 ≤ 1 := min_le_right _ _
  have m0 : 0 ≤ min (124 / 100 * E') 1 := le_min (by positivity) zero_le_one
  have mm : min (124 / 100 * E') 1 * s ^ 4 ≤ min (124 / 100 * E) 1 * t ^ 4 := by
    have s4 : s ^ 4 ≤ t ^ 4 := pow_le_pow_left₀ (by linarith) hst 4
    have s40 : 0 ≤ s ^ 4 := by positivity
    rw [min_mul_of_nonneg _ _ (by positivity : 0 ≤ t ^ 4)]
    apply le_min
    · have := mul_le_mul_of_nonneg_right (min_le_left (124 / 100 * E') 1) s40
      linarith
    · have := mul_le_mul_of_nonneg_right m1 s40
      linarith
  revert mm m0 m1 hr hr'
  generalize min (124 / 100 * E') 1 = m'
  generalize min (124 / 100 * E) 1 = m
  intro hr hr' m1 m0 mm
  have bern : t ^ 4 - s ^ 4 ≤ 4 * t ^ 3 * (t - s) := by
    have hs0 : 0 ≤ s := by linarith
    have e : 4 * t ^ 3 * (t - s) - (t ^ 4 - s ^ 4) = (t - s) ^ 2 * (3 * t ^ 2 + 2 * t * s + s ^ 2) := by ring
    have : 0 ≤ (t - s) ^ 2 * (3 * t ^ 2 + 2 * t * s + s ^ 2) := by positivity
    linarith
  have s4 : s ^ 4 ≤ t ^ 4 := pow_le_pow_left₀ (by linarith) hst 4
  have d1 : (m' - m) * t ^ 4 ≤ 4 * t ^ 3 * (t - s) := by
    have := mul_le_mul_of_nonneg_right m1 (sub_nonneg.2 s4)
    linarith
  have d2 : (m' - m) * t ≤ 4 * (t - s) := by
    have t3 : 0 < t ^ 3 := by positivity
    refine le_of_mul_le_mul_right ?_ t3
    linarith
  have d3 : m' - m ≤ 4 / 230 * (t - s) := by
    rcases le_or_gt (m' - m) 0 with hn | hn
    · have : 0 ≤ 4 / 230 * (t - s) := mul_nonneg (by norm_num) (by linarith)
      linarith
    · have : (m' - m) * 230 ≤ (m' - m) * t := mul_le_mul_of_nonneg_left (by linarith) hn.le
      linarith
  have g0 : 0 ≤ 4 / 230 * (t - s) := mul_nonneg (by norm_num) (by linarith)
  have d4 : m' * P * v - m * P * v ≤ 4 / 230 * (t - s) := by
    have pv0 : 0 ≤ P * v := mul_nonneg p0 v0
    have pv1 : P * v ≤ 1 := mul_le_one₀ p1 v0 v1
    have a := mul_le_mul_of_nonneg_right d3 pv0
    have b := mul_le_mul_of_nonneg_left pv1 g0
    linarith
  have d5 : min (m' * P * v + (1 - v)) 1 - min (m * P * v + (1 - v)) 1 ≤ 4 / 230 * (t - s) := by
    rcases min_cases (m * P * v + (1 - v)) 1 with ⟨e, -⟩ | ⟨e, -⟩ <;> rw [e]
    · linarith [min_le_left (m' * P * v + (1 - v)) 1]
    · linarith [min_le_right (m' * P * v + (1 - v)) 1]
  rw [hr, hr', ← sub_mul, mul_comm (blackBody ta)]
  exact mul_le_mul_of_nonneg_right d5 hb

/-- Also when the freezing point, where the formula for saturation jumps, is between the dew points: the error then counts as half a degree at least. -/
theorem marks_dew_near (ta tw tw' z v r r' : ℝ) (h : topothermC ta tw z v = some r) (h' : topothermC ta tw' z v = some r') (hz : 0 ≤ z) (v0 : 0 ≤ v) (v1 : v ≤ 1)
    (hw : tw ≤ tw') (hlo : 230 ≤ tw + freeze) (hta : tw' ≤ ta) (hhi : ta ≤ 100 - 1 / 100) :
    0 ≤ r' - r ∧ r' - r ≤ blackBody ta * (4 / 230 * max (tw' - tw) (1 / 2)) := by
  have hb := blackBody_nonneg ta
  refine ⟨sub_nonneg.2 (C78_marks_dew ta tw tw' z v r r' h h' hw v0 (by linarith)), ?_⟩
  by_cases ha : Vapor.Apart (tw + freeze) (tw' + freeze)
  · refine (marks_dew_rate ta tw tw' z v r r' h h' hz v0 v1 hw hlo hta hhi ha).trans ?_
    exact mul_le_mul_of_nonneg_left (mul_le_mul_of_nonneg_left (le_max_left _ _) (by norm_num)) hb
  · unfold Vapor.Apart at ha
    rw [not_or, not_or, not_le, not_lt, not_le] at ha
    obtain ⟨a1, a2, a3⟩ := ha
    obtain ⟨ht, -, hp, -⟩ := topothermC_eq h
    have hf : freeze = 27316 / 100 := rfl
    obtain ⟨q, hq⟩ := topothermC_def ta (tw' - 1 / 2) z v ht (by linarith) hp
    have k1 := C78_marks_dew ta (tw' - 1 / 2) tw z v q r hq h (by linarith) v0 (by linarith)
    have k2 := marks_dew_rate ta (tw' - 1 / 2) tw' z v q r' hq h' hz v0 v1 (by linarith) (by linarith) hta hhi (.inr (.inr (by linarith)))
    have k3 : blackBody ta * (4 / 230 * (tw' - (tw' - 1 / 2))) ≤ blackBody ta * (4 / 230 * max (tw' - tw) (1 / 2)) := by
      refine mul_le_mul_of_nonneg_left (mul_le_mul_of_nonneg_left ?_ (by norm_num)) hb
      rw [sub_sub_cancel]
      exact le_max_right _ _
    linarith

theorem marks_clear {ι : Type} (c : Cfg) (hm : c.sky = .marks1979) (g : Maps ι) (x : In ι) (o : Out ι) (h : distribute c g x = .ok o) (i : ι) :
    topothermC (x.airTemp i) (x.dew i) (g.dem i) (g.svf i) = some (o.clear i) := by
  obtain ⟨a, a1, a2⟩ := clear_cell c g x o h
  rw [hm] at a1 a2
  cases ht : c.terrain
  · rw [ht] at a1
    simp [clearSky] at a1
  · rw [ht] at a1 a2
    simp only [if_true, clearSky] at a1
    split at a1
    · cases a1
      rw [a2]
      simp [terrain]
    · cases a1

theorem dew_pass {ι : Type} (c : Cfg) (g : Maps ι) (x : In ι) (dew' : ι → ℝ) (o o' : Out ι) (h : distribute c g x = .ok o)
    (h' : distribute c g { x with dew := dew' } = .ok o') (i : ι) (ht : -(27316 / 100) < x.airTemp i) (t0 : 0 ≤ g.tau i) (t1 : g.tau i ≤ 1)
    (c0 : 0 ≤ x.cloudFactor i) (c1 : x.cloudFactor i ≤ 1) :
    |o'.thermal i - o.thermal i| ≤ 1485 / 1000 * |o'.clear i - o.clear i| := by
  obtain ⟨a, a1, a2⟩ := clear_cell c g x o h
  obtain ⟨b, b1, b2⟩ := clear_cell c g _ o' h'
  obtain ⟨d, d1, d2⟩ := step_cell c g x o h
  obtain ⟨e, e1, e2⟩ := step_cell c g _ o' h'
  rw [a1] at d1
  rw [b1] at e1
  cases d1
  cases e1
  rw [d2 i, e2 i, ← a2, ← b2]
  unfold later
  simp only
  have hcl : |(c.cloud.elim (o'.clear i) fun m => cloudCell m (o'.clear i) (x.airTemp i) (x.vapor i) (x.cloudFactor i)) -
      (c.cloud.elim (o.clear i) fun m => cloudCell m (o.clear i) (x.airTemp i) (x.vapor i) (x.cloudFactor i))| ≤
        1485 / 1000 * |o'.clear i - o.clear i| := by
    rcases c.cloud with _ | m
    · simp only [Option.elim]
      linarith [abs_nonneg (o'.clear i - o.clear i)]
    · exact cloud_pass m _ _ _ _ _ ht c0 c1
  refine (Solar.clamp_near c.lo c.hi _ _).trans ?_
  split
  · exact (canopy_near _ _ _ _ _ t0 t1).trans hcl
  · exact hcl

/-- A dew point that the vapor pressure module publishes (not above the air temperature), from -43.16 degrees: at most 4/230 of the black-body radiation per
degree, an error of less than half a degree counting as half a degree; raised by clouds by at most 48.5 percent. -/
theorem C193_dew {ι : Type} (c : Cfg) (hm : c.sky = .marks1979) (g : Maps ι) (x : In ι) (dew' : ι → ℝ) (o o' : Out ι) (h : distribute c g x = .ok o)
    (h' : distribute c g { x with dew := dew' } = .ok o') (i : ι) (hz : 0 ≤ g.dem i) (v0 : 0 ≤ g.svf i) (v1 : g.svf i ≤ 1) (t0 : 0 ≤ g.tau i) (t1 : g.tau i ≤ 1)
    (c0 : 0 ≤ x.cloudFactor i) (c1 : x.cloudFactor i ≤ 1) (l : -(4316 / 100) ≤ x.dew i) (l' : -(4316 / 100) ≤ dew' i) (u : x.dew i ≤ x.airTemp i)
    (u' : dew' i ≤ x.airTemp i) (hh : x.airTemp i ≤ 100 - 1 / 100) :
    |o'.clear i - o.clear i| ≤ blackBody (x.airTemp i) * (4 / 230 * max |dew' i - x.dew i| (1 / 2)) ∧
    |o'.thermal i - o.thermal i| ≤ 1485 / 1000 * (blackBody (x.airTemp i) * (4 / 230 * max |dew' i - x.dew i| (1 / 2))) := by
  have r := marks_clear c hm g x o h i
  have r' := marks_clear c hm g _ o' h' i
  simp only at r'
  have hf : freeze = 27316 / 100 := rfl
  have k : |o'.clear i - o.clear i| ≤ blackBody (x.airTemp i) * (4 / 230 * max |dew' i - x.dew i| (1 / 2)) := by
    rcases le_total (x.dew i) (dew' i) with hd | hd
    · have := marks_dew_near _ _ _ _ _ _ _ r r' hz v0 v1 hd (by rw [hf]; linarith) u' hh
      rw [abs_of_nonneg this.1, abs_of_nonneg (sub_nonneg.2 hd)]
      exact this.2
    · have := marks_dew_near _ _ _ _ _ _ _ r' r hz v0 v1 hd (by rw [hf]; linarith) u hh
      rw [abs_sub_comm, abs_of_nonneg this.1, abs_sub_comm (dew' i), abs_of_nonneg (sub_nonneg.2 hd)]
      exact this.2
  exact ⟨k, (dew_pass c g x dew' o o' h h' i (by linarith) t0 t1 c0 c1).trans (mul_le_mul_of_nonneg_left k (by norm_num))⟩

/-- On one side of the freezing point the error counts as it is. -/
theorem C193_one_side {ι : Type} (c : Cfg) (hm : c.sky = .marks1979) (g : Maps ι) (x : In ι) (dew' : ι → ℝ) (o o' : Out ι) (h : distribute c g x = .ok o)
    (h' : distribute c g { x with dew := dew' } = .ok o') (i : ι) (hz : 0 ≤ g.dem i) (v0 : 0 ≤ g.svf i) (v1 : g.svf i ≤ 1) (t0 : 0 ≤ g.tau i) (t1 : g.tau i ≤ 1)
    (c0 : 0 ≤ x.cloudFactor i) (c1 : x.cloudFactor i ≤ 1) (l : -(4316 / 100) ≤ x.dew i) (l' : -(4316 / 100) ≤ dew' i) (u : x.dew i ≤ x.airTemp i)
    (u' : dew' i ≤ x.airTemp i) (hh : x.airTemp i ≤ 100 - 1 / 100) (side : (x.dew i ≤ 0 ∧ dew' i ≤ 0) ∨ (0 < x.dew i ∧ 0 < dew' i)) :
    |o'.clear i - o.clear i| ≤ blackBody (x.airTemp i) * (4 / 230 * |dew' i - x.dew i|) ∧
    |o'.thermal i - o.thermal i| ≤ 1485 / 1000 * (blackBody (x.airTemp i) * (4 / 230 * |dew' i - x.dew i|)) := by
  have r := marks_clear c hm g x o h i
  have r' := marks_clear c hm g _ o' h' i
  simp only at r'
  have hf : freeze = 27316 / 100 := rfl
  have ap (a b : ℝ) (hab : (a ≤ 0 ∧ b ≤ 0) ∨ (0 < a ∧ 0 < b)) : Vapor.Apart (a + freeze) (b + freeze) := by
    rcases hab with q | q
    · exact .inl (by linarith)
    · exact .inr (.inl (by linarith))
  have k : |o'.clear i - o.clear i| ≤ blackBody (x.airTemp i) * (4 / 230 * |dew' i - x.dew i|) := by
    rcases le_total (x.dew i) (dew' i) with hd | hd
    · have n := (marks_dew_near _ _ _ _ _ _ _ r r' hz v0 v1 hd (by rw [hf]; linarith) u' hh).1
      rw [abs_of_nonneg n, abs_of_nonneg (sub_nonneg.2 hd)]
      exact marks_dew_rate _ _ _ _ _ _ _ r r' hz v0 v1 hd (by rw [hf]; linarith) u' hh (ap _ _ side)
    · have n := (marks_dew_near _ _ _ _ _ _ _ r' r hz v0 v1 hd (by rw [hf]; linarith) u hh).1
      rw [abs_sub_comm, abs_of_nonneg n, abs_sub_comm (dew' i), abs_of_nonneg (sub_nonneg.2 hd)]
      exact marks_dew_rate _ _ _ _ _ _ _ r' r hz v0 v1 hd (by rw [hf]; linarith) u hh (ap _ _ (side.imp And.symm And.symm))
  exact ⟨k, (dew_pass c g x dew' o o' h h' i (by linarith) t0 t1 c0 c1).trans (mul_le_mul_of_nonneg_left k (by norm_num))⟩

/-- The other methods do not read the dew point. -/
theorem C193_unused {ι : Type} (c : Cfg) (hm : c.sky ≠ .marks1979) (g : Maps ι) (x : In ι) (dew' : ι → ℝ) :
    distribute c g { x with dew := dew' } = distribute c g x := by
  unfold distribute
  rcases hsk : c.sky <;> rw [hsk] at hm
  · exact absurd rfl hm
  all_goals rfl

/-- A dew point of -6 instead of -8 degrees at 2000 m. -/
example : ∃ o o' : Out Unit,
    distribute ⟨.marks1979, none, false, true, none, none⟩ ⟨fun _ => 2000, fun _ => 8 / 10, fun _ => 0, fun _ => 1⟩ ⟨fun _ => -5, fun _ => 0, fun _ => -8, fun _ => 1⟩ = .ok o ∧
    distribute ⟨.marks1979, none, false, true, none, none⟩ ⟨fun _ => 2000, fun _ => 8 / 10, fun _ => 0, fun _ => 1⟩ ⟨fun _ => -5, fun _ => 0, fun _ => -6, fun _ => 1⟩ = .ok o' ∧
    |o'.clear () - o.clear ()| ≤ blackBody (-5) * (4 / 230 * |-6 - -8|) := by
  obtain ⟨r, h3⟩ := topothermC_def (-5) (-8) 2000 (8 / 10) (by norm_num [freeze]) (by norm_num [freeze]) (by norm_num [freeze, lapseM])
  obtain ⟨r', h4⟩ := topothermC_def (-5) (-6) 2000 (8 / 10) (by norm_num [freeze]) (by norm_num [freeze]) (by norm_num [freeze, lapseM])
  obtain ⟨o, ho, -⟩ := marks_step _ _ _ _ _ h3
  obtain ⟨o', ho', -⟩ := marks_step _ _ _ _ _ h4
  exact ⟨o, o', ho, ho', (C193_one_side _ rfl _ ⟨fun _ => -5, fun _ => 0, fun _ => -8, fun _ => 1⟩ (fun _ => -6) o o' ho ho' () (by norm_num) (by norm_num)
    (by norm_num) (by norm_num) (by norm_num) (by norm_num) (by norm_num) (by norm_num) (by norm_num) (by norm_num) (by norm_num) (by norm_num)
    (.inl (by norm_num))).1⟩

/-- Dew points on both sides of the freezing point. -/
example : ∃ o o' : Out Unit,
    distribute ⟨.marks1979, none, false, true, none, none⟩ ⟨fun _ => 2000, fun _ => 8 / 10, fun _ => 0, fun _ => 1⟩ ⟨fun _ => 3, fun _ => 0, fun _ => -1, fun _ => 1⟩ = .ok o ∧
    distribute ⟨.marks1979, none, false, true, none, none⟩ ⟨fun _ => 2000, fun _ => 8 / 10, fun _ => 0, fun _ => 1⟩ ⟨fun _ => 3, fun _ => 0, fun _ => 1, fun _ => 1⟩ = .ok o' ∧
    |o'.clear () - o.clear ()| ≤ blackBody 3 * (4 / 230 * max |1 - -1| (1 / 2)) := by
  obtain ⟨r, h3⟩ := topothermC_def 3 (-1) 2000 (8 / 10) (by norm_num [freeze]) (by norm_num [freeze]) (by norm_num [freeze, lapseM])
  obtain ⟨r', h4⟩ := topothermC_def 3 1 2000 (8 / 10) (by norm_num [freeze]) (by norm_num [freeze]) (by norm_num [freeze, lapseM])
  obtain ⟨o, ho, -⟩ := marks_step _ _ _ _ _ h3
  obtain ⟨o', ho', -⟩ := marks_step _ _ _ _ _ h4
  exact ⟨o, o', ho, ho', (C193_dew _ rfl _ ⟨fun _ => 3, fun _ => 0, fun _ => -1, fun _ => 1⟩ (fun _ => 1) o o' ho ho' () (by norm_num) (by norm_num)
    (by norm_num) (by norm_num) (by norm_num) (by norm_num) (by norm_num) (by norm_num) (by norm_num) (by norm_num) (by norm_num) (by norm_num)).1⟩

end Verif.Thermal
