import Verif.ThermalResponseProps
import Verif.SolarErrorProps

/-!
How much an error in the cloud factor or in the transmissivity of the canopy can change the thermal radiation (C184). No new model: two runs of `Thermal.distribute`.
-/

namespace Verif.Thermal

open Verif.Vapor Verif.Twostream

theorem cloud_near (m : Cloud) (th ta vp cf cf' : ℝ) (ht : -(27316 / 100) < ta) :
    |cloudCell m th ta vp cf' - cloudCell m th ta vp cf| ≤ max |th| |blackBody ta - th| * |cf' - cf| := by
  have a0 := abs_nonneg (cf' - cf)
  cases m with
  | garen2005 =>
    show |garen th cf' - garen th cf| ≤ _
    have e : garen th cf' - garen th cf = th * (-(488 / 1000) * (cf' - cf)) := by unfold garen; ring
    rw [e, abs_mul, abs_mul, show |(-(488 / 1000) : ℝ)| = 488 / 1000 by norm_num [abs_of_neg]]
    have := mul_le_mul_of_nonneg_right (le_max_left |th| |blackBody ta - th|) a0
    have := mul_nonneg (abs_nonneg th) a0
    linarith
  | unsworth1975 =>
    show |unsworth th ta cf' - unsworth th ta cf| ≤ _
    rw [unsworth_eq _ _ _ ht, unsworth_eq _ _ _ ht]
    have e : (1 - 84 / 100 * (1 - cf')) * th + 84 / 100 * (1 - cf') * blackBody ta - ((1 - 84 / 100 * (1 - cf)) * th + 84 / 100 * (1 - cf) * blackBody ta) =
        (blackBody ta - th) * (-(84 / 100) * (cf' - cf)) := by ring
    rw [e, abs_mul, abs_mul, show |(-(84 / 100) : ℝ)| = 84 / 100 by norm_num [abs_of_neg]]
    have := mul_le_mul_of_nonneg_right (le_max_right |th| |blackBody ta - th|) a0
    have := mul_nonneg (abs_nonneg (blackBody ta - th)) a0
    linarith
  | kimball1982 =>
    show |kimball th ta _ cf' - kimball th ta _ cf| ≤ _
    have e : kimball th ta (vp / 1000) cf' - kimball th ta (vp / 1000) cf = 0 := sub_self _
    rw [e, abs_zero]
    exact mul_nonneg ((abs_nonneg _).trans (le_max_left _ _)) a0
  | crawford1999 =>
    show |crawford th ta cf' - crawford th ta cf| ≤ _
    rw [crawford_eq, crawford_eq]
    have e : (1 - cf') * blackBody ta + cf' * th - ((1 - cf) * blackBody ta + cf * th) = (blackBody ta - th) * (-1 * (cf' - cf)) := by ring
    rw [e, abs_mul, abs_mul, show |(-1 : ℝ)| = 1 by norm_num, one_mul]
    exact mul_le_mul_of_nonneg_right (le_max_right _ _) a0

theorem canopy_near (th th' ta tau height : ℝ) (h0 : 0 ≤ tau) (h1 : tau ≤ 1) :
    |correctCanopy th' ta tau height - correctCanopy th ta tau height| ≤ |th' - th| := by
  unfold correctCanopy
  simp only
  split
  · rw [add_sub_add_right_eq_sub, ← mul_sub, abs_mul, abs_of_nonneg h0]
    have := mul_le_mul_of_nonneg_right h1 (abs_nonneg (th' - th))
    linarith
  · exact le_rfl

theorem canopy_thin (th ta tau tau' height : ℝ) :
    |correctCanopy th ta tau' height - correctCanopy th ta tau height| ≤ |th - 96 / 100 * blackBody ta| * |tau' - tau| := by
  unfold correctCanopy
  simp only
  split
  · have e : tau' * th + (1 - tau') * (stefBoltz * emissVeg * (ta + freeze) ^ 4) - (tau * th + (1 - tau) * (stefBoltz * emissVeg * (ta + freeze) ^ 4)) =
        (th - 96 / 100 * blackBody ta) * (tau' - tau) := by
      unfold blackBody stefBoltz emissVeg freeze
      ring
    rw [e, abs_mul]
  · rw [sub_self, abs_zero]
    positivity

/-- An error in the cloud factor: every clear-sky method, cloud method, canopy and limits. The change of the published image is at most the larger of the clear-sky
radiation and its distance from the black-body radiation of the air, times the error. -/
theorem C184_cloud {ι : Type} (c : Cfg) (g : Maps ι) (x : In ι) (cf' : ι → ℝ) (o o' : Out ι) (h : distribute c g x = .ok o)
    (h' : distribute c g { x with cloudFactor := cf' } = .ok o') (i : ι) (ht : -(27316 / 100) < x.airTemp i) (h0 : 0 ≤ g.tau i) (h1 : g.tau i ≤ 1) :
    o'.clear i = o.clear i ∧
    |o'.thermal i - o.thermal i| ≤ max |o.clear i| |blackBody (x.airTemp i) - o.clear i| * |cf' i - x.cloudFactor i| := by
  have cl : ∀ (y : In ι) (o : Out ι), distribute c g y = .ok o → ∃ cth, clearSky c.sky g.dem (if c.terrain = true then some g.svf else none) y = .ok cth ∧
      o.clear = terrain c.sky (if c.terrain = true then some g.svf else none) y.airTemp cth := by
    intro y o h
    unfold distribute at h
    simp only at h
    split at h
    · cases h
    · rename_i cth hc
      cases h
      exact ⟨cth, hc, rfl⟩
  obtain ⟨a, a1, a2⟩ := cl _ _ h
  obtain ⟨b, b1, b2⟩ := cl _ _ h'
  obtain ⟨d, d1, d2⟩ := step_cell c g x o h
  obtain ⟨e, e1, e2⟩ := step_cell c g _ o' h'
  have same : clearSky c.sky g.dem (if c.terrain = true then some g.svf else none) { x with cloudFactor := cf' } =
      clearSky c.sky g.dem (if c.terrain = true then some g.svf else none) x := by
    generalize (if c.terrain = true then some g.svf else none) = v
    cases c.sky <;> rfl
  rw [same] at b1 e1
  rw [a1] at b1 d1 e1
  cases b1
  cases d1
  cases e1
  have oc : o'.clear = o.clear := by rw [a2, b2]
  refine ⟨by rw [oc], ?_⟩
  rw [d2 i, e2 i]
  simp only
  rw [show terrain c.sky (if c.terrain = true then some g.svf else none) x.airTemp a i = o.clear i by rw [a2]]
  unfold later
  simp only
  have hcl : |(c.cloud.elim (o.clear i) fun m => cloudCell m (o.clear i) (x.airTemp i) (x.vapor i) (cf' i)) -
      (c.cloud.elim (o.clear i) fun m => cloudCell m (o.clear i) (x.airTemp i) (x.vapor i) (x.cloudFactor i))| ≤
        max |o.clear i| |blackBody (x.airTemp i) - o.clear i| * |cf' i - x.cloudFactor i| := by
    rcases c.cloud with _ | m
    · simp only [Option.elim, sub_self, abs_zero]
      exact mul_nonneg ((abs_nonneg _).trans (le_max_left _ _)) (abs_nonneg _)
    · exact cloud_near m _ _ _ _ _ ht
  refine (Solar.clamp_near c.lo c.hi _ _).trans ?_
  split
  · exact (canopy_near _ _ _ _ _ h0 h1).trans hcl
  · exact hcl

/-- Where the clear-sky radiation is between zero and that of a black body (C78): at most the black-body radiation times the error. -/
theorem C184_black {ι : Type} (c : Cfg) (g : Maps ι) (x : In ι) (cf' : ι → ℝ) (o o' : Out ι) (h : distribute c g x = .ok o)
    (h' : distribute c g { x with cloudFactor := cf' } = .ok o') (i : ι) (ht : -(27316 / 100) < x.airTemp i) (h0 : 0 ≤ g.tau i) (h1 : g.tau i ≤ 1)
    (c0 : 0 ≤ o.clear i) (c1 : o.clear i ≤ blackBody (x.airTemp i)) :
    |o'.thermal i - o.thermal i| ≤ blackBody (x.airTemp i) * |cf' i - x.cloudFactor i| := by
  refine (C184_cloud c g x cf' o o' h h' i ht h0 h1).2.trans (mul_le_mul_of_nonneg_right ?_ (abs_nonneg _))
  rw [abs_of_nonneg c0, abs_of_nonneg (sub_nonneg.2 c1)]
  exact max_le c1 (by linarith)

/-- The bound is reached: Crawford's method in the open, without limits. -/
theorem C184_sharp {ι : Type} (m : Sky) (b : Bool) (g : Maps ι) (x : In ι) (cf' : ι → ℝ) (o o' : Out ι)
    (h : distribute ⟨m, some .crawford1999, false, b, none, none⟩ g x = .ok o)
    (h' : distribute ⟨m, some .crawford1999, false, b, none, none⟩ g { x with cloudFactor := cf' } = .ok o') (i : ι)
    (ht : -(27316 / 100) < x.airTemp i) (h0 : 0 ≤ g.tau i) (h1 : g.tau i ≤ 1) :
    |o'.thermal i - o.thermal i| = |blackBody (x.airTemp i) - o.clear i| * |cf' i - x.cloudFactor i| := by
  obtain ⟨e, -⟩ := C184_cloud _ g x cf' o o' h h' i ht h0 h1
  have val : ∀ (y : In ι) (o : Out ι), distribute ⟨m, some .crawford1999, false, b, none, none⟩ g y = .ok o →
      o.thermal i = crawford (o.clear i) (y.airTemp i) (y.cloudFactor i) := by
    intro y o h
    unfold distribute at h
    simp only at h
    split at h
    · cases h
    · cases h
      rfl
  rw [val _ _ h, val _ _ h', e, crawford_eq, crawford_eq]
  simp only
  rw [← abs_mul, ← abs_neg]
  congr 1
  ring

/-- An error in the transmissivity of the canopy: at most the distance between the radiation above the canopy and that of the canopy, times the error. -/
theorem C184_canopy {ι : Type} (c : Cfg) (g : Maps ι) (tau' : ι → ℝ) (x : In ι) (o o' : Out ι) (h : distribute c g x = .ok o)
    (h' : distribute c { g with tau := tau' } x = .ok o') (i : ι) :
    |o'.thermal i - o.thermal i| ≤ |(o.cloud.elim o.clear id) i - 96 / 100 * blackBody (x.airTemp i)| * |tau' i - g.tau i| := by
  unfold distribute at h h'
  simp only at h h'
  split at h
  · cases h
  · rename_i cth hc
    rw [hc] at h'
    simp only at h'
    cases h
    cases h'
    simp only
    refine (Solar.clamp_near c.lo c.hi _ _).trans ?_
    by_cases hv : c.veg = true
    · simp only [if_pos hv, Option.elim]
      exact canopy_thin _ _ _ _ _
    · simp only [if_neg hv, Option.elim, sub_self, abs_zero]
      positivity

/-! ### The hypotheses are met -/

/-- A forest cell at 5 degrees, a cloud factor of 0.6 instead of 0.5. -/
example : ∃ o o' : Out Unit, distribute ⟨.angstrom1918, some .unsworth1975, true, true, some 0, some 600⟩ forest (weather 5 700 2 (5 / 10)) = .ok o ∧
    distribute ⟨.angstrom1918, some .unsworth1975, true, true, some 0, some 600⟩ forest { weather 5 700 2 (5 / 10) with cloudFactor := fun _ => 6 / 10 } = .ok o' ∧
    |o'.thermal () - o.thermal ()| ≤ max |o.clear ()| |blackBody 5 - o.clear ()| * |6 / 10 - 5 / 10| := by
  refine ⟨_, _, rfl, rfl, ?_⟩
  exact (C184_cloud ⟨.angstrom1918, some .unsworth1975, true, true, some 0, some 600⟩ forest (weather 5 700 2 (5 / 10)) (fun _ => 6 / 10) _ _ rfl rfl ()
    (by norm_num [weather]) (by norm_num [forest]) (by norm_num [forest])).2

/-- The same with a thinner canopy. -/
example : ∃ o o' : Out Unit, distribute ⟨.angstrom1918, some .unsworth1975, true, true, some 0, some 600⟩ forest (weather 5 700 2 (5 / 10)) = .ok o ∧
    distribute ⟨.angstrom1918, some .unsworth1975, true, true, some 0, some 600⟩ { forest with tau := fun _ => 4 / 10 } (weather 5 700 2 (5 / 10)) = .ok o' ∧
    |o'.thermal () - o.thermal ()| ≤ |(o.cloud.elim o.clear id) () - 96 / 100 * blackBody 5| * |4 / 10 - 3 / 10| := by
  refine ⟨_, _, rfl, rfl, ?_⟩
  exact C184_canopy ⟨.angstrom1918, some .unsworth1975, true, true, some 0, some 600⟩ forest (fun _ => 4 / 10) (weather 5 700 2 (5 / 10)) _ _ rfl rfl ()

/-- With the method of Crawford in the open the change is exactly that, and at most the black-body radiation times the error. -/
example : ∃ o o' : Out Unit, distribute ⟨.prata1996, some .crawford1999, false, false, none, none⟩ forest (weather 5 700 2 (5 / 10)) = .ok o ∧
    distribute ⟨.prata1996, some .crawford1999, false, false, none, none⟩ forest { weather 5 700 2 (5 / 10) with cloudFactor := fun _ => 6 / 10 } = .ok o' ∧
    |o'.thermal () - o.thermal ()| = |blackBody 5 - o.clear ()| * |6 / 10 - 5 / 10| ∧ |o'.thermal () - o.thermal ()| ≤ blackBody 5 * |6 / 10 - 5 / 10| := by
  have hp := C78_prata 5 (700 / 1000) (by norm_num) (by norm_num)
  refine ⟨_, _, rfl, rfl, ?_, ?_⟩
  · exact C184_sharp .prata1996 false forest (weather 5 700 2 (5 / 10)) (fun _ => 6 / 10) _ _ rfl rfl () (by norm_num [weather]) (by norm_num [forest])
      (by norm_num [forest])
  · exact C184_black ⟨.prata1996, some .crawford1999, false, false, none, none⟩ forest (weather 5 700 2 (5 / 10)) (fun _ => 6 / 10) _ _ rfl rfl ()
      (by norm_num [weather]) (by norm_num [forest]) (by norm_num [forest]) hp.1.le hp.2.le

end Verif.Thermal
