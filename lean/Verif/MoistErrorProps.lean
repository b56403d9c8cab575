import Verif.ViewErrorProps

/-!
C192: how much an error in the vapor pressure can change the thermal radiation of the methods of Dilley, Prata and Angstrom. No new model: two runs of
`Thermal.distribute` (`smrf/distribute/thermal.py:254-342`, `smrf/envphys/thermal/clear_sky.py:30-130`).
-/

namespace Verif.Thermal

open Verif.Vapor Verif.Twostream

/-- Watts per square meter and Pa of vapor pressure, at a temperature in degrees Celsius. -/
noncomputable def moistRate (m : Sky) (ta : ℝ) : ℝ :=
  match m with
  | .marks1979 => 0
  | .dilley1998 => 91 / (ta + 27316 / 100)
  | .prata1996 => 465 / 100 / (ta + 27316 / 100) * blackBody ta
  | .angstrom1918 => 34 / 10 ^ 6 * blackBody ta

theorem exp_drop (x y : ℝ) : Real.exp (-x) - Real.exp (-y) ≤ Real.exp (-x) * (y - x) := by
  have h := Real.add_one_le_exp (-(y - x))
  have e : Real.exp (-y) = Real.exp (-x) * Real.exp (-(y - x)) := by rw [← Real.exp_add]; ring_nf
  rw [e]
  nlinarith [Real.exp_pos (-x)]

theorem angstrom_rate (ta a a' : ℝ) (h0 : 0 ≤ a) (h : a ≤ a') : angstrom ta a' - angstrom ta a ≤ 34 / 1000 * blackBody ta * (a' - a) := by
  have hb := blackBody_nonneg ta
  have l0 : 0 ≤ Real.log 10 := Real.log_nonneg (by norm_num)
  have l1 : Real.log 10 ≤ 28 / 10 := by
    have h1 : Real.log 10 ≤ Real.log (2 ^ 4) := Real.log_le_log (by norm_num) (by norm_num)
    rw [Real.log_pow] at h1
    have := Real.log_two_lt_d9
    push_cast at h1
    linarith
  have p (b : ℝ) : (10 : ℝ) ^ (-(67 / 1000) * b) = Real.exp (-(67 / 1000 * Real.log 10 * b)) := by
    rw [Real.rpow_def_of_pos (by norm_num)]
    ring_nf
  have d := exp_drop (67 / 1000 * Real.log 10 * a) (67 / 1000 * Real.log 10 * a')
  have e1 : Real.exp (-(67 / 1000 * Real.log 10 * a)) ≤ 1 := by
    rw [Real.exp_le_one_iff]
    have : 0 ≤ 67 / 1000 * Real.log 10 * a := by positivity
    linarith
  have w0 : 0 ≤ 67 / 1000 * Real.log 10 * a' - 67 / 1000 * Real.log 10 * a := by
    rw [← mul_sub]
    exact mul_nonneg (by positivity) (by linarith)
  have d2 := mul_le_mul_of_nonneg_right e1 w0
  have d3 : 67 / 1000 * Real.log 10 * a' - 67 / 1000 * Real.log 10 * a ≤ 1876 / 10000 * (a' - a) := by
    nlinarith
  unfold angstrom
  simp only
  rw [longWave_eq, longWave_eq, ← sub_mul, p, p]
  have : 83 / 100 - 18 / 100 * Real.exp (-(67 / 1000 * Real.log 10 * a')) - (83 / 100 - 18 / 100 * Real.exp (-(67 / 1000 * Real.log 10 * a))) ≤
      34 / 1000 * (a' - a) := by linarith
  calc _ ≤ 34 / 1000 * (a' - a) * blackBody ta := mul_le_mul_of_nonneg_right this hb
    _ = _ := by ring

theorem prataE_rate (w w' : ℝ) (h0 : 0 ≤ w) (h : w ≤ w') :
    (1 - (1 + w') * Real.exp (-Real.sqrt (12 / 10 + 3 * w'))) - (1 - (1 + w) * Real.exp (-Real.sqrt (12 / 10 + 3 * w))) ≤ w' - w := by
  have q : Real.sqrt (12 / 10 + 3 * w) ^ 2 = 12 / 10 + 3 * w := Real.sq_sqrt (by linarith)
  have q' : Real.sqrt (12 / 10 + 3 * w') ^ 2 = 12 / 10 + 3 * w' := Real.sq_sqrt (by linarith)
  have s1 : 1 ≤ Real.sqrt (12 / 10 + 3 * w) := Real.one_le_sqrt.2 (by linarith)
  have ss : Real.sqrt (12 / 10 + 3 * w) ≤ Real.sqrt (12 / 10 + 3 * w') := Real.sqrt_le_sqrt (by linarith)
  revert q q' s1 ss
  generalize Real.sqrt (12 / 10 + 3 * w) = s
  generalize Real.sqrt (12 / 10 + 3 * w') = s'
  intro q q' s1 ss
  have d := exp_drop s s'
  have e0 := Real.exp_pos (-s)
  have e0' := Real.exp_pos (-s')
  have f : Real.exp (-s) * (1 + s + s ^ 2 / 2) ≤ 1 := by
    have := Real.quadratic_le_exp_of_nonneg (by linarith : 0 ≤ s)
    rw [Real.exp_neg]
    rw [inv_mul_le_iff₀ (Real.exp_pos s)]
    linarith
  have g : (1 + w) * Real.exp (-s) ≤ 2 / 3 := by
    have : 1 + w = (s ^ 2 + 18 / 10) / 3 := by linarith
    rw [this]
    nlinarith
  have k : s' - s ≤ 3 / 2 * (w' - w) := by nlinarith
  have m1 : (1 + w) * (Real.exp (-s) - Real.exp (-s')) ≤ (1 + w) * (Real.exp (-s) * (s' - s)) := mul_le_mul_of_nonneg_left d (by linarith)
  have m2 : (1 + w) * Real.exp (-s) * (s' - s) ≤ 2 / 3 * (s' - s) := mul_le_mul_of_nonneg_right g (by linarith)
  have m3 : 0 ≤ (w' - w) * Real.exp (-s') := mul_nonneg (by linarith) e0'.le
  linarith

theorem prata_rate (ta a a' : ℝ) (ht : -(27316 / 100) < ta) (h0 : 0 ≤ a) (h : a ≤ a') :
    prata ta a' - prata ta a ≤ 4650 / (ta + 27316 / 100) * blackBody ta * (a' - a) := by
  have hb := blackBody_nonneg ta
  have hT : 0 < ta + freeze := by unfold freeze; linarith
  unfold prata
  simp only
  rw [longWave_eq, longWave_eq, ← sub_mul]
  have w0 : 0 ≤ precipitableWater (ta + freeze) a := by unfold precipitableWater; positivity
  have ww : precipitableWater (ta + freeze) a' - precipitableWater (ta + freeze) a = 4650 / (ta + 27316 / 100) * (a' - a) := by
    unfold precipitableWater freeze
    ring
  have w1 : precipitableWater (ta + freeze) a ≤ precipitableWater (ta + freeze) a' := by
    unfold precipitableWater
    gcongr
  have := prataE_rate _ _ w0 w1
  rw [ww] at this
  calc _ ≤ 4650 / (ta + 27316 / 100) * (a' - a) * blackBody ta := mul_le_mul_of_nonneg_right this hb
    _ = _ := by ring

theorem dilley_rate (ta a a' : ℝ) (ht : -(27316 / 100) < ta) (ht2 : ta ≤ 98) (h0 : 2 / 100 ≤ a) (h : a ≤ a') :
    dilley ta a' - dilley ta a ≤ 91000 / (ta + 27316 / 100) * (a' - a) := by
  have hT : 0 < ta + 27316 / 100 := by linarith
  unfold dilley precipitableWater freeze
  simp only
  have q : Real.sqrt (4650 * a / (ta + 27316 / 100) / 25) ^ 2 = 4650 * a / (ta + 27316 / 100) / 25 := Real.sq_sqrt (by positivity)
  have q' : Real.sqrt (4650 * a' / (ta + 27316 / 100) / 25) ^ 2 = 4650 * a' / (ta + 27316 / 100) / 25 :=
    Real.sq_sqrt (by have : 0 ≤ a' := by linarith
                     positivity)
  have s1 : 1 / 10 ≤ Real.sqrt (4650 * a / (ta + 27316 / 100) / 25) := by
    apply Real.le_sqrt_of_sq_le
    rw [le_div_iff₀ (by norm_num), le_div_iff₀ hT]
    linarith
  have ss : Real.sqrt (4650 * a / (ta + 27316 / 100) / 25) ≤ Real.sqrt (4650 * a' / (ta + 27316 / 100) / 25) := by
    apply Real.sqrt_le_sqrt
    gcongr
  have e : 4650 * a' / (ta + 27316 / 100) / 25 - 4650 * a / (ta + 27316 / 100) / 25 = 186 / (ta + 27316 / 100) * (a' - a) := by ring
  rw [← q, ← q'] at e
  revert e s1 ss
  generalize Real.sqrt (4650 * a / (ta + 27316 / 100) / 25) = s
  generalize Real.sqrt (4650 * a' / (ta + 27316 / 100) / 25) = s'
  intro s1 ss e
  have k : s' - s ≤ 5 * (186 / (ta + 27316 / 100) * (a' - a)) := by nlinarith
  have r0 : 0 ≤ 1 / (ta + 27316 / 100) * (a' - a) := mul_nonneg (by positivity) (by linarith)
  have e1 : 186 / (ta + 27316 / 100) * (a' - a) = 186 * (1 / (ta + 27316 / 100) * (a' - a)) := by ring
  have e2 : 91000 / (ta + 27316 / 100) * (a' - a) = 91000 * (1 / (ta + 27316 / 100) * (a' - a)) := by ring
  rw [e1] at k
  rw [e2]
  linarith

/-- The clear-sky radiation of one cell, before terrain. -/
noncomputable def skyCell (m : Sky) (ta vp : ℝ) : ℝ :=
  match m with
  | .marks1979 => 0
  | .dilley1998 => dilley ta (vp / 1000)
  | .prata1996 => prata ta (vp / 1000)
  | .angstrom1918 => angstrom ta (vp / 1000)

theorem sky_step (m : Sky) (ta v v' : ℝ) (ht : -(27316 / 100) < ta) (ht2 : ta ≤ 98) (h0 : 20 ≤ v) (h : v ≤ v') :
    0 ≤ skyCell m ta v' - skyCell m ta v ∧ skyCell m ta v' - skyCell m ta v ≤ moistRate m ta * (v' - v) := by
  have d0 : 0 ≤ v / 1000 := by linarith
  have d1 : v / 1000 ≤ v' / 1000 := by linarith
  cases m with
  | marks1979 => simp [skyCell, moistRate]
  | dilley1998 =>
    refine ⟨sub_nonneg.2 (dilley_moist _ _ _ ht d1), (dilley_rate ta _ _ ht ht2 (by linarith) d1).trans (le_of_eq ?_)⟩
    simp only [moistRate]
    ring
  | prata1996 =>
    refine ⟨?_, (prata_rate ta _ _ ht d0 d1).trans (le_of_eq ?_)⟩
    · rcases d1.eq_or_lt with e | l
      · simp only [skyCell, e, sub_self, le_refl]
      · have hp := (C78_prata_shape ta _ _ ht d0 l).2
        simp only [skyCell]
        linarith
    · simp only [moistRate]
      ring
  | angstrom1918 =>
    refine ⟨sub_nonneg.2 (C78_angstrom ta _ _ ht d0 d1).2.2, (angstrom_rate ta _ _ d0 d1).trans (le_of_eq ?_)⟩
    simp only [moistRate]
    ring

theorem sky_near (m : Sky) (ta v v' : ℝ) (ht : -(27316 / 100) < ta) (ht2 : ta ≤ 98) (h0 : 20 ≤ v) (h0' : 20 ≤ v') :
    |skyCell m ta v' - skyCell m ta v| ≤ moistRate m ta * |v' - v| := by
  rcases le_total v v' with h | h
  · have := sky_step m ta v v' ht ht2 h0 h
    rw [abs_of_nonneg this.1, abs_of_nonneg (sub_nonneg.2 h)]
    exact this.2
  · have := sky_step m ta v' v ht ht2 h0' h
    rw [abs_sub_comm, abs_of_nonneg this.1, abs_sub_comm v', abs_of_nonneg (sub_nonneg.2 h)]
    exact this.2

theorem clear_moist {ι : Type} (c : Cfg) (hm : c.sky ≠ .marks1979) (g : Maps ι) (x : In ι) (o : Out ι) (h : distribute c g x = .ok o) (i : ι) :
    o.clear i = if c.terrain = true then skyCell c.sky (x.airTemp i) (x.vapor i) * g.svf i + (1 - g.svf i) * stefBoltz * x.airTemp i ^ 4
      else skyCell c.sky (x.airTemp i) (x.vapor i) := by
  obtain ⟨a, a1, a2⟩ := clear_cell c g x o h
  have e : a = fun i => skyCell c.sky (x.airTemp i) (x.vapor i) := by
    rcases hsk : c.sky <;> rw [hsk] at a1 hm
    · exact absurd rfl hm
    all_goals (simp only [clearSky] at a1; cases a1; rfl)
  rw [a2, e]
  cases ht : c.terrain <;> simp [terrain, hm]

/-- An error in the vapor pressure: terrain, every cloud method but that of Kimball, canopy and limits. Missing: the method of Kimball, where the clouds read the
vapor pressure too, and that of Marks, which reads the dew point instead. -/
theorem C192_vapor_partial {ι : Type} (c : Cfg) (hm : c.sky ≠ .marks1979) (hk : c.cloud ≠ some .kimball1982) (g : Maps ι) (x : In ι) (vp' : ι → ℝ)
    (o o' : Out ι) (h : distribute c g x = .ok o) (h' : distribute c g { x with vapor := vp' } = .ok o') (i : ι)
    (ht : -(27316 / 100) < x.airTemp i) (ht2 : x.airTemp i ≤ 98) (p0 : 20 ≤ x.vapor i) (p1 : 20 ≤ vp' i) (s0 : 0 ≤ g.svf i) (s1 : g.svf i ≤ 1)
    (t0 : 0 ≤ g.tau i) (t1 : g.tau i ≤ 1) (c0 : 0 ≤ x.cloudFactor i) (c1 : x.cloudFactor i ≤ 1) :
    |o'.clear i - o.clear i| ≤ moistRate c.sky (x.airTemp i) * |vp' i - x.vapor i| ∧
    |o'.thermal i - o.thermal i| ≤ 1485 / 1000 * (moistRate c.sky (x.airTemp i) * |vp' i - x.vapor i|) := by
  have k := sky_near c.sky (x.airTemp i) (x.vapor i) (vp' i) ht ht2 p0 p1
  have hcl : |o'.clear i - o.clear i| ≤ moistRate c.sky (x.airTemp i) * |vp' i - x.vapor i| := by
    rw [clear_moist c hm g x o h i, clear_moist c hm g _ o' h' i]
    cases c.terrain
    · simpa using k
    · simp only [if_true]
      rw [show skyCell c.sky (x.airTemp i) (vp' i) * g.svf i + (1 - g.svf i) * stefBoltz * x.airTemp i ^ 4 -
        (skyCell c.sky (x.airTemp i) (x.vapor i) * g.svf i + (1 - g.svf i) * stefBoltz * x.airTemp i ^ 4) =
        (skyCell c.sky (x.airTemp i) (vp' i) - skyCell c.sky (x.airTemp i) (x.vapor i)) * g.svf i by ring, abs_mul, abs_of_nonneg s0]
      nlinarith [abs_nonneg (skyCell c.sky (x.airTemp i) (vp' i) - skyCell c.sky (x.airTemp i) (x.vapor i))]
  refine ⟨hcl, ?_⟩
  obtain ⟨a, a1, a2⟩ := clear_cell c g x o h
  obtain ⟨b, b1, b2⟩ := clear_cell c g _ o' h'
  obtain ⟨d, d1, d2⟩ := step_cell c g x o h
  obtain ⟨e, e1, e2⟩ := step_cell c g _ o' h'
  rw [a1] at d1
  rw [b1] at e1
  cases d1
  cases e1
  rw [d2 i, e2 i, ← a2, ← b2]
  unfold later
  simp only
  have hcd : |(c.cloud.elim (o'.clear i) fun m => cloudCell m (o'.clear i) (x.airTemp i) (vp' i) (x.cloudFactor i)) -
      (c.cloud.elim (o.clear i) fun m => cloudCell m (o.clear i) (x.airTemp i) (x.vapor i) (x.cloudFactor i))| ≤
        1485 / 1000 * |o'.clear i - o.clear i| := by
    rcases hcc : c.cloud with _ | m
    · simp only [Option.elim]
      linarith [abs_nonneg (o'.clear i - o.clear i)]
    · have hv : cloudCell m (o'.clear i) (x.airTemp i) (vp' i) (x.cloudFactor i) = cloudCell m (o'.clear i) (x.airTemp i) (x.vapor i) (x.cloudFactor i) := by
        cases m
        case kimball1982 => exact absurd hcc hk
        all_goals rfl
      simp only [Option.elim]
      rw [hv]
      exact cloud_pass m _ _ _ _ _ ht c0 c1
  refine ((Solar.clamp_near c.lo c.hi _ _).trans ?_).trans (mul_le_mul_of_nonneg_left hcl (by norm_num))
  split
  · exact (canopy_near _ _ _ _ _ t0 t1).trans hcd
  · exact hcd

/-- The full claim: some number of watts per Pa, for all vapor pressures that are not negative. -/
def C192_full : Prop := ∀ m : Sky, m ≠ .marks1979 → ∃ K : ℝ, ∀ (o o' : Out Unit) (v v' : ℝ), 0 ≤ v → 0 ≤ v' →
  distribute (bare m none false) forest (weather 0 v 0 1) = .ok o → distribute (bare m none false) forest (weather 0 v' 0 1) = .ok o' →
    |o'.thermal () - o.thermal ()| ≤ K * |v' - v|

/-- With the method of Dilley no number of watts per Pa holds in dry air: the radiation has the root of the vapor pressure. The default minimum of 20 Pa
keeps away from this. -/
theorem C192_dry_fails (ta K : ℝ) (ht : -(27316 / 100) < ta) : ∃ v, 0 < v ∧ K * v < dilley ta (v / 1000) - dilley ta 0 := by
  have hT : 0 < ta + 27316 / 100 := by linarith
  have hD : 0 < 1 + |K| * (ta + 27316 / 100) := by positivity
  refine ⟨25 * (ta + 27316 / 100) / (465 / 100) * (1 / (1 + |K| * (ta + 27316 / 100))) ^ 2, by positivity, ?_⟩
  unfold dilley precipitableWater freeze
  simp only
  have e : 4650 * (25 * (ta + 27316 / 100) / (465 / 100) * (1 / (1 + |K| * (ta + 27316 / 100))) ^ 2 / 1000) / (ta + 27316 / 100) / 25 =
      (1 / (1 + |K| * (ta + 27316 / 100))) ^ 2 := by
    generalize (1 / (1 + |K| * (ta + 27316 / 100))) ^ 2 = u
    revert hT
    generalize ta + 27316 / 100 = T
    intro hT
    field_simp
    ring
  rw [e, Real.sqrt_sq (by positivity), mul_zero, zero_div, zero_div, Real.sqrt_zero]
  have u0 : 0 < 1 / (1 + |K| * (ta + 27316 / 100)) := by positivity
  have u1 : (1 + |K| * (ta + 27316 / 100)) * (1 / (1 + |K| * (ta + 27316 / 100))) = 1 := mul_one_div_cancel hD.ne'
  revert u0 u1
  generalize 1 / (1 + |K| * (ta + 27316 / 100)) = u
  intro u0 u1
  have a1 : |K| * (ta + 27316 / 100) * u ≤ 1 := by nlinarith
  have a2 : K * (ta + 27316 / 100) * u ≤ 1 := by
    have := mul_le_mul_of_nonneg_right (mul_le_mul_of_nonneg_right (le_abs_self K) hT.le) u0.le
    linarith
  have a3 : K * (ta + 27316 / 100) * u * u ≤ 1 * u := mul_le_mul_of_nonneg_right a2 u0.le
  have e2 : K * (25 * (ta + 27316 / 100) / (465 / 100) * u ^ 2) = 25 / (465 / 100) * (K * (ta + 27316 / 100) * u * u) := by ring
  rw [e2]
  linarith

theorem C192_fails : ¬ C192_full := by
  intro hall
  obtain ⟨K, hK⟩ := hall .dilley1998 (by simp)
  obtain ⟨v, v0, hv⟩ := C192_dry_fails 0 K (by norm_num)
  have h := hK _ _ 0 v le_rfl v0.le rfl rfl
  simp only [bare, weather, terrain, Solar.clamp, Option.map_none, Option.elim, Bool.false_eq_true, if_false, zero_div, sub_zero, abs_of_pos v0] at h
  have := (le_abs_self _).trans h
  linarith

/-! ### The hypotheses are met -/

/-- A forest cell under clouds, 650 Pa instead of 700. -/
example : ∃ o o' : Out Unit, distribute ⟨.prata1996, some .unsworth1975, true, true, some 0, some 600⟩ forest (weather 5 700 2 (5 / 10)) = .ok o ∧
    distribute ⟨.prata1996, some .unsworth1975, true, true, some 0, some 600⟩ forest { weather 5 700 2 (5 / 10) with vapor := fun _ => 650 } = .ok o' ∧
    |o'.thermal () - o.thermal ()| ≤ 1485 / 1000 * (465 / 100 / (5 + 27316 / 100) * blackBody 5 * |650 - 700|) := by
  refine ⟨_, _, rfl, rfl, ?_⟩
  exact (C192_vapor_partial ⟨.prata1996, some .unsworth1975, true, true, some 0, some 600⟩ (by simp) (by simp) forest (weather 5 700 2 (5 / 10)) (fun _ => 650)
    _ _ rfl rfl () (by norm_num [weather]) (by norm_num [weather]) (by norm_num [weather]) (by norm_num) (by norm_num [forest]) (by norm_num [forest])
    (by norm_num [forest]) (by norm_num [forest]) (by norm_num [weather]) (by norm_num [weather])).2

end Verif.Thermal
