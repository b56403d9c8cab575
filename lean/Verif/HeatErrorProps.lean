import Verif.MoistErrorProps

/-!
C194: how much an error in the air temperature can change the thermal radiation of the methods of Dilley, Prata and Angstrom. No new model: two runs of
`Thermal.distribute` (`smrf/distribute/thermal.py:254-342`, `smrf/envphys/thermal/*.py`).
-/

namespace Verif.Thermal

open Verif.Vapor Verif.Twostream

theorem fourth_rise (s t : ℝ) (hs : 0 ≤ s) (h : s ≤ t) : t ^ 4 - s ^ 4 ≤ 4 * t ^ 3 * (t - s) := by
  have e : 4 * t ^ 3 * (t - s) - (t ^ 4 - s ^ 4) = (t - s) ^ 2 * (3 * t ^ 2 + 2 * t * s + s ^ 2) := by ring
  have ht := hs.trans h
  have : 0 ≤ (t - s) ^ 2 * (3 * t ^ 2 + 2 * t * s + s ^ 2) := by positivity
  linarith

/-- Black-body radiation up to 59 degrees: at most 8.4 watts per square meter and degree. -/
theorem black_rise (t t' : ℝ) (h0 : -(27316 / 100) < t) (h : t ≤ t') (h1 : t' ≤ 59) :
    0 ≤ blackBody t' - blackBody t ∧ blackBody t' - blackBody t ≤ 84 / 10 * (t' - t) := by
  refine ⟨sub_nonneg.2 (blackBody_mono h0 h), ?_⟩
  have k := fourth_rise (t + 27316 / 100) (t' + 27316 / 100) (by linarith) (by linarith)
  have c : (t' + 27316 / 100) ^ 3 ≤ 333 ^ 3 := pow_le_pow_left₀ (by linarith) (by linarith) 3
  have m := mul_le_mul_of_nonneg_right c (sub_nonneg.2 h)
  unfold blackBody
  linarith

/-- The clear sky of the three methods. -/
theorem sky_warm (m : Sky) (t t' vp : ℝ) (h0 : -63 ≤ t) (h : t ≤ t') (h1 : t' ≤ 59) (p0 : 0 ≤ vp) (p1 : vp ≤ 5000) :
    0 ≤ skyCell m t' vp - skyCell m t vp ∧ skyCell m t' vp - skyCell m t vp ≤ 84 / 10 * (t' - t) := by
  have ht : -(27316 / 100) < t := by linarith
  obtain ⟨b0, b1⟩ := black_rise t t' ht h h1
  have d0 : 0 ≤ vp / 1000 := by linarith
  cases m with
  | marks1979 =>
    simp only [skyCell, sub_self, le_refl, true_and]
    linarith
  | dilley1998 =>
    refine ⟨sub_nonneg.2 (dilley_hot t t' _ h0 h d0 (by linarith)), ?_⟩
    simp only [skyCell]
    unfold dilley precipitableWater freeze
    simp only
    have w : Real.sqrt (4650 * (vp / 1000) / (t' + 27316 / 100) / 25) ≤ Real.sqrt (4650 * (vp / 1000) / (t + 27316 / 100) / 25) := by
      apply Real.sqrt_le_sqrt
      have : 0 < t + 27316 / 100 := by linarith
      gcongr
    have x0 : 0 ≤ (t + 27316 / 100) / (27316 / 100) := div_nonneg (by linarith) (by norm_num)
    have xy : (t + 27316 / 100) / (27316 / 100) ≤ (t' + 27316 / 100) / (27316 / 100) := by gcongr
    have y1 : (t' + 27316 / 100) / (27316 / 100) ≤ 1216 / 1000 := by
      rw [div_le_iff₀ (by norm_num)]
      linarith
    have e : (t' + 27316 / 100) / (27316 / 100) - (t + 27316 / 100) / (27316 / 100) = (t' - t) / (27316 / 100) := by ring
    revert x0 xy y1 e
    generalize (t + 27316 / 100) / (27316 / 100) = x
    generalize (t' + 27316 / 100) / (27316 / 100) = y
    intro x0 xy y1 e
    have y0 := x0.trans xy
    have six : y ^ 6 - x ^ 6 ≤ 6 * y ^ 5 * (y - x) := by
      have e6 : 6 * y ^ 5 * (y - x) - (y ^ 6 - x ^ 6) = (y - x) ^ 2 * (5 * y ^ 4 + 4 * y ^ 3 * x + 3 * y ^ 2 * x ^ 2 + 2 * y * x ^ 3 + x ^ 4) := by ring
      have : 0 ≤ (y - x) ^ 2 * (5 * y ^ 4 + 4 * y ^ 3 * x + 3 * y ^ 2 * x ^ 2 + 2 * y * x ^ 3 + x ^ 4) := by positivity
      linarith
    have y5 : y ^ 5 ≤ (1216 / 1000) ^ 5 := pow_le_pow_left₀ y0 y1 5
    have m := mul_le_mul_of_nonneg_right y5 (sub_nonneg.2 xy)
    rw [e] at m six
    linarith
  | prata1996 =>
    refine ⟨sub_nonneg.2 (prata_hot t t' _ ht h d0), ?_⟩
    simp only [skyCell]
    have hT : 0 < t + freeze := by unfold freeze; linarith
    have w0 : 0 ≤ precipitableWater (t' + freeze) (vp / 1000) := by
      have : 0 < t' + freeze := by linarith
      unfold precipitableWater
      positivity
    have ww : precipitableWater (t' + freeze) (vp / 1000) ≤ precipitableWater (t + freeze) (vp / 1000) := by
      unfold precipitableWater
      gcongr
    have hE : (1 - (1 + precipitableWater (t' + freeze) (vp / 1000)) * Real.exp (-Real.sqrt (12 / 10 + 3 * precipitableWater (t' + freeze) (vp / 1000)))) * blackBody t
        ≤ prata t (vp / 1000) := by
      -- at the lower temperature there is more water and so a higher emissivity
      have hTt : 0 < t' + freeze := by linarith
      have hs := C78_prata_shape t (precipitableWater (t' + freeze) (vp / 1000) * (t + freeze) / 4650) (vp / 1000) ht
        (by positivity)
      have eq : prata t (precipitableWater (t' + freeze) (vp / 1000) * (t + freeze) / 4650) =
          (1 - (1 + precipitableWater (t' + freeze) (vp / 1000)) * Real.exp (-Real.sqrt (12 / 10 + 3 * precipitableWater (t' + freeze) (vp / 1000)))) * blackBody t := by
        unfold prata
        simp only
        rw [longWave_eq]
        have : precipitableWater (t + freeze) (precipitableWater (t' + freeze) (vp / 1000) * (t + freeze) / 4650) = precipitableWater (t' + freeze) (vp / 1000) := by
          generalize precipitableWater (t' + freeze) (vp / 1000) = w
          unfold precipitableWater
          field_simp
        rw [this]
      rw [← eq]
      have le : precipitableWater (t' + freeze) (vp / 1000) * (t + freeze) / 4650 ≤ vp / 1000 := by
        have := mul_le_mul_of_nonneg_right ww hT.le
        have e2 : precipitableWater (t + freeze) (vp / 1000) * (t + freeze) = 4650 * (vp / 1000) := by
          unfold precipitableWater
          field_simp
        linarith
      rcases le.eq_or_lt with q | q
      · rw [q]
      · exact (hs q).2.le
    have top : prata t' (vp / 1000) =
        (1 - (1 + precipitableWater (t' + freeze) (vp / 1000)) * Real.exp (-Real.sqrt (12 / 10 + 3 * precipitableWater (t' + freeze) (vp / 1000)))) * blackBody t' := by
      unfold prata
      simp only
      rw [longWave_eq]
    have e1 : 1 - (1 + precipitableWater (t' + freeze) (vp / 1000)) * Real.exp (-Real.sqrt (12 / 10 + 3 * precipitableWater (t' + freeze) (vp / 1000))) ≤ 1 := by
      have : 0 ≤ (1 + precipitableWater (t' + freeze) (vp / 1000)) * Real.exp (-Real.sqrt (12 / 10 + 3 * precipitableWater (t' + freeze) (vp / 1000))) := by positivity
      linarith
    have m := mul_le_mul_of_nonneg_right e1 b0
    rw [top]
    linarith
  | angstrom1918 =>
    refine ⟨sub_nonneg.2 (angstrom_hot t t' _ ht h d0), ?_⟩
    simp only [skyCell]
    unfold angstrom
    simp only
    rw [longWave_eq, longWave_eq, ← mul_sub]
    have y0 : 0 < (10 : ℝ) ^ (-(67 / 1000) * (vp / 1000)) := Real.rpow_pos_of_pos (by norm_num) _
    have m := mul_le_mul_of_nonneg_right (show 83 / 100 - 18 / 100 * (10 : ℝ) ^ (-(67 / 1000) * (vp / 1000)) ≤ 1 by linarith) b0
    linarith

/-- The range of the temperatures. -/
def Usual (t : ℝ) : Prop := -63 ≤ t ∧ t ≤ 59

theorem black_near (t t' : ℝ) (h : Usual t) (h' : Usual t') : |blackBody t' - blackBody t| ≤ 84 / 10 * |t' - t| := by
  obtain ⟨a, b⟩ := h
  obtain ⟨a', b'⟩ := h'
  rcases le_total t t' with q | q
  · have := black_rise t t' (by linarith) q b'
    rw [abs_of_nonneg this.1, abs_of_nonneg (sub_nonneg.2 q)]
    exact this.2
  · have := black_rise t' t (by linarith) q b
    rw [abs_sub_comm, abs_of_nonneg this.1, abs_sub_comm t', abs_of_nonneg (sub_nonneg.2 q)]
    exact this.2

theorem sky_warm_near (m : Sky) (t t' vp : ℝ) (h : Usual t) (h' : Usual t') (p0 : 0 ≤ vp) (p1 : vp ≤ 5000) :
    |skyCell m t' vp - skyCell m t vp| ≤ 84 / 10 * |t' - t| := by
  obtain ⟨a, b⟩ := h
  obtain ⟨a', b'⟩ := h'
  rcases le_total t t' with q | q
  · have := sky_warm m t t' vp a q b' p0 p1
    rw [abs_of_nonneg this.1, abs_of_nonneg (sub_nonneg.2 q)]
    exact this.2
  · have := sky_warm m t' t vp a' q b p0 p1
    rw [abs_sub_comm, abs_of_nonneg this.1, abs_sub_comm t', abs_of_nonneg (sub_nonneg.2 q)]
    exact this.2

/-- The terrain term of the code, with the temperature in degrees Celsius. -/
theorem celsius_near (t t' : ℝ) (h : Usual t) (h' : Usual t') : |stefBoltz * t' ^ 4 - stefBoltz * t ^ 4| ≤ 84 / 10 * |t' - t| := by
  obtain ⟨a, b⟩ := h
  obtain ⟨a', b'⟩ := h'
  have e : stefBoltz * t' ^ 4 - stefBoltz * t ^ 4 = stefBoltz * ((t' + t) * (t' ^ 2 + t ^ 2)) * (t' - t) := by ring
  rw [e, abs_mul]
  refine mul_le_mul_of_nonneg_right ?_ (abs_nonneg _)
  have s1 : |t' + t| ≤ 126 := by rw [_root_.abs_le]; constructor <;> linarith
  have s2 : t' ^ 2 + t ^ 2 ≤ 7938 := by nlinarith
  have s3 : 0 ≤ t' ^ 2 + t ^ 2 := by positivity
  rw [abs_mul, abs_of_pos stefBoltz_pos, abs_mul, abs_of_nonneg s3]
  have := mul_le_mul s1 s2 s3 (by norm_num)
  unfold stefBoltz
  linarith

/-- A mean of two errors. -/
theorem mean_near (w a a' b b' D : ℝ) (w0 : 0 ≤ w) (w1 : w ≤ 1) (ha : |a' - a| ≤ D) (hb : |b' - b| ≤ D) :
    |(w * a' + (1 - w) * b') - (w * a + (1 - w) * b)| ≤ D := by
  have e : (w * a' + (1 - w) * b') - (w * a + (1 - w) * b) = w * (a' - a) + (1 - w) * (b' - b) := by ring
  rw [e]
  refine (abs_add_le _ _).trans ?_
  rw [abs_mul, abs_mul, abs_of_nonneg w0, abs_of_nonneg (by linarith : 0 ≤ 1 - w)]
  have := mul_le_mul_of_nonneg_left ha w0
  have := mul_le_mul_of_nonneg_left hb (by linarith : 0 ≤ 1 - w)
  linarith

/-- An error in the air temperature: the three methods, terrain, clouds but those of Kimball, canopy and limits. At most 12.5 watts per square meter and degree,
8.4 at a clear sky. -/
theorem C194_temperature {ι : Type} (c : Cfg) (hm : c.sky ≠ .marks1979) (hk : c.cloud ≠ some .kimball1982) (g : Maps ι) (x : In ι) (ta' : ι → ℝ)
    (o o' : Out ι) (h : distribute c g x = .ok o) (h' : distribute c g { x with airTemp := ta' } = .ok o') (i : ι)
    (ht : Usual (x.airTemp i)) (ht' : Usual (ta' i)) (p0 : 0 ≤ x.vapor i) (p1 : x.vapor i ≤ 5000) (s0 : 0 ≤ g.svf i) (s1 : g.svf i ≤ 1)
    (t0 : 0 ≤ g.tau i) (t1 : g.tau i ≤ 1) (c0 : 0 ≤ x.cloudFactor i) (c1 : x.cloudFactor i ≤ 1) :
    |o'.clear i - o.clear i| ≤ 84 / 10 * |ta' i - x.airTemp i| ∧ |o'.thermal i - o.thermal i| ≤ 125 / 10 * |ta' i - x.airTemp i| := by
  have d0 := abs_nonneg (ta' i - x.airTemp i)
  have k := sky_warm_near c.sky (x.airTemp i) (ta' i) (x.vapor i) ht ht' p0 p1
  have kb := black_near (x.airTemp i) (ta' i) ht ht'
  have hcl : |o'.clear i - o.clear i| ≤ 84 / 10 * |ta' i - x.airTemp i| := by
    rw [clear_moist c hm g x o h i, clear_moist c hm g _ o' h' i]
    cases c.terrain
    · simpa using k
    · simp only [if_true]
      have := mean_near (g.svf i) _ _ _ _ _ s0 s1 k (celsius_near _ _ ht ht')
      rw [show skyCell c.sky (ta' i) (x.vapor i) * g.svf i + (1 - g.svf i) * stefBoltz * ta' i ^ 4 =
        g.svf i * skyCell c.sky (ta' i) (x.vapor i) + (1 - g.svf i) * (stefBoltz * ta' i ^ 4) by ring,
        show skyCell c.sky (x.airTemp i) (x.vapor i) * g.svf i + (1 - g.svf i) * stefBoltz * x.airTemp i ^ 4 =
        g.svf i * skyCell c.sky (x.airTemp i) (x.vapor i) + (1 - g.svf i) * (stefBoltz * x.airTemp i ^ 4) by ring]
      exact this
  refine ⟨hcl, ?_⟩
  obtain ⟨a, a1, a2⟩ := clear_cell c g x o h
  obtain ⟨b, b1, b2⟩ := clear_cell c g _ o' h'
  obtain ⟨d, d1, d2⟩ := step_cell c g x o h
  obtain ⟨e, e1, e2⟩ := step_cell c g _ o' h'
  rw [a1] at d1
  rw [b1] at e1
  cases d1
  cases e1
  rw [d2 i, e2 i, ← a2, ← b2]
  unfold later
  simp only
  have lo : -(27316 / 100) < x.airTemp i := by have := ht.1; linarith
  have lo' : -(27316 / 100) < ta' i := by have := ht'.1; linarith
  have hcd : |(c.cloud.elim (o'.clear i) fun m => cloudCell m (o'.clear i) (ta' i) (x.vapor i) (x.cloudFactor i)) -
      (c.cloud.elim (o.clear i) fun m => cloudCell m (o.clear i) (x.airTemp i) (x.vapor i) (x.cloudFactor i))| ≤
        125 / 10 * |ta' i - x.airTemp i| := by
    rcases hcc : c.cloud with _ | m
    · simp only [Option.elim]
      linarith
    · simp only [Option.elim]
      cases m
      case kimball1982 => exact absurd hcc hk
      case garen2005 =>
        have := cloud_pass .garen2005 (o.clear i) (o'.clear i) (x.airTemp i) (x.vapor i) (x.cloudFactor i) lo c0 c1
        refine (this : |cloudCell .garen2005 (o'.clear i) (ta' i) (x.vapor i) (x.cloudFactor i) - _| ≤ _).trans ?_
        linarith
      case unsworth1975 =>
        simp only [cloudCell]
        rw [unsworth_eq _ _ _ lo, unsworth_eq _ _ _ lo']
        have := mean_near (1 - 84 / 100 * (1 - x.cloudFactor i)) _ _ _ _ _ (by linarith) (by linarith) hcl kb
        refine (le_of_eq ?_).trans (this.trans (by linarith))
        congr 1
        ring
      case crawford1999 =>
        simp only [cloudCell]
        rw [crawford_eq, crawford_eq]
        have := mean_near (x.cloudFactor i) _ _ _ _ _ c0 c1 hcl kb
        refine (le_of_eq ?_).trans (this.trans (by linarith))
        congr 1
        ring
  refine (Solar.clamp_near c.lo c.hi _ _).trans ?_
  split
  · unfold correctCanopy
    simp only
    split
    · refine mean_near (g.tau i) _ _ _ _ _ t0 t1 hcd ?_
      have ev (u : ℝ) : stefBoltz * emissVeg * (u + freeze) ^ 4 = 96 / 100 * blackBody u := by
        unfold stefBoltz emissVeg blackBody freeze
        ring
      rw [ev, ev, ← mul_sub, abs_mul, abs_of_pos (by norm_num : (0 : ℝ) < 96 / 100)]
      linarith
    · exact hcd
  · exact hcd

/-- A forest cell under clouds, 6 degrees instead of 5. -/
example : ∃ o o' : Out Unit, distribute ⟨.prata1996, some .garen2005, true, true, some 0, some 600⟩ forest (weather 5 700 2 (5 / 10)) = .ok o ∧
    distribute ⟨.prata1996, some .garen2005, true, true, some 0, some 600⟩ forest { weather 5 700 2 (5 / 10) with airTemp := fun _ => 6 } = .ok o' ∧
    |o'.thermal () - o.thermal ()| ≤ 125 / 10 * |6 - 5| := by
  refine ⟨_, _, rfl, rfl, ?_⟩
  exact (C194_temperature ⟨.prata1996, some .garen2005, true, true, some 0, some 600⟩ (by simp) (by simp) forest (weather 5 700 2 (5 / 10)) (fun _ => 6)
    _ _ rfl rfl () (by norm_num [weather, Usual]) (by norm_num [Usual]) (by norm_num [weather]) (by norm_num [weather]) (by norm_num [forest]) (by norm_num [forest])
    (by norm_num [forest]) (by norm_num [forest]) (by norm_num [weather]) (by norm_num [weather])).2

end Verif.Thermal
