import Verif.ThermalErrorProps
import Verif.MarksWarmProps

/-!
C191: how much an error in the sky view factor can change the thermal radiation. No new model: two runs of `Thermal.distribute`
(`smrf/distribute/thermal.py:254-342`, `smrf/envphys/core/topotherm.c`).
-/

namespace Verif.Thermal

open Verif.Vapor Verif.Twostream

/-- What clouds make of an error in the clear-sky radiation. -/
theorem cloud_pass (m : Cloud) (th th' ta vp cf : ℝ) (ht : -(27316 / 100) < ta) (h0 : 0 ≤ cf) (h1 : cf ≤ 1) :
    |cloudCell m th' ta vp cf - cloudCell m th ta vp cf| ≤ 1485 / 1000 * |th' - th| := by
  have a0 := abs_nonneg (th' - th)
  have key (k : ℝ) (k0 : 0 ≤ k) (k1 : k ≤ 1485 / 1000) (u : ℝ) (hu : u = k * (th' - th)) : |u| ≤ 1485 / 1000 * |th' - th| := by
    rw [hu, abs_mul, abs_of_nonneg k0]
    exact mul_le_mul_of_nonneg_right k1 a0
  cases m with
  | garen2005 =>
    refine key (1485 / 1000 - 488 / 1000 * cf) (by linarith) (by linarith) _ ?_
    simp only [cloudCell, garen]
    ring
  | unsworth1975 =>
    refine key (1 - 84 / 100 * (1 - cf)) (by linarith) (by linarith) _ ?_
    simp only [cloudCell]
    rw [unsworth_eq _ _ _ ht, unsworth_eq _ _ _ ht]
    ring
  | kimball1982 =>
    refine key 1 (by norm_num) (by norm_num) _ ?_
    simp only [cloudCell, kimball]
    ring
  | crawford1999 =>
    refine key cf h0 (by linarith) _ ?_
    simp only [cloudCell]
    rw [crawford_eq, crawford_eq]
    ring

theorem clear_cell {ι : Type} (c : Cfg) (g : Maps ι) (x : In ι) (o : Out ι) (h : distribute c g x = .ok o) :
    ∃ cth, clearSky c.sky g.dem (if c.terrain = true then some g.svf else none) x = .ok cth ∧
      o.clear = terrain c.sky (if c.terrain = true then some g.svf else none) x.airTemp cth := by
  unfold distribute at h
  simp only at h
  split at h
  · cases h
  · rename_i cth hc
    cases h
    exact ⟨cth, hc, rfl⟩

/-- Clouds, canopy and limits enlarge an error in the clear-sky radiation by at most 48.5 percent. -/
theorem later_pass {ι : Type} (c : Cfg) (g : Maps ι) (v' : ι → ℝ) (x : In ι) (o o' : Out ι) (h : distribute c g x = .ok o)
    (h' : distribute c { g with svf := v' } x = .ok o') (i : ι) (ht : -(27316 / 100) < x.airTemp i) (t0 : 0 ≤ g.tau i) (t1 : g.tau i ≤ 1)
    (c0 : 0 ≤ x.cloudFactor i) (c1 : x.cloudFactor i ≤ 1) :
    |o'.thermal i - o.thermal i| ≤ 1485 / 1000 * |o'.clear i - o.clear i| := by
  obtain ⟨a, a1, a2⟩ := clear_cell c g x o h
  obtain ⟨b, b1, b2⟩ := clear_cell c _ x o' h'
  obtain ⟨d, d1, d2⟩ := step_cell c g x o h
  obtain ⟨e, e1, e2⟩ := step_cell c _ x o' h'
  rw [a1] at d1
  rw [b1] at e1
  cases d1
  cases e1
  rw [d2 i, e2 i, ← a2, ← b2]
  unfold later
  simp only
  have hcl : |(c.cloud.elim (o'.clear i) fun m => cloudCell m (o'.clear i) (x.airTemp i) (x.vapor i) (x.cloudFactor i)) -
      (c.cloud.elim (o.clear i) fun m => cloudCell m (o.clear i) (x.airTemp i) (x.vapor i) (x.cloudFactor i))| ≤
        1485 / 1000 * |o'.clear i - o.clear i| := by
    rcases c.cloud with _ | m
    · simp only [Option.elim]
      linarith [abs_nonneg (o'.clear i - o.clear i)]
    · exact cloud_pass m _ _ _ _ _ ht c0 c1
  refine (Solar.clamp_near c.lo c.hi _ _).trans ?_
  split
  · exact (canopy_near _ _ _ _ _ t0 t1).trans hcl
  · exact hcl

/-- The three methods without terrain of their own: the clear-sky radiation changes by exactly the error times the distance between
the radiation of the open sky (a run without terrain correction) and the term for the terrain, which takes the temperature in degrees Celsius (C52). -/
theorem C191_exact {ι : Type} (c : Cfg) (hm : c.sky ≠ .marks1979) (hc : c.terrain = true) (g : Maps ι) (v' : ι → ℝ) (x : In ι) (o o' s : Out ι)
    (h : distribute c g x = .ok o) (h' : distribute c { g with svf := v' } x = .ok o') (hs : distribute { c with terrain := false } g x = .ok s) (i : ι) :
    o'.clear i - o.clear i = (v' i - g.svf i) * (s.clear i - 56697 / 10 ^ 12 * x.airTemp i ^ 4) := by
  obtain ⟨a, a1, a2⟩ := clear_cell c g x o h
  obtain ⟨b, b1, b2⟩ := clear_cell c _ x o' h'
  obtain ⟨d, d1, d2⟩ := clear_cell _ g x s hs
  rw [if_pos hc] at a1 a2 b1 b2
  simp only [Bool.false_eq_true, if_false] at d1 d2
  have e1 : b = a := by
    rcases hsk : c.sky <;> rw [hsk] at a1 b1 hm
    · exact absurd rfl hm
    all_goals (simp only [clearSky] at a1 b1; cases a1; cases b1; rfl)
  have e2 : d = a := by
    rcases hsk : c.sky <;> rw [hsk] at a1 d1 hm
    · exact absurd rfl hm
    all_goals (simp only [clearSky] at a1 d1; cases a1; cases d1; rfl)
  rw [a2, b2, d2, e1, e2]
  unfold terrain
  simp only [if_neg hm, stefBoltz]
  ring

/-- The published image with these methods. -/
theorem C191_view {ι : Type} (c : Cfg) (hm : c.sky ≠ .marks1979) (hc : c.terrain = true) (g : Maps ι) (v' : ι → ℝ) (x : In ι) (o o' s : Out ι)
    (h : distribute c g x = .ok o) (h' : distribute c { g with svf := v' } x = .ok o') (hs : distribute { c with terrain := false } g x = .ok s) (i : ι)
    (ht : -(27316 / 100) < x.airTemp i) (t0 : 0 ≤ g.tau i) (t1 : g.tau i ≤ 1) (c0 : 0 ≤ x.cloudFactor i) (c1 : x.cloudFactor i ≤ 1) :
    |o'.thermal i - o.thermal i| ≤ 1485 / 1000 * (|s.clear i - 56697 / 10 ^ 12 * x.airTemp i ^ 4| * |v' i - g.svf i|) := by
  have := later_pass c g v' x o o' h h' i ht t0 t1 c0 c1
  rw [C191_exact c hm hc g v' x o o' s h h' hs i, abs_mul, mul_comm |v' i - g.svf i|] at this
  exact this

/-- Without the terrain correction the sky view factor is not read. -/
theorem C191_unused {ι : Type} (c : Cfg) (hc : c.terrain = false) (g : Maps ι) (v' : ι → ℝ) (x : In ι) :
    distribute c { g with svf := v' } x = distribute c g x := by
  unfold distribute
  simp [hc]

theorem press_share (ta z : ℝ) (ht : 0 < ta + freeze) (hp : 0 < ta + freeze - lapseM * z) (hz : 0 ≤ z) :
    0 ≤ hysat Vapor.seaLevel (ta + freeze - lapseM * z) stdLapse (z / 1000) gravity molAir / Vapor.seaLevel ∧
      hysat Vapor.seaLevel (ta + freeze - lapseM * z) stdLapse (z / 1000) gravity molAir / Vapor.seaLevel ≤ 1 := by
  have hsea : (0 : ℝ) < Vapor.seaLevel := by norm_num [Vapor.seaLevel]
  have hl : ta + freeze - lapseM * z + stdLapse * (z / 1000) = ta + freeze := by unfold lapseM stdLapse; ring
  constructor
  · refine div_nonneg (hysat_nonneg _ _ _ _ _ _ hsea.le hp ?_) hsea.le
    rw [hl]
    exact ht.le
  · rw [div_le_one hsea]
    unfold hysat
    rw [if_neg (by norm_num [stdLapse]), hl]
    have h1 : 1 ≤ (ta + freeze - lapseM * z) / (ta + freeze) := by
      rw [le_div_iff₀ ht]
      unfold lapseM
      linarith
    have h2 : ((ta + freeze - lapseM * z) / (ta + freeze)) ^ (gravity * molAir / (rgas * stdLapse * (1 / 1000))) ≤ 1 :=
      Real.rpow_le_one_of_one_le_of_nonpos h1 (by norm_num [gravity, molAir, rgas, stdLapse])
    nlinarith

/-- The method of Marks and Dozier at a cell not below the sea. -/
theorem marks_view (ta tw z v v' r r' : ℝ) (h : topothermC ta tw z v = some r) (h' : topothermC ta tw z v' = some r') (hz : 0 ≤ z) :
    |r' - r| ≤ blackBody ta * |v' - v| := by
  obtain ⟨ht, -, hp, rh, hrh, hr⟩ := topothermC_eq h
  obtain ⟨-, -, -, rh', hrh', hr'⟩ := topothermC_eq h'
  rw [← hrh] at hrh'
  subst hrh'
  have hb := blackBody_nonneg ta
  obtain ⟨p0, p1⟩ := press_share ta z ht hp hz
  have e0 : 0 ≤ min (124 / 100 * (rh' * sat (ta + freeze - lapseM * z) / 100 / (ta + freeze - lapseM * z)) ^ (1 / 7 : ℝ)) 1 := by
    have hrh0 : 0 ≤ rh' := by
      rw [hrh]
      exact le_min (div_nonneg (C41_positive _).le (C41_positive _).le) zero_le_one
    apply le_min _ zero_le_one
    have := (C41_positive (ta + freeze - lapseM * z)).le
    positivity
  have e1 := min_le_right (124 / 100 * (rh' * sat (ta + freeze - lapseM * z) / 100 / (ta + freeze - lapseM * z)) ^ (1 / 7 : ℝ)) 1
  have A0 := mul_nonneg e0 p0
  have A1 := mul_le_one₀ e1 p0 p1
  revert hr hr' A0 A1
  generalize min (124 / 100 * (rh' * sat (ta + freeze - lapseM * z) / 100 / (ta + freeze - lapseM * z)) ^ (1 / 7 : ℝ)) 1
      * (hysat Vapor.seaLevel (ta + freeze - lapseM * z) stdLapse (z / 1000) gravity molAir / Vapor.seaLevel) = A
  intro hr hr' A0 A1
  rw [hr, hr', ← sub_mul, abs_mul, abs_of_nonneg hb, mul_comm]
  refine mul_le_mul_of_nonneg_left ?_ hb
  refine (abs_min_sub_min_le_max _ _ _ _).trans ?_
  rw [sub_self, abs_zero, max_eq_left (abs_nonneg (A * v' + (1 - v') - (A * v + (1 - v)))),
    show A * v' + (1 - v') - (A * v + (1 - v)) = -((1 - A) * (v' - v)) by ring, abs_neg, abs_mul, abs_of_nonneg (by linarith : 0 ≤ 1 - A)]
  nlinarith [abs_nonneg (v' - v)]

/-- With the method of Marks and Dozier: at most one and a half times the black-body radiation of the air, times the error. -/
theorem C191_marks {ι : Type} (c : Cfg) (hm : c.sky = .marks1979) (g : Maps ι) (v' : ι → ℝ) (x : In ι) (o o' : Out ι)
    (h : distribute c g x = .ok o) (h' : distribute c { g with svf := v' } x = .ok o') (i : ι) (hz : 0 ≤ g.dem i)
    (t0 : 0 ≤ g.tau i) (t1 : g.tau i ≤ 1) (c0 : 0 ≤ x.cloudFactor i) (c1 : x.cloudFactor i ≤ 1) :
    |o'.clear i - o.clear i| ≤ blackBody (x.airTemp i) * |v' i - g.svf i| ∧
    |o'.thermal i - o.thermal i| ≤ 1485 / 1000 * (blackBody (x.airTemp i) * |v' i - g.svf i|) := by
  have run (g : Maps ι) (o : Out ι) (h : distribute c g x = .ok o) :
      topothermC (x.airTemp i) (x.dew i) (g.dem i) (g.svf i) = some (o.clear i) := by
    obtain ⟨a, a1, a2⟩ := clear_cell c g x o h
    rw [hm] at a1 a2
    cases ht : c.terrain
    · rw [ht] at a1
      simp [clearSky] at a1
    · rw [ht] at a1 a2
      simp only [if_true, clearSky] at a1
      split at a1
      · cases a1
        rw [a2]
        simp [terrain]
      · cases a1
  have r := run g o h
  have r' := run _ o' h'
  have k := marks_view _ _ _ _ _ _ _ r r' hz
  have ht := (topothermC_eq r).1
  unfold freeze at ht
  have l := later_pass c g v' x o o' h h' i (by linarith) t0 t1 c0 c1
  exact ⟨k, l.trans (by linarith)⟩

/-! ### The hypotheses are met -/

/-- A forest cell under clouds, a sky view factor of 0.7 instead of 0.8. -/
example : ∃ o o' s : Out Unit, distribute ⟨.angstrom1918, some .unsworth1975, true, true, some 0, some 600⟩ forest (weather 5 700 2 (5 / 10)) = .ok o ∧
    distribute ⟨.angstrom1918, some .unsworth1975, true, true, some 0, some 600⟩ { forest with svf := fun _ => 7 / 10 } (weather 5 700 2 (5 / 10)) = .ok o' ∧
    distribute ⟨.angstrom1918, some .unsworth1975, true, false, some 0, some 600⟩ forest (weather 5 700 2 (5 / 10)) = .ok s ∧
    |o'.thermal () - o.thermal ()| ≤ 1485 / 1000 * (|s.clear () - 56697 / 10 ^ 12 * 5 ^ 4| * |7 / 10 - 8 / 10|) := by
  refine ⟨_, _, _, rfl, rfl, rfl, ?_⟩
  exact C191_view ⟨.angstrom1918, some .unsworth1975, true, true, some 0, some 600⟩ (by simp) rfl forest (fun _ => 7 / 10) (weather 5 700 2 (5 / 10))
    _ _ _ rfl rfl rfl () (by norm_num [weather]) (by norm_num [forest]) (by norm_num [forest]) (by norm_num [weather]) (by norm_num [weather])

/-- The same error with the method of Marks and Dozier at 2000 m. -/
example : ∃ o o' : Out Unit,
    distribute ⟨.marks1979, none, false, true, none, none⟩ ⟨fun _ => 2000, fun _ => 8 / 10, fun _ => 0, fun _ => 1⟩ ⟨fun _ => -5, fun _ => 0, fun _ => -8, fun _ => 1⟩ = .ok o ∧
    distribute ⟨.marks1979, none, false, true, none, none⟩ ⟨fun _ => 2000, fun _ => 7 / 10, fun _ => 0, fun _ => 1⟩ ⟨fun _ => -5, fun _ => 0, fun _ => -8, fun _ => 1⟩ = .ok o' ∧
    |o'.clear () - o.clear ()| ≤ blackBody (-5) * |7 / 10 - 8 / 10| := by
  obtain ⟨r, h3⟩ := topothermC_def (-5) (-8) 2000 (8 / 10) (by norm_num [freeze]) (by norm_num [freeze]) (by norm_num [freeze, lapseM])
  obtain ⟨r', h4⟩ := topothermC_def (-5) (-8) 2000 (7 / 10) (by norm_num [freeze]) (by norm_num [freeze]) (by norm_num [freeze, lapseM])
  obtain ⟨o, ho, -⟩ := marks_step _ _ _ _ _ h3
  obtain ⟨o', ho', -⟩ := marks_step _ _ _ _ _ h4
  exact ⟨o, o', ho, ho', (C191_marks _ rfl ⟨fun _ => 2000, fun _ => 8 / 10, fun _ => 0, fun _ => 1⟩ (fun _ => 7 / 10) _ o o' ho ho' () (by norm_num) (by norm_num)
    (by norm_num) (by norm_num) (by norm_num)).1⟩

end Verif.Thermal
