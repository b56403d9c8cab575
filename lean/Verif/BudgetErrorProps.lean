import Verif.HeatErrorProps
import Verif.DewSkyErrorProps

/-!
C195: errors in all the weather the thermal radiation reads, together (`smrf/distribute/thermal.py:254-342`). No new model: two runs of `Thermal.distribute`.
-/

namespace Verif.Thermal

open Verif.Vapor Verif.Twostream

theorem step_ok {ι : Type} (c : Cfg) (hm : c.sky ≠ .marks1979) (g : Maps ι) (x : In ι) : ∃ o, distribute c g x = .ok o := by
  unfold distribute
  rcases hsk : c.sky <;> rw [hsk] at hm
  · exact absurd rfl hm
  all_goals exact ⟨_, rfl⟩

/-- Any two weathers over the same maps: the errors of the air temperature, the vapor pressure and the cloud factor add up; the dew point does not matter. -/
theorem C195_weather {ι : Type} (c : Cfg) (hm : c.sky ≠ .marks1979) (hk : c.cloud ≠ some .kimball1982) (g : Maps ι) (x x' : In ι) (o o' : Out ι)
    (h : distribute c g x = .ok o) (h' : distribute c g x' = .ok o') (i : ι) (ht : Usual (x.airTemp i)) (ht' : Usual (x'.airTemp i))
    (p0 : 20 ≤ x.vapor i) (p1 : x.vapor i ≤ 5000) (p0' : 20 ≤ x'.vapor i) (s0 : 0 ≤ g.svf i) (s1 : g.svf i ≤ 1) (t0 : 0 ≤ g.tau i) (t1 : g.tau i ≤ 1)
    (c0 : 0 ≤ x.cloudFactor i) (c1 : x.cloudFactor i ≤ 1) :
    |o'.thermal i - o.thermal i| ≤ 125 / 10 * |x'.airTemp i - x.airTemp i| +
      1485 / 1000 * (moistRate c.sky (x'.airTemp i) * |x'.vapor i - x.vapor i|) +
      max |o'.clear i| |blackBody (x'.airTemp i) - o'.clear i| * |x'.cloudFactor i - x.cloudFactor i| := by
  obtain ⟨a, ha⟩ := step_ok c hm g { x with airTemp := x'.airTemp }
  obtain ⟨b, hb⟩ := step_ok c hm g { x with airTemp := x'.airTemp, vapor := x'.vapor }
  have hd : distribute c g { x with airTemp := x'.airTemp, vapor := x'.vapor, cloudFactor := x'.cloudFactor } = .ok o' := by
    have := C193_unused c hm g x' x.dew
    rw [← h', ← this]
  have hlo : -(27316 / 100) < x'.airTemp i := by have := ht'.1; linarith
  have k1 := (C194_temperature c hm hk g x x'.airTemp o a h ha i ht ht' (by linarith) p1 s0 s1 t0 t1 c0 c1).2
  have k2 := (C192_vapor_partial c hm hk g { x with airTemp := x'.airTemp } x'.vapor a b ha hb i hlo (by have := ht'.2; simp only; linarith)
    p0 p0' s0 s1 t0 t1 c0 c1).2
  obtain ⟨e, k3⟩ := C184_cloud c g { x with airTemp := x'.airTemp, vapor := x'.vapor } x'.cloudFactor b o' hb hd i hlo t0 t1
  rw [← e] at k3
  simp only at k2 k3
  have e2 : o'.thermal i - o.thermal i = (o'.thermal i - b.thermal i) + (b.thermal i - a.thermal i) + (a.thermal i - o.thermal i) := by ring
  rw [e2]
  have := abs_add_three (o'.thermal i - b.thermal i) (b.thermal i - a.thermal i) (a.thermal i - o.thermal i)
  linarith

/-- A forest cell: one degree warmer, 50 Pa drier and cloudier. -/
example : ∃ o o' : Out Unit, distribute ⟨.angstrom1918, some .crawford1999, true, true, some 0, some 600⟩ forest (weather 5 700 2 (5 / 10)) = .ok o ∧
    distribute ⟨.angstrom1918, some .crawford1999, true, true, some 0, some 600⟩ forest (weather 6 650 1 (4 / 10)) = .ok o' ∧
    |o'.thermal () - o.thermal ()| ≤ 125 / 10 * |6 - 5| + 1485 / 1000 * (34 / 10 ^ 6 * blackBody 6 * |650 - 700|) +
      max |o'.clear ()| |blackBody 6 - o'.clear ()| * |4 / 10 - 5 / 10| := by
  refine ⟨_, _, rfl, rfl, ?_⟩
  exact C195_weather ⟨.angstrom1918, some .crawford1999, true, true, some 0, some 600⟩ (by simp) (by simp) forest (weather 5 700 2 (5 / 10)) (weather 6 650 1 (4 / 10))
    _ _ rfl rfl () (by norm_num [weather, Usual]) (by norm_num [weather, Usual]) (by norm_num [weather]) (by norm_num [weather]) (by norm_num [weather])
    (by norm_num [forest]) (by norm_num [forest]) (by norm_num [forest]) (by norm_num [forest]) (by norm_num [weather]) (by norm_num [weather])

end Verif.Thermal
