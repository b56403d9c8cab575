import Verif.Thermal
import Verif.VaporProps
import Mathlib.Order.Interval.Set.UnorderedInterval
import Mathlib.Tactic.Linarith
import Mathlib.Tactic.Positivity
import Mathlib.Tactic.NormNum
import Mathlib.Tactic.Ring
import Mathlib.Tactic.FieldSimp
import Mathlib.Tactic.LinearCombination

/-! Properties C50, C51, C52, C78, C79 and C80. -/

namespace Verif.Thermal

open Verif.Vapor Verif.Twostream

/-- Specification: emission of a black body at a temperature in degrees Celsius. -/
noncomputable def blackBody (celsius : ℝ) : ℝ := 56697 / 10 ^ 12 * (celsius + 27316 / 100) ^ 4

theorem stefBoltz_pos : 0 < stefBoltz := by norm_num [stefBoltz]

theorem blackBody_nonneg (t : ℝ) : 0 ≤ blackBody t := by unfold blackBody; positivity

theorem blackBody_pos {t : ℝ} (h : -(27316 / 100) < t) : 0 < blackBody t := by
  unfold blackBody
  have : 0 < t + 27316 / 100 := by linarith
  positivity

theorem longWave_eq (e t : ℝ) : longWave e (t + freeze) = e * blackBody t := by
  unfold longWave blackBody stefBoltz freeze; ring

theorem mix_mem {a b w : ℝ} (h0 : 0 ≤ w) (h1 : w ≤ 1) : w * a + (1 - w) * b ∈ Set.uIcc a b := by
  rw [Set.mem_uIcc]
  rcases le_total a b with h | h
  · left
    constructor
    · nlinarith [mul_nonneg (sub_nonneg.2 h1) (sub_nonneg.2 h)]
    · nlinarith [mul_nonneg h0 (sub_nonneg.2 h)]
  · right
    constructor
    · nlinarith [mul_nonneg h0 (sub_nonneg.2 h)]
    · nlinarith [mul_nonneg (sub_nonneg.2 h1) (sub_nonneg.2 h)]

/-! ### C50 -/

theorem C50_canopy_low (th ta tau height threshold : ℝ) (h : height ≤ threshold) :
    correctCanopy th ta tau height threshold = th := by
  unfold correctCanopy
  simp only [if_neg (not_lt.2 h)]

/-- Above the threshold: between incoming and canopy emission, reaching them at transmissivity one and
zero. -/
theorem C50_canopy_between (th ta tau height threshold : ℝ) (h : threshold < height) :
    (0 ≤ tau → tau ≤ 1 → correctCanopy th ta tau height threshold ∈ Set.uIcc th (96 / 100 * blackBody ta)) ∧
    (tau = 1 → correctCanopy th ta tau height threshold = th) ∧
    (tau = 0 → correctCanopy th ta tau height threshold = 96 / 100 * blackBody ta) := by
  have e : correctCanopy th ta tau height threshold = tau * th + (1 - tau) * (96 / 100 * blackBody ta) := by
    unfold correctCanopy blackBody stefBoltz emissVeg freeze
    simp only [if_pos h]
    ring
  rw [e]
  refine ⟨fun h0 h1 => mix_mem h0 h1, fun e => ?_, fun e => ?_⟩
  · rw [e]; ring
  · rw [e]; ring

theorem C50_terrain_between (th ta viewf : ℝ) :
    (0 ≤ viewf → viewf ≤ 1 →
      correctTerrain th ta viewf ∈ Set.uIcc th (98 / 100 * blackBody (ta - 1 / 100))) ∧
    (viewf = 1 → correctTerrain th ta viewf = th) ∧
    (viewf = 0 → correctTerrain th ta viewf = 98 / 100 * blackBody (ta - 1 / 100)) := by
  have e : correctTerrain th ta viewf = viewf * th + (1 - viewf) * (98 / 100 * blackBody (ta - 1 / 100)) := by
    unfold correctTerrain blackBody stefBoltz emissTerrain
    ring
  rw [e]
  refine ⟨fun h0 h1 => mix_mem h0 h1, fun e => ?_, fun e => ?_⟩
  · rw [e]; ring
  · rw [e]; ring

/-- The published images of a step: the canopy image is the previous one on low cells and between it and
canopy emission elsewhere; the previous one is not changed by it. -/
theorem C50_step {ι : Type} (c : Cfg) (g : Maps ι) (x : In ι) (o : Out ι) (h : distribute c g x = .ok o)
    (hv : c.veg = true) (i : ι) :
    ∃ v, o.veg = some v ∧ (g.height i ≤ 2 → v i = (o.cloud.elim o.clear id) i) ∧
      (2 < g.height i → 0 ≤ g.tau i → g.tau i ≤ 1 →
        v i ∈ Set.uIcc ((o.cloud.elim o.clear id) i) (96 / 100 * blackBody (x.airTemp i))) := by
  unfold distribute at h
  simp only at h
  split at h
  · cases h
  · cases h
    refine ⟨_, if_pos hv, fun hl => C50_canopy_low _ _ _ _ _ hl, fun hh h0 h1 =>
      (C50_canopy_between _ _ _ _ _ hh).1 h0 h1⟩

example : correctCanopy 300 0 (1 / 2) 5 ∈ Set.uIcc 300 (96 / 100 * blackBody 0) :=
  (C50_canopy_between 300 0 (1 / 2) 5 2 (by norm_num)).1 (by norm_num) (by norm_num)

example : correctTerrain 300 0 (1 / 4) ∈ Set.uIcc 300 (98 / 100 * blackBody (0 - 1 / 100)) :=
  (C50_terrain_between 300 0 (1 / 4)).1 (by norm_num) (by norm_num)

/-! ### C51 -/

/-- Specification of a cloud correction of the clear-sky value `th` as a function of the cloud factor
(one for no cloud): within one percent of `th` without cloud, never below `th`, more with more cloud. -/
structure Responds (f : ℝ → ℝ) (th : ℝ) : Prop where
  clear : |f 1 - th| ≤ th / 100
  above : ∀ cf, 0 ≤ cf → cf ≤ 1 → th ≤ f cf
  mono : ∀ cf cf', 0 ≤ cf → cf ≤ cf' → cf' ≤ 1 → f cf' ≤ f cf

/-- C51 as stated: for every method. Clear-sky radiation is at most black-body emission. -/
def C51_full : Prop :=
  ∀ (m : Cloud) (th ta vp : ℝ), -(27316 / 100) < ta → 0 ≤ vp → 0 < th → th ≤ blackBody ta →
    Responds (fun cf => cloudCell m th ta vp cf) th

theorem unsworth_eq (th ta cf : ℝ) (ht : -(27316 / 100) < ta) :
    unsworth th ta cf = (1 - 84 / 100 * (1 - cf)) * th + 84 / 100 * (1 - cf) * blackBody ta := by
  unfold unsworth
  simp only
  rw [longWave_eq]
  have e : stefBoltz * (ta + freeze) ^ 4 = blackBody ta := by unfold blackBody stefBoltz freeze; ring
  rw [e]
  have := (blackBody_pos ht).ne'
  field_simp

theorem crawford_eq (th ta cf : ℝ) : crawford th ta cf = (1 - cf) * blackBody ta + cf * th := by
  unfold crawford
  rw [longWave_eq]

/-- The methods of Unsworth and Crawford are as claimed. -/
theorem C51_unsworth_crawford (m : Cloud) (hm : m = .unsworth1975 ∨ m = .crawford1999) (th ta vp : ℝ)
    (ht : -(27316 / 100) < ta) (h0 : 0 < th) (h1 : th ≤ blackBody ta) :
    Responds (fun cf => cloudCell m th ta vp cf) th ∧ cloudCell m th ta vp 1 = th ∧
      ∀ cf, 0 ≤ cf → cf ≤ 1 → cloudCell m th ta vp cf ≤ blackBody ta := by
  rcases hm with rfl | rfl
  · have e : ∀ cf, cloudCell .unsworth1975 th ta vp cf = th + 84 / 100 * (1 - cf) * (blackBody ta - th) := by
      intro cf
      show unsworth th ta cf = _
      rw [unsworth_eq _ _ _ ht]; ring
    refine ⟨⟨?_, fun cf a b => ?_, fun cf cf' a b c => ?_⟩, ?_, fun cf a b => ?_⟩
    · simp only [e]; norm_num; linarith
    · simp only [e]
      have := mul_nonneg (sub_nonneg.2 b) (sub_nonneg.2 h1); linarith
    · simp only [e]
      have := mul_nonneg (sub_nonneg.2 b) (sub_nonneg.2 h1); linarith
    · rw [e]; ring
    · rw [e]
      have := mul_nonneg (sub_nonneg.2 b) (sub_nonneg.2 h1)
      have := mul_nonneg a (sub_nonneg.2 h1)
      linarith
  · have e : ∀ cf, cloudCell .crawford1999 th ta vp cf = th + (1 - cf) * (blackBody ta - th) := by
      intro cf
      show crawford th ta cf = _
      rw [crawford_eq]; ring
    refine ⟨⟨?_, fun cf a b => ?_, fun cf cf' a b c => ?_⟩, ?_, fun cf a b => ?_⟩
    · simp only [e]; norm_num; linarith
    · simp only [e]
      have := mul_nonneg (sub_nonneg.2 b) (sub_nonneg.2 h1); linarith
    · simp only [e]
      have := mul_nonneg (sub_nonneg.2 b) (sub_nonneg.2 h1); linarith
    · rw [e]; ring
    · rw [e]
      have := mul_nonneg a (sub_nonneg.2 h1)
      linarith

/-- The hypothesis on the clear-sky value cannot be dropped: a value above black-body emission is
reduced by cloud. -/
theorem C51_above_black_body_fails (th ta vp cf : ℝ) (ht : -(27316 / 100) < ta) (h1 : blackBody ta < th) (hc : cf < 1) :
    cloudCell .unsworth1975 th ta vp cf < th ∧ cloudCell .crawford1999 th ta vp cf < th := by
  constructor
  · show unsworth th ta cf < th
    rw [unsworth_eq _ _ _ ht]
    have := mul_pos (sub_pos.2 hc) (sub_pos.2 h1); linarith
  · show crawford th ta cf < th
    rw [crawford_eq]
    have := mul_pos (sub_pos.2 hc) (sub_pos.2 h1); linarith

/-- Garen: monotone, within 0.3 percent without cloud, and above the clear-sky value for cloud factors up
to 485/488. Missing: never less than the clear-sky value (`C51_garen_fails`). -/
theorem C51_garen_partial (th ta vp : ℝ) (h0 : 0 < th) :
    |cloudCell .garen2005 th ta vp 1 - th| ≤ 3 / 1000 * th ∧
    (∀ cf, cf ≤ 1 → 997 / 1000 * th ≤ cloudCell .garen2005 th ta vp cf) ∧
    (∀ cf, th ≤ cloudCell .garen2005 th ta vp cf ↔ cf ≤ 485 / 488) ∧
    (∀ cf cf', cf ≤ cf' → cloudCell .garen2005 th ta vp cf' ≤ cloudCell .garen2005 th ta vp cf) := by
  have e : ∀ cf, cloudCell .garen2005 th ta vp cf = th * (1485 / 1000 - 488 / 1000 * cf) := fun _ => rfl
  simp only [e]
  refine ⟨?_, fun cf h => ?_, fun cf => ⟨fun h => ?_, fun h => ?_⟩, fun cf cf' h => ?_⟩
  · rw [abs_le]; constructor <;> linarith
  · have := mul_nonneg h0.le (sub_nonneg.2 h); linarith
  · by_contra hc
    have := mul_pos h0 (sub_pos.2 (not_le.1 hc)); linarith
  · have := mul_nonneg h0.le (sub_nonneg.2 h); linarith
  · have := mul_nonneg h0.le (sub_nonneg.2 h); linarith

theorem C51_garen_fails (th ta vp : ℝ) (h0 : 0 < th) : cloudCell .garen2005 th ta vp 1 < th := by
  show th * (1485 / 1000 - 488 / 1000 * 1) < th
  linarith

theorem kimball_eq (th ta ea cf : ℝ) :
    kimball th ta ea cf = th + kimballF8 (ta + freeze) * kimballE8 (ta + freeze) ea
      * kimballT8 (kimballE8 (ta + freeze) ea) * blackBody ta := by
  unfold kimball
  simp only
  rw [longWave_eq]

theorem kimballT8_eq (e : ℝ) : kimballT8 e = (1 - e) * (1 - 2 / 5 * e) := by unfold kimballT8; ring

/-- Kimball: not reduced for temperatures where the window fraction is positive and while the window
emissivity is at most one. Missing: the response to cloud. -/
theorem C51_kimball_partial (th ta vp cf : ℝ) (h1 : -127 ≤ ta) (h2 : ta ≤ 200)
    (he : kimballE8 (ta + freeze) (vp / 1000) ≤ 1) : th ≤ cloudCell .kimball1982 th ta vp cf := by
  show th ≤ kimball th ta (vp / 1000) cf
  rw [kimball_eq, kimballT8_eq]
  have e0 : 0 ≤ kimballE8 (ta + freeze) (vp / 1000) := by unfold kimballE8; positivity
  have f0 : 0 ≤ kimballF8 (ta + freeze) := by
    unfold kimballF8 freeze
    simp only
    nlinarith [mul_nonneg (sub_nonneg.2 h1) (sub_nonneg.2 h2)]
  have : 0 ≤ kimballF8 (ta + freeze) * kimballE8 (ta + freeze) (vp / 1000)
      * ((1 - kimballE8 (ta + freeze) (vp / 1000)) * (1 - 2 / 5 * kimballE8 (ta + freeze) (vp / 1000))) * blackBody ta := by
    have a := sub_nonneg.2 he
    have b : 0 ≤ 1 - 2 / 5 * kimballE8 (ta + freeze) (vp / 1000) := by linarith
    have c := blackBody_nonneg ta
    positivity
  linarith

/-- Kimball does not look at the cloud factor: cloudy and clear skies give the same. -/
theorem C51_kimball_constant_fails (th ta vp cf cf' : ℝ) :
    cloudCell .kimball1982 th ta vp cf = cloudCell .kimball1982 th ta vp cf' := rfl

/-- At the freezing point and dry air the sky without cloud is corrected by more than five percent of the
largest possible clear-sky value. -/
theorem C51_kimball_clear_fails (th : ℝ) (h1 : th ≤ blackBody 0) :
    th + 5 / 100 * th < cloudCell .kimball1982 th 0 0 1 := by
  show _ < kimball th 0 (0 / 1000) 1
  rw [kimball_eq, kimballT8_eq]
  have hb := blackBody_pos (t := 0) (by norm_num)
  have e : kimballE8 (0 + freeze) (0 / 1000) = 24 / 100 := by unfold kimballE8; norm_num
  have f : kimballF8 (0 + freeze) ≥ 33 / 100 := by unfold kimballF8 freeze; norm_num
  rw [e]
  nlinarith

/-- Warm humid air (about 27 degrees, 4 kPa): the correction reduces the radiation. -/
theorem C51_kimball_reduces_fails (th cf : ℝ) : cloudCell .kimball1982 th (2684 / 100) 4000 cf < th := by
  show kimball th (2684 / 100) (4000 / 1000) cf < th
  rw [kimball_eq, kimballT8_eq]
  have hb := blackBody_pos (t := 2684 / 100) (by norm_num)
  have hexp1 : (20000 : ℝ) ≤ Real.exp (3000 / (2684 / 100 + freeze)) := by
    have e : Real.exp (3000 / (2684 / 100 + freeze)) = Real.exp 1 ^ 10 := by
      rw [← Real.exp_nat_mul]; unfold freeze; norm_num
    rw [e]
    calc (20000 : ℝ) ≤ 2.7182818283 ^ 10 := by norm_num
      _ ≤ _ := pow_le_pow_left₀ (by norm_num) Real.exp_one_gt_d9.le 10
  have hexp2 : Real.exp (3000 / (2684 / 100 + freeze)) ≤ 23000 := by
    have e : Real.exp (3000 / (2684 / 100 + freeze)) = Real.exp 1 ^ 10 := by
      rw [← Real.exp_nat_mul]; unfold freeze; norm_num
    rw [e]
    calc _ ≤ (2.7182818286 : ℝ) ^ 10 := pow_le_pow_left₀ (Real.exp_pos 1).le Real.exp_one_lt_d9.le 10
      _ ≤ _ := by norm_num
  have e1 : 1 < kimballE8 (2684 / 100 + freeze) (4000 / 1000) := by unfold kimballE8; nlinarith
  have e2 : kimballE8 (2684 / 100 + freeze) (4000 / 1000) < 2 := by unfold kimballE8; nlinarith
  have f : 0 < kimballF8 (2684 / 100 + freeze) := by unfold kimballF8 freeze; norm_num
  generalize kimballE8 (2684 / 100 + freeze) (4000 / 1000) = e at *
  generalize kimballF8 (2684 / 100 + freeze) = f8 at *
  have h1 : 0 < (e - 1) * (1 - 2 / 5 * e) := mul_pos (by linarith) (by linarith)
  have h2 : 0 < f8 * e * ((e - 1) * (1 - 2 / 5 * e)) * blackBody (2684 / 100) :=
    mul_pos (mul_pos (mul_pos f (by linarith)) h1) hb
  linarith [show f8 * e * ((1 - e) * (1 - 2 / 5 * e)) * blackBody (2684 / 100)
    = -(f8 * e * ((e - 1) * (1 - 2 / 5 * e)) * blackBody (2684 / 100)) by ring]

theorem C51_fails : ¬ C51_full := by
  intro h
  have hb := blackBody_pos (t := 0) (by norm_num)
  have := (h .garen2005 (blackBody 0) 0 0 (by norm_num) le_rfl hb le_rfl).above 1 (by norm_num) le_rfl
  have := C51_garen_fails (blackBody 0) 0 0 hb
  linarith

example : Responds (fun cf => cloudCell .crawford1999 (blackBody 0 / 2) 0 600 cf) (blackBody 0 / 2) := by
  have hb := blackBody_pos (t := 0) (by norm_num)
  exact (C51_unsworth_crawford _ (.inr rfl) _ _ _ (by norm_num) (by linarith) (by linarith)).1

example : th ≤ cloudCell .kimball1982 th 0 0 (1 / 2) :=
  C51_kimball_partial _ _ _ _ (by norm_num) (by norm_num) (by unfold kimballE8; norm_num)

/-! ### C52 -/

/-- C52 as stated: with the terrain correction on, the clear-sky image is the sky's part weighted by the
view factor plus black-body emission of the terrain at the air temperature weighted by the rest. -/
def C52_full : Prop :=
  ∀ (c : Cfg) (g : Maps Unit) (x : In Unit) (o : Out Unit) (cth : Unit → ℝ),
    c.terrain = true → c.sky ≠ .marks1979 → clearSky c.sky g.dem (some g.svf) x = .ok cth →
    distribute c g x = .ok o → ∀ i, o.clear i = cth i * g.svf i + (1 - g.svf i) * blackBody (x.airTemp i)

/-- What is computed: emission at the temperature in degrees Celsius, taken to the fourth power. The
full claim holds exactly where the cell sees no terrain or the two emissions agree. -/
theorem C52_celsius_partial {ι : Type} (c : Cfg) (g : Maps ι) (x : In ι) (o : Out ι) (cth : ι → ℝ)
    (ht : c.terrain = true) (hm : c.sky ≠ .marks1979) (hc : clearSky c.sky g.dem (some g.svf) x = .ok cth)
    (h : distribute c g x = .ok o) (i : ι) :
    o.clear i = cth i * g.svf i + (1 - g.svf i) * blackBody (x.airTemp i - 27316 / 100) ∧
    (o.clear i = cth i * g.svf i + (1 - g.svf i) * blackBody (x.airTemp i) ↔
      g.svf i = 1 ∨ x.airTemp i = -(13658 / 100)) := by
  have e : o.clear i = cth i * g.svf i + (1 - g.svf i) * blackBody (x.airTemp i - 27316 / 100) := by
    unfold distribute at h
    simp only [ht, if_true, hc] at h
    cases h
    unfold terrain
    simp only [if_neg hm]
    unfold blackBody stefBoltz
    ring
  refine ⟨e, ?_⟩
  rw [e]
  constructor
  · intro he
    by_cases h1 : g.svf i = 1
    · exact .inl h1
    · right
      have h2 : blackBody (x.airTemp i - 27316 / 100) = blackBody (x.airTemp i) :=
        mul_left_cancel₀ (sub_ne_zero.2 (Ne.symm h1)) (by linarith)
      unfold blackBody at h2
      have h3 : (x.airTemp i) ^ 4 = (x.airTemp i + 27316 / 100) ^ 4 := by
        have h4 : (56697 / 10 ^ 12 : ℝ) ≠ 0 := by norm_num
        have := mul_left_cancel₀ h4 h2
        rw [← this]; congr 1; ring
      rcases (pow_eq_pow_iff_of_ne_zero (n := 4) (by norm_num)).1 h3 with h5 | ⟨h5, -⟩
      · linarith
      · linarith
  · rintro (h1 | h1)
    · rw [h1]; ring
    · rw [h1]; unfold blackBody; norm_num

/-- Below zero degrees the terrain's contribution falls as the air gets warmer. -/
theorem C52_terrain_fails (m : Sky) (hm : m ≠ .marks1979) (svf ta ta' cth : ℝ) (hs : svf < 1) (h : ta < ta')
    (h0 : ta' ≤ 0) :
    terrain m (some fun _ : Unit => svf) (fun _ => ta') (fun _ => cth) () <
      terrain m (some fun _ : Unit => svf) (fun _ => ta) (fun _ => cth) () := by
  unfold terrain
  simp only [if_neg hm]
  have h1 : ta' ^ 4 < ta ^ 4 := by
    have := pow_lt_pow_left₀ (show -ta' < -ta by linarith) (by linarith) (n := 4) (by norm_num)
    have e1 : (-ta') ^ 4 = ta' ^ 4 := by ring
    have e2 : (-ta) ^ 4 = ta ^ 4 := by ring
    rwa [e1, e2] at this
  have h2 := mul_lt_mul_of_pos_left h1 (mul_pos (sub_pos.2 hs) stefBoltz_pos)
  linarith

theorem C52_fails : ¬ C52_full := by
  intro h
  have := h ⟨.angstrom1918, none, false, true, none, none⟩ ⟨fun _ => 0, fun _ => 0, fun _ => 0, fun _ => 0⟩
    ⟨fun _ => 0, fun _ => 0, fun _ => 0, fun _ => 0⟩ _ _ rfl (by decide) rfl rfl ()
  have h2 := (C52_celsius_partial ⟨.angstrom1918, none, false, true, none, none⟩ ⟨fun _ => 0, fun _ => 0, fun _ => 0, fun _ => 0⟩
    ⟨fun _ => 0, fun _ => 0, fun _ => 0, fun _ => 0⟩ _ _ rfl (by decide) rfl rfl ()).2.1 this
  norm_num at h2

/-! ### C78: clear-sky emission lies between zero and black-body emission -/

theorem topothermC_eq {ta tw z svf r : ℝ} (h : topothermC ta tw z svf = some r) :
    0 < ta + freeze ∧ 0 < tw + freeze ∧ 0 < ta + freeze - lapseM * z ∧
    ∃ rh, (rh = sat (min (ta + freeze) (tw + freeze)) / sat (ta + freeze) ⊓ 1) ∧
    r = min ((min (124 / 100 * (rh * sat (ta + freeze - lapseM * z) / 100 / (ta + freeze - lapseM * z)) ^ (1 / 7 : ℝ)) 1)
      * (hysat Vapor.seaLevel (ta + freeze - lapseM * z) stdLapse (z / 1000) gravity molAir / Vapor.seaLevel) * svf
        + (1 - svf)) 1 * blackBody ta := by
  unfold topothermC at h
  simp only at h
  split at h
  · cases h
  · rename_i hn
    rw [not_or, not_lt, not_lt] at hn
    rw [show (if ta + freeze < tw + freeze then ta + freeze else tw + freeze) = min (ta + freeze) (tw + freeze) by
      rw [min_def]; split <;> split <;> linarith] at h
    unfold brutsaertC satiC at h
    simp only at h
    have hw : ¬ min (ta + freeze) (tw + freeze) ≤ 0 := by
      intro hw; rw [if_pos hw] at h; cases h
    rw [if_neg hw] at h
    rw [min_le_iff, not_or, not_le, not_le] at hw
    rw [if_neg (not_le.2 hw.1)] at h
    simp only [Option.bind_some] at h
    have hp : ¬ ta + freeze - lapseM * z ≤ 0 := by
      intro hp; rw [if_pos hp] at h; cases h
    rw [if_neg hp] at h
    simp only [Option.bind_some, Option.some.injEq] at h
    refine ⟨hw.1, hw.2, not_le.1 hp, _, rfl, ?_⟩
    rw [← h]
    have hif : ∀ y : ℝ, (if 1 < y then 1 else y) = min y 1 := by
      intro y; rw [min_def]; split <;> split <;> linarith
    simp only [hif]
    have hsea : Vapor.seaLevel ≠ 0 := by norm_num [Vapor.seaLevel]
    rw [mul_div_assoc (124 / 100 * _) Vapor.seaLevel, div_self hsea, mul_one, mul_comm z lapseM]
    unfold blackBody stefBoltz freeze
    ring

theorem hysat_nonneg (pb tb l h g m : ℝ) (hp : 0 ≤ pb) (ht : 0 < tb) (ht' : 0 ≤ tb + l * h) : 0 ≤ hysat pb tb l h g m := by
  unfold hysat
  split
  · positivity
  · exact mul_nonneg hp (Real.rpow_nonneg (div_nonneg ht.le ht') _)

/-- The method of Marks and Dozier: at least the terrain's part of black-body emission, at most all of
it. -/
theorem C78_marks (ta tw z svf r : ℝ) (h : topothermC ta tw z svf = some r) (h0 : 0 ≤ svf) (h1 : svf ≤ 1) :
    0 ≤ r ∧ (1 - svf) * blackBody ta ≤ r ∧ r ≤ blackBody ta := by
  obtain ⟨ht, hw, hp, rh, hrh, hr⟩ := topothermC_eq h
  have hb := blackBody_nonneg ta
  have hrh0 : 0 ≤ rh := by
    rw [hrh]
    exact le_min (div_nonneg (C41_positive _).le (C41_positive _).le) zero_le_one
  have hpress : 0 ≤ hysat Vapor.seaLevel (ta + freeze - lapseM * z) stdLapse (z / 1000) gravity molAir := by
    apply hysat_nonneg _ _ _ _ _ _ (by norm_num [Vapor.seaLevel]) hp
    have : ta + freeze - lapseM * z + stdLapse * (z / 1000) = ta + freeze := by unfold lapseM stdLapse; ring
    rw [this]; exact ht.le
  have hA : 0 ≤ min (124 / 100 * (rh * sat (ta + freeze - lapseM * z) / 100 / (ta + freeze - lapseM * z)) ^ (1 / 7 : ℝ)) 1
      * (hysat Vapor.seaLevel (ta + freeze - lapseM * z) stdLapse (z / 1000) gravity molAir / Vapor.seaLevel) * svf := by
    have a : 0 ≤ min (124 / 100 * (rh * sat (ta + freeze - lapseM * z) / 100 / (ta + freeze - lapseM * z)) ^ (1 / 7 : ℝ)) 1 := by
      apply le_min _ zero_le_one
      have := (C41_positive (ta + freeze - lapseM * z)).le
      positivity
    have b : 0 ≤ hysat Vapor.seaLevel (ta + freeze - lapseM * z) stdLapse (z / 1000) gravity molAir / Vapor.seaLevel :=
      div_nonneg hpress (by norm_num [Vapor.seaLevel])
    positivity
  generalize min (124 / 100 * (rh * sat (ta + freeze - lapseM * z) / 100 / (ta + freeze - lapseM * z)) ^ (1 / 7 : ℝ)) 1
      * (hysat Vapor.seaLevel (ta + freeze - lapseM * z) stdLapse (z / 1000) gravity molAir / Vapor.seaLevel) * svf = A at hA hr
  have g1 : 1 - svf ≤ min (A + (1 - svf)) 1 := le_min (by linarith) (by linarith)
  have g2 : min (A + (1 - svf)) 1 ≤ 1 := min_le_right _ _
  rw [hr]
  refine ⟨mul_nonneg (by linarith) hb, mul_le_mul_of_nonneg_right g1 hb, ?_⟩
  calc _ ≤ 1 * blackBody ta := mul_le_mul_of_nonneg_right g2 hb
    _ = _ := one_mul _

/-- More moisture (a higher dew point) never gives less longwave radiation. -/
theorem C78_marks_dew (ta tw tw' z svf r r' : ℝ) (h : topothermC ta tw z svf = some r)
    (h' : topothermC ta tw' z svf = some r') (hw : tw ≤ tw') (h0 : 0 ≤ svf) (ht : ta ≤ 700) : r ≤ r' := by
  obtain ⟨hta, htw, hp, rh, hrh, hr⟩ := topothermC_eq h
  obtain ⟨-, htw', -, rh', hrh', hr'⟩ := topothermC_eq h'
  have hs := C41_positive (ta + freeze)
  have hle : rh ≤ rh' := by
    rw [hrh, hrh']
    apply min_le_min_right
    apply div_le_div_of_nonneg_right _ hs.le
    rcases lt_or_eq_of_le (min_le_min_left (ta + freeze) (show tw + freeze ≤ tw' + freeze by linarith)) with hlt | he
    · refine (C41_increasing _ _ (lt_min hta htw) hlt ?_).le
      exact le_trans (min_le_left _ _) (by unfold freeze; linarith)
    · rw [he]
  have hrh0 : 0 ≤ rh := by
    rw [hrh]
    exact le_min (div_nonneg (C41_positive _).le (C41_positive _).le) zero_le_one
  have hpress : 0 ≤ hysat Vapor.seaLevel (ta + freeze - lapseM * z) stdLapse (z / 1000) gravity molAir / Vapor.seaLevel := by
    apply div_nonneg _ (by norm_num [Vapor.seaLevel])
    apply hysat_nonneg _ _ _ _ _ _ (by norm_num [Vapor.seaLevel]) hp
    have : ta + freeze - lapseM * z + stdLapse * (z / 1000) = ta + freeze := by unfold lapseM stdLapse; ring
    rw [this]; exact hta.le
  rw [hr, hr']
  apply mul_le_mul_of_nonneg_right _ (blackBody_nonneg ta)
  apply min_le_min_right
  apply add_le_add_left
  apply mul_le_mul_of_nonneg_right _ h0
  apply mul_le_mul_of_nonneg_right _ hpress
  apply min_le_min_right
  apply mul_le_mul_of_nonneg_left _ (by norm_num)
  have hsp := (C41_positive (ta + freeze - lapseM * z)).le
  apply Real.rpow_le_rpow (by positivity) _ (by norm_num)
  apply div_le_div_of_nonneg_right _ hp.le
  apply div_le_div_of_nonneg_right _ (by norm_num)
  exact mul_le_mul_of_nonneg_right hle hsp

/-- The method of Prata, `ea` in kPa: an emissivity strictly between zero and one. -/
theorem C78_prata (ta ea : ℝ) (ht : -(27316 / 100) < ta) (he : 0 ≤ ea) : 0 < prata ta ea ∧ prata ta ea < blackBody ta := by
  unfold prata
  simp only
  rw [longWave_eq]
  have hb := blackBody_pos ht
  have hw : 0 ≤ precipitableWater (ta + freeze) ea := by
    unfold precipitableWater freeze
    exact div_nonneg (by linarith) (by linarith)
  generalize precipitableWater (ta + freeze) ea = w at hw
  have hx : 0 ≤ Real.sqrt (12 / 10 + 3 * w) := Real.sqrt_nonneg _
  have hq := Real.quadratic_le_exp_of_nonneg hx
  rw [Real.sq_sqrt (by linarith)] at hq
  have hE := Real.exp_pos (-Real.sqrt (12 / 10 + 3 * w))
  have hlt : (1 + w) * Real.exp (-Real.sqrt (12 / 10 + 3 * w)) < 1 := by
    rw [Real.exp_neg, ← div_eq_mul_inv, div_lt_one (Real.exp_pos _)]
    linarith
  have hpos : 0 < (1 + w) * Real.exp (-Real.sqrt (12 / 10 + 3 * w)) := by positivity
  constructor
  · exact mul_pos (by linarith) hb
  · nlinarith

/-- The method of Angstrom: an emissivity between 0.65 and 0.83, increasing with vapor pressure. -/
theorem C78_angstrom (ta ea ea' : ℝ) (ht : -(27316 / 100) < ta) (he : 0 ≤ ea) (hee : ea ≤ ea') :
    65 / 100 * blackBody ta ≤ angstrom ta ea ∧ angstrom ta ea < 83 / 100 * blackBody ta ∧
      angstrom ta ea ≤ angstrom ta ea' := by
  unfold angstrom
  simp only
  rw [longWave_eq, longWave_eq]
  have hb := blackBody_pos ht
  have h1 : (10 : ℝ) ^ (-(67 / 1000) * ea) ≤ 1 :=
    Real.rpow_le_one_of_one_le_of_nonpos (by norm_num) (by linarith)
  have h2 : 0 < (10 : ℝ) ^ (-(67 / 1000) * ea) := Real.rpow_pos_of_pos (by norm_num) _
  have h3 : (10 : ℝ) ^ (-(67 / 1000) * ea') ≤ (10 : ℝ) ^ (-(67 / 1000) * ea) :=
    Real.rpow_le_rpow_of_exponent_le (by norm_num) (by linarith)
  generalize (10 : ℝ) ^ (-(67 / 1000) * ea) = y at *
  generalize (10 : ℝ) ^ (-(67 / 1000) * ea') = y' at *
  refine ⟨?_, ?_, ?_⟩
  · exact mul_le_mul_of_nonneg_right (by linarith) hb.le
  · exact mul_lt_mul_of_pos_right (by linarith) hb
  · exact mul_le_mul_of_nonneg_right (by linarith) hb.le

/-- The method of Angstrom: a dry sky has the emissivity 0.65, and what is missing to 0.83 shrinks by the factor
10^(-0.067 d) when the vapor pressure rises by `d`. -/
theorem C78_angstrom_shape (ta ea d : ℝ) : angstrom ta 0 = 65 / 100 * blackBody ta ∧
    83 / 100 * blackBody ta - angstrom ta (ea + d) =
      (10 : ℝ) ^ (-(67 / 1000) * d) * (83 / 100 * blackBody ta - angstrom ta ea) := by
  unfold angstrom
  simp only
  rw [longWave_eq, longWave_eq, longWave_eq]
  constructor
  · rw [mul_zero, Real.rpow_zero]; ring
  · rw [mul_add, Real.rpow_add (by norm_num)]; ring

/-- The method of Prata: the emissivity of a dry sky, and that it rises with the vapor pressure. -/
theorem C78_prata_shape (ta ea ea' : ℝ) (ht : -(27316 / 100) < ta) (he : 0 ≤ ea) (hee : ea < ea') :
    prata ta 0 = (1 - Real.exp (-Real.sqrt (12 / 10))) * blackBody ta ∧ prata ta ea < prata ta ea' := by
  unfold prata
  simp only
  rw [longWave_eq, longWave_eq, longWave_eq]
  have hb := blackBody_pos ht
  have hT : 0 < ta + freeze := by unfold freeze; linarith
  have hw : 0 ≤ precipitableWater (ta + freeze) ea := by
    unfold precipitableWater
    exact div_nonneg (by linarith) hT.le
  have hww : precipitableWater (ta + freeze) ea < precipitableWater (ta + freeze) ea' := by
    unfold precipitableWater
    exact div_lt_div_of_pos_right (by linarith) hT
  constructor
  · have : precipitableWater (ta + freeze) 0 = 0 := by unfold precipitableWater; rw [mul_zero, zero_div]
    rw [this, mul_zero, add_zero, add_zero, one_mul]
  · apply mul_lt_mul_of_pos_right _ hb
    generalize precipitableWater (ta + freeze) ea = w at *
    generalize precipitableWater (ta + freeze) ea' = w' at *
    have hs := Real.sq_sqrt (show (0 : ℝ) ≤ 12 / 10 + 3 * w by linarith)
    have hs' := Real.sq_sqrt (show (0 : ℝ) ≤ 12 / 10 + 3 * w' by linarith)
    have hlt : Real.sqrt (12 / 10 + 3 * w) < Real.sqrt (12 / 10 + 3 * w') := Real.sqrt_lt_sqrt (by linarith) (by linarith)
    generalize Real.sqrt (12 / 10 + 3 * w) = s at *
    generalize Real.sqrt (12 / 10 + 3 * w') = s' at *
    have hq := Real.quadratic_le_exp_of_nonneg (sub_pos.2 hlt).le
    have hE := Real.exp_pos (-s')
    have e : Real.exp (-s) = Real.exp (-s') * Real.exp (s' - s) := by rw [← Real.exp_add]; congr 1; ring
    have key : 1 + w' < (1 + w) * Real.exp (s' - s) := by
      have h1 : (1 + w) * (1 + (s' - s) + (s' - s) ^ 2 / 2) ≤ (1 + w) * Real.exp (s' - s) :=
        mul_le_mul_of_nonneg_left hq (by linarith)
      have h2 : w = (s ^ 2 - 12 / 10) / 3 := by linarith
      have h3 : w' = (s' ^ 2 - 12 / 10) / 3 := by linarith
      have h4 : (1 + w) * (1 + (s' - s) + (s' - s) ^ 2 / 2) - (1 + w') =
          ((s' - s) * ((s - 1) ^ 2 + 8 / 10) + (s' - s) ^ 2 * (s ^ 2 / 2 - 1 / 10)) / 3 := by rw [h2, h3]; ring
      have h5 : 0 < (s' - s) * ((s - 1) ^ 2 + 8 / 10) := mul_pos (sub_pos.2 hlt) (by positivity)
      have h6 : 0 ≤ (s' - s) ^ 2 * (s ^ 2 / 2 - 1 / 10) := mul_nonneg (sq_nonneg _) (by linarith)
      linarith
    have : (1 + w') * Real.exp (-s') < (1 + w) * Real.exp (-s) := by
      rw [e]
      have := mul_lt_mul_of_pos_right key hE
      linarith
    linarith

/-- The method of Dilley: the radiation of a dry sky at the freezing point (173.08 W/m2), how it goes with the temperature
(in kelvin) and how the part of the vapor goes with the vapor pressure. -/
theorem C78_dilley_shape (ta ea : ℝ) (ht : -(27316 / 100) < ta) (he : 0 ≤ ea) :
    dilley 0 0 = 17308 / 100 ∧
    dilley ta 0 - 5938 / 100 = ((ta + 27316 / 100) / (27316 / 100)) ^ 6 * (dilley 0 0 - 5938 / 100) ∧
    0 ≤ dilley ta ea - dilley ta 0 ∧
    (dilley ta ea - dilley ta 0) ^ 2 = (9696 / 100) ^ 2 * 186 * ea / (ta + 27316 / 100) := by
  have hw : precipitableWater (ta + 27316 / 100) 0 = 0 := by unfold precipitableWater; rw [mul_zero, zero_div]
  have hw' : precipitableWater (0 + 27316 / 100) 0 = 0 := by unfold precipitableWater; rw [mul_zero, zero_div]
  have h0 : dilley 0 0 = 17308 / 100 := by
    unfold dilley freeze
    simp only [hw', zero_div, Real.sqrt_zero]
    norm_num
  have hd : dilley ta ea - dilley ta 0 = 9696 / 100 * Real.sqrt (precipitableWater (ta + 27316 / 100) ea / 25) := by
    unfold dilley freeze
    simp only [hw, zero_div, Real.sqrt_zero]
    ring
  refine ⟨h0, ?_, ?_, ?_⟩
  · rw [h0]
    unfold dilley freeze
    simp only [hw, zero_div, Real.sqrt_zero]
    ring
  · rw [hd]; positivity
  · rw [hd, mul_pow, Real.sq_sqrt]
    · unfold precipitableWater; ring
    · unfold precipitableWater
      exact div_nonneg (div_nonneg (by linarith) (by linarith)) (by norm_num)

example : prata 0 0 < prata 0 (6 / 10) ∧ dilley 0 0 < dilley 0 (6 / 10) := by
  refine ⟨(C78_prata_shape 0 0 (6 / 10) (by norm_num) le_rfl (by norm_num)).2, ?_⟩
  obtain ⟨-, -, h1, h2⟩ := C78_dilley_shape 0 (6 / 10) (by norm_num) (by norm_num)
  rcases h1.lt_or_eq with h | h
  · linarith
  · rw [← h] at h2; norm_num at h2

/-- C78 as stated, for every method and a whole step without the terrain term of C52. -/
def C78_full : Prop :=
  ∀ (m : Sky) (dem svf : Unit → ℝ) (x : In Unit) (cth : Unit → ℝ),
    clearSky m dem (some svf) x = .ok cth → ∀ i, 0 ≤ svf i → svf i ≤ 1 → -(27316 / 100) < x.airTemp i →
      0 ≤ x.vapor i → 0 ≤ cth i ∧ cth i ≤ blackBody (x.airTemp i)

/-- Three of the four methods. Missing: the method of Dilley (`C78_dilley_fails`). -/
theorem C78_step_partial {ι : Type} (m : Sky) (hm : m ≠ .dilley1998) (dem svf : ι → ℝ) (x : In ι) (cth : ι → ℝ)
    (h : clearSky m dem (some svf) x = .ok cth) (i : ι) (h0 : 0 ≤ svf i) (h1 : svf i ≤ 1)
    (ht : -(27316 / 100) < x.airTemp i) (hv : 0 ≤ x.vapor i) : 0 ≤ cth i ∧ cth i ≤ blackBody (x.airTemp i) := by
  have hv' : 0 ≤ x.vapor i / 1000 := by positivity
  cases m with
  | marks1979 =>
    unfold clearSky at h
    simp only at h
    split at h
    · rename_i hs
      cases h
      have := C78_marks (x.airTemp i) (x.dew i) (dem i) (svf i) _ (Option.some_get (hs i)).symm h0 h1
      exact ⟨this.1, this.2.2⟩
    · cases h
  | dilley1998 => exact absurd rfl hm
  | prata1996 =>
    cases h
    exact ⟨(C78_prata _ _ ht hv').1.le, (C78_prata _ _ ht hv').2.le⟩
  | angstrom1918 =>
    cases h
    have hb := blackBody_nonneg (x.airTemp i)
    obtain ⟨a, b, -⟩ := C78_angstrom _ _ _ ht hv' le_rfl
    constructor
    · show 0 ≤ angstrom _ _
      linarith
    · show angstrom _ _ ≤ _
      linarith

/-- In cold air the method of Dilley gives more than black-body emission, even for dry air. -/
theorem C78_dilley_fails (ta ea : ℝ) (h : -(27316 / 100) < ta) (hc : ta ≤ -90) : blackBody ta < dilley ta ea := by
  unfold dilley
  simp only
  have hs := Real.sqrt_nonneg (precipitableWater (ta + freeze) ea / 25)
  have h1 : 0 < ta + 27316 / 100 := by linarith
  have h2 : ta + 27316 / 100 ≤ 18316 / 100 := by linarith
  unfold blackBody freeze at *
  generalize ta + 27316 / 100 = T at *
  rcases le_or_gt T 179 with hT | hT
  · have a : T ^ 4 ≤ 179 ^ 4 := pow_le_pow_left₀ h1.le hT 4
    have b : 0 ≤ (T / (27316 / 100)) ^ 6 := by positivity
    have : (56697 / 10 ^ 12 : ℝ) * T ^ 4 ≤ 56697 / 10 ^ 12 * 179 ^ 4 := mul_le_mul_of_nonneg_left a (by norm_num)
    have : (56697 / 10 ^ 12 : ℝ) * 179 ^ 4 < 5938 / 100 := by norm_num
    linarith
  · have a : T ^ 4 ≤ (18316 / 100) ^ 4 := pow_le_pow_left₀ h1.le h2 4
    have b : (179 / (27316 / 100)) ^ 6 ≤ (T / (27316 / 100)) ^ 6 :=
      pow_le_pow_left₀ (by norm_num) (div_le_div_of_nonneg_right hT.le (by norm_num)) 6
    have : (56697 / 10 ^ 12 : ℝ) * T ^ 4 ≤ 56697 / 10 ^ 12 * (18316 / 100) ^ 4 := mul_le_mul_of_nonneg_left a (by norm_num)
    have : (56697 / 10 ^ 12 : ℝ) * (18316 / 100) ^ 4 < 5938 / 100 + 1137 / 10 * (179 / (27316 / 100)) ^ 6 := by norm_num
    linarith

theorem C78_fails : ¬ C78_full := by
  intro h
  have h1 := (h .dilley1998 (fun _ => 0) (fun _ => 1) ⟨fun _ => -100, fun _ => 0, fun _ => 0, fun _ => 0⟩ _ rfl () (by norm_num)
    (by norm_num) (by norm_num) (by norm_num)).2
  have h2 := C78_dilley_fails (-100) (0 / 1000) (by norm_num) (by norm_num)
  simp only at h1
  linarith

example : 0 ≤ prata 0 (600 / 1000) ∧ prata 0 (600 / 1000) ≤ blackBody 0 :=
  C78_step_partial .prata1996 (by decide) (fun _ : Unit => 0) (fun _ => 1) ⟨fun _ => 0, fun _ => 600, fun _ => 0, fun _ => 1⟩ _ rfl ()
    (by norm_num) le_rfl (by norm_num) (by norm_num)

/-! ### C79: the C and the Python version of `topotherm` agree -/

/-- For temperatures above absolute zero, at the cell and reduced to sea level, both versions return the
same number. -/
theorem C79_agree (ta tw z svf : ℝ) (ht : 0 < ta + freeze) (hw : 0 < tw + freeze) (hp : 0 < ta + freeze - lapseM * z) :
    ∃ r, topothermC ta tw z svf = some r ∧ topothermPy (some ta) (some tw) z svf = some r := by
  have hm : 0 < if ta + freeze < tw + freeze then ta + freeze else tw + freeze := by split <;> assumption
  have hs := (C41_positive (ta + freeze)).ne'
  have h1 : ∃ r, topothermC ta tw z svf = some r := by
    unfold topothermC brutsaertC satiC
    simp only [if_neg (not_le.2 hm), if_neg (not_le.2 ht), if_neg (not_le.2 hp), Option.bind_some]
    rw [if_neg (by rw [not_or, not_lt, not_lt]; exact ⟨ht.le, hw.le⟩)]
    exact ⟨_, rfl⟩
  have h2 : topothermC ta tw z svf = topothermPy (some ta) (some tw) z svf := by
    unfold topothermPy brutsaertPy satiPy
    simp only [Option.map_some, Option.bind_some, if_neg (not_lt.2 ht.le), if_neg (not_lt.2 hw.le), Option.elim]
    have e : (if ta + freeze < tw + freeze then some (ta + freeze) else some (tw + freeze))
        = some (if ta + freeze < tw + freeze then ta + freeze else tw + freeze) := by split <;> rfl
    rw [e]
    simp only [if_neg (not_lt.2 hm.le), if_neg hm.ne', if_neg ht.ne', Option.bind_some, if_neg hs,
      if_neg (not_lt.2 hp.le), if_neg hp.ne']
    unfold topothermC brutsaertC satiC
    simp only [if_neg (not_le.2 hm), if_neg (not_le.2 ht), if_neg (not_le.2 hp), Option.bind_some]
    rw [if_neg (by rw [not_or, not_lt, not_lt]; exact ⟨ht.le, hw.le⟩)]
    congr 1
    ring
  obtain ⟨r, hr⟩ := h1
  exact ⟨r, hr, by rw [← h2, hr]⟩

/-- Where the C version ends the program, the Python version marks the cell as NaN, or, with a dew point
of exactly zero kelvin, goes on. -/
theorem C79_bad (ta tw z svf : ℝ) (h : topothermC ta tw z svf = none) (hw : tw + freeze ≠ 0) :
    topothermPy (some ta) (some tw) z svf = none := by
  by_cases ht : 0 < ta + freeze
  · by_cases hw' : 0 < tw + freeze
    · by_cases hp : 0 < ta + freeze - lapseM * z
      · obtain ⟨r, h1, -⟩ := C79_agree ta tw z svf ht hw' hp
        rw [h] at h1; cases h1
      · unfold topothermPy brutsaertPy
        simp only [Option.map_some, Option.bind_some, if_neg (not_lt.2 ht.le), if_neg (not_lt.2 hw'.le), Option.elim]
        have : ∀ X : ℝ → ℝ → Option ℝ, ((satiPy (some (ta + freeze - lapseM * z))).bind fun sp =>
            if ta + freeze - lapseM * z = 0 then none else X sp 0) = none := by
          intro X
          unfold satiPy
          simp only
          rcases lt_or_eq_of_le (not_lt.1 hp) with hp | hp
          · rw [if_pos hp]; rfl
          · simp [hp]
        have key : ∀ (y : ℝ), ((satiPy (some (ta + freeze - lapseM * z))).bind fun sp =>
            if ta + freeze - lapseM * z = 0 then none
            else some (if 1 < 124 / 100 * (y * sp / 100 / (ta + freeze - lapseM * z)) ^ (1 / 7 : ℝ) * Vapor.seaLevel / Vapor.seaLevel
              then 1 else 124 / 100 * (y * sp / 100 / (ta + freeze - lapseM * z)) ^ (1 / 7 : ℝ) * Vapor.seaLevel / Vapor.seaLevel)) = none :=
          fun y => this fun sp _ => some _
        simp only [key]
        generalize satiPy (if ta + freeze < tw + freeze then some (ta + freeze) else some (tw + freeze)) = o1
        generalize satiPy (some (ta + freeze)) = o2
        cases o1 <;> cases o2 <;> simp
    · have hw2 : tw + freeze < 0 := lt_of_le_of_ne (not_lt.1 hw') hw
      unfold topothermPy brutsaertPy satiPy
      simp [if_pos hw2]
  · rcases lt_or_eq_of_le (not_lt.1 ht) with ht | ht
    · unfold topothermPy
      simp [if_pos ht]
    · unfold topothermPy brutsaertPy
      simp only [Option.map_some, ht, lt_irrefl, if_false, Option.bind_some, Option.elim]
      have : satiPy (some 0) = some 0 := by unfold satiPy; simp
      rw [this]
      simp

/-- With a dew point of zero kelvin they differ: the C program ends, the Python function returns a
number. -/
theorem C79_zero_kelvin_fails : topothermC 0 (-(27316 / 100)) 0 (1 / 2) = none ∧
    (topothermPy (some 0) (some (-(27316 / 100))) 0 (1 / 2)).isSome = true := by
  have e0 : -(27316 / 100) + freeze = 0 := by unfold freeze; norm_num
  have hf := freeze_pos
  constructor
  · unfold topothermC satiC
    simp only [e0, zero_add, lt_irrefl, or_false, if_neg (not_lt.2 hf.le), le_refl, if_true, Option.bind_none]
  · unfold topothermPy brutsaertPy satiPy
    have hs := (C41_positive freeze).ne'
    simp [e0, hf.le.not_gt, hf.ne', hs]

example : ∃ r, topothermC 5 2 1500 (9 / 10) = some r ∧ topothermPy (some 5) (some 2) 1500 (9 / 10) = some r :=
  C79_agree 5 2 1500 (9 / 10) (by norm_num [freeze]) (by norm_num [freeze]) (by norm_num [freeze, lapseM])

/-! ### C80: every combination of options runs -/

/-- C80 as stated: for temperatures above absolute zero every configuration succeeds. -/
def C80_full : Prop :=
  ∀ (c : Cfg) (g : Maps Unit) (x : In Unit),
    (∀ i, 0 < x.airTemp i + freeze ∧ 0 < x.dew i + freeze ∧ 0 < x.airTemp i + freeze - lapseM * g.dem i) →
    ∃ o, distribute c g x = .ok o

/-- It succeeds unless the method is `marks1979` and the terrain correction is off; a configuration's
images are exactly the requested ones. -/
theorem C80_options_partial {ι : Type} (c : Cfg) (g : Maps ι) (x : In ι)
    (hx : ∀ i, 0 < x.airTemp i + freeze ∧ 0 < x.dew i + freeze ∧ 0 < x.airTemp i + freeze - lapseM * g.dem i)
    (hc : c.sky = .marks1979 → c.terrain = true) :
    ∃ o, distribute c g x = .ok o ∧ (o.cloud.isSome ↔ c.cloud.isSome) ∧ (o.veg.isSome ↔ c.veg = true) := by
  have hsky : ∃ cth, clearSky c.sky g.dem (if c.terrain = true then some g.svf else none) x = .ok cth := by
    unfold clearSky
    cases hm : c.sky with
    | marks1979 =>
      rw [if_pos (hc hm)]
      simp only
      rw [dif_pos fun i => by
        obtain ⟨r, hr, -⟩ := C79_agree (x.airTemp i) (x.dew i) (g.dem i) (g.svf i) (hx i).1 (hx i).2.1 (hx i).2.2
        rw [hr]; rfl]
      exact ⟨_, rfl⟩
    | dilley1998 => exact ⟨_, rfl⟩
    | prata1996 => exact ⟨_, rfl⟩
    | angstrom1918 => exact ⟨_, rfl⟩
  obtain ⟨cth, hcth⟩ := hsky
  unfold distribute
  simp only [hcth]
  refine ⟨_, rfl, ?_, ?_⟩
  · simp
  · by_cases hv : c.veg = true <;> simp [hv]

theorem clamp_limits (lo hi : Option ℝ) (y : ℝ) :
    (∀ l, lo = some l → (∀ h, hi = some h → l ≤ h) → l ≤ Solar.clamp lo hi y) ∧ (∀ h, hi = some h → Solar.clamp lo hi y ≤ h) ∧
    ((∀ l, lo = some l → l ≤ y) → (∀ h, hi = some h → y ≤ h) → Solar.clamp lo hi y = y) := by
  have low : ∀ l z, Solar.clamp (some l) none z = if z ≤ l then l else z := fun _ _ => rfl
  have high : ∀ h z, Solar.clamp none (some h) z = if h ≤ z then h else z := fun _ _ => rfl
  have both : ∀ l h z, Solar.clamp (some l) (some h) z = Solar.clamp none (some h) (Solar.clamp (some l) none z) :=
    fun _ _ _ => rfl
  have idle : Solar.clamp none none y = y := rfl
  rcases lo with _ | lo <;> rcases hi with _ | hi
  · rw [idle]; simp
  · rw [high]; grind
  · rw [low]; grind
  · rw [both, low, high]; grind

/-- The published image is the last stage that is switched on, held inside the configured limits. -/
theorem C80_published {ι : Type} (c : Cfg) (g : Maps ι) (x : In ι) (o : Out ι) (h : distribute c g x = .ok o) (i : ι) :
    (∀ lo, c.lo = some lo → (∀ hi, c.hi = some hi → lo ≤ hi) → lo ≤ o.thermal i) ∧ (∀ hi, c.hi = some hi → o.thermal i ≤ hi) ∧
    ((∀ lo, c.lo = some lo → lo ≤ (o.veg.getD (o.cloud.getD o.clear)) i) →
      (∀ hi, c.hi = some hi → (o.veg.getD (o.cloud.getD o.clear)) i ≤ hi) →
      o.thermal i = (o.veg.getD (o.cloud.getD o.clear)) i) := by
  unfold distribute at h
  simp only at h
  split at h
  · cases h
  · simp only [Except.ok.injEq] at h
    subst h
    simp only
    have e : ∀ {α : Type} (a : Option α) (b : α), a.elim b id = a.getD b := by intro α a b; cases a <;> rfl
    simp only [e]
    generalize (Option.getD _ _ : ι → ℝ) i = y
    exact clamp_limits c.lo c.hi y

/-- With `marks1979` and the terrain correction off every step fails. -/
theorem C80_no_terrain_fails {ι : Type} (c : Cfg) (g : Maps ι) (x : In ι) (hm : c.sky = .marks1979) (ht : c.terrain = false) :
    distribute c g x = .error .value := by
  unfold distribute clearSky
  simp [hm, ht]

theorem C80_fails : ¬ C80_full := by
  intro h
  obtain ⟨o, ho⟩ := h ⟨.marks1979, none, false, false, none, none⟩ ⟨fun _ => 0, fun _ => 1, fun _ => 0, fun _ => 1⟩
    ⟨fun _ => 0, fun _ => 600, fun _ => 0, fun _ => 1⟩ (fun _ => by norm_num [freeze])
  rw [C80_no_terrain_fails _ _ _ rfl rfl] at ho
  cases ho

example : ∃ o, distribute ⟨.marks1979, some .garen2005, true, true, none, none⟩
    ⟨fun _ : Fin 2 => 1000, fun _ => 1, fun _ => 0, fun _ => 1⟩ ⟨fun _ => 1, fun _ => 600, fun _ => -1, fun _ => 1 / 2⟩ = .ok o :=
  (C80_options_partial _ _ _ (fun _ => by norm_num [freeze, lapseM]) (fun _ => rfl)).imp fun _ h => h.1

end Verif.Thermal
