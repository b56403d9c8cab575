import Verif.SolarResponseProps
import Verif.ThermalProps

/-!
How the thermal radiation of a step follows the moisture, the temperature and the clouds (C171). No new model: two runs of `Thermal.distribute`.
-/

namespace Verif.Thermal

open Verif.Vapor Verif.Twostream

/-- What the step makes of the clear-sky value of a cell. -/
noncomputable def later (c : Cfg) (tau height ta vp cf th : ℝ) : ℝ :=
  let t := c.cloud.elim th fun m => cloudCell m th ta vp cf
  Solar.clamp c.lo c.hi (if c.veg = true then correctCanopy t ta tau height else t)

theorem step_cell {ι : Type} (c : Cfg) (g : Maps ι) (x : In ι) (o : Out ι) (h : distribute c g x = .ok o) :
    ∃ cth, clearSky c.sky g.dem (if c.terrain = true then some g.svf else none) x = .ok cth ∧
      ∀ i, o.thermal i = later c (g.tau i) (g.height i) (x.airTemp i) (x.vapor i) (x.cloudFactor i)
        (terrain c.sky (if c.terrain = true then some g.svf else none) x.airTemp cth i) := by
  unfold distribute at h
  simp only at h
  split at h
  · cases h
  · rename_i cth hc
    cases h
    refine ⟨cth, hc, fun i => ?_⟩
    unfold later
    rcases hcl : c.cloud with _ | m <;> cases hv : c.veg <;> simp [hcl, hv]

theorem blackBody_mono {s t : ℝ} (hs : -(27316 / 100) < s) (h : s ≤ t) : blackBody s ≤ blackBody t := by
  unfold blackBody
  exact mul_le_mul_of_nonneg_left (pow_le_pow_left₀ (by linarith) (by linarith) 4) (by norm_num)

theorem cloud_le (m : Cloud) (hm : m ≠ .kimball1982) (th th' ta ta' vp vp' cf : ℝ) (h : th ≤ th') (hs : -(27316 / 100) < ta) (ht : ta ≤ ta')
    (h0 : 0 ≤ cf) (h1 : cf ≤ 1) : cloudCell m th ta vp cf ≤ cloudCell m th' ta' vp' cf := by
  have hb := blackBody_mono hs ht
  cases m with
  | garen2005 => exact mul_le_mul_of_nonneg_right h (by linarith)
  | unsworth1975 =>
    show unsworth _ _ _ ≤ unsworth _ _ _
    rw [unsworth_eq _ _ _ hs, unsworth_eq _ _ _ (hs.trans_le ht)]
    exact add_le_add (mul_le_mul_of_nonneg_left h (by linarith)) (mul_le_mul_of_nonneg_left hb (by linarith))
  | kimball1982 => exact absurd rfl hm
  | crawford1999 =>
    show crawford _ _ _ ≤ crawford _ _ _
    rw [crawford_eq, crawford_eq]
    exact add_le_add (mul_le_mul_of_nonneg_left hb (by linarith)) (mul_le_mul_of_nonneg_left h h0)

theorem canopy_le (th th' ta ta' tau height : ℝ) (h : th ≤ th') (hs : -(27316 / 100) < ta) (ht : ta ≤ ta') (h0 : 0 ≤ tau) (h1 : tau ≤ 1) :
    correctCanopy th ta tau height ≤ correctCanopy th' ta' tau height := by
  have hb := blackBody_mono hs ht
  have e : ∀ th ta, correctCanopy th ta tau height = if 2 < height then tau * th + (1 - tau) * (96 / 100 * blackBody ta) else th := by
    intro th ta
    unfold correctCanopy blackBody stefBoltz emissVeg freeze
    simp only
    split
    · ring
    · rfl
  rw [e, e]
  split
  · exact add_le_add (mul_le_mul_of_nonneg_left h h0) (mul_le_mul_of_nonneg_left (by linarith) (by linarith))
  · exact h

/-- The later stages keep the order. -/
theorem later_le (c : Cfg) (hc : c.cloud ≠ some .kimball1982) (tau height ta ta' vp vp' cf th th' : ℝ) (h : th ≤ th') (hs : -(27316 / 100) < ta)
    (ht : ta ≤ ta') (h0 : 0 ≤ tau) (h1 : tau ≤ 1) (c0 : 0 ≤ cf) (c1 : cf ≤ 1) :
    later c tau height ta vp cf th ≤ later c tau height ta' vp' cf th' := by
  unfold later
  have a : (c.cloud.elim th fun m => cloudCell m th ta vp cf) ≤ c.cloud.elim th' fun m => cloudCell m th' ta' vp' cf := by
    rcases hm : c.cloud with _ | m
    · exact h
    · exact cloud_le m (fun e => hc (by rw [hm, e])) _ _ _ _ _ _ _ h hs ht c0 c1
  apply Solar.clamp_mono
  split
  · exact canopy_le _ _ _ _ _ _ a hs ht h0 h1
  · exact a

/-- The maps and the weather of a cell: fractions are fractions, the vapor pressure is not negative, temperatures above absolute zero. -/
structure Sound {ι : Type} (g : Maps ι) (x : In ι) : Prop where
  svf : ∀ i, 0 ≤ g.svf i ∧ g.svf i ≤ 1
  tau : ∀ i, 0 ≤ g.tau i ∧ g.tau i ≤ 1
  cloud : ∀ i, 0 ≤ x.cloudFactor i ∧ x.cloudFactor i ≤ 1
  vapor : ∀ i, 0 ≤ x.vapor i
  temp : ∀ i, -(27316 / 100) < x.airTemp i ∧ x.airTemp i ≤ 700

/-- The air of the second run is nowhere drier, all else is the same. -/
structure Moister {ι : Type} (x x' : In ι) : Prop where
  temp : x'.airTemp = x.airTemp
  cloud : x'.cloudFactor = x.cloudFactor
  vapor : ∀ i, x.vapor i ≤ x'.vapor i
  dew : ∀ i, x.dew i ≤ x'.dew i

/-- The air of the second run is nowhere colder. -/
structure Hotter {ι : Type} (x x' : In ι) : Prop where
  temp : ∀ i, x.airTemp i ≤ x'.airTemp i
  cloud : x'.cloudFactor = x.cloudFactor
  vapor : x'.vapor = x.vapor
  dew : x'.dew = x.dew

/-- The sky of the second run is nowhere clearer. -/
structure Cloudier {ι : Type} (x x' : In ι) : Prop where
  temp : x'.airTemp = x.airTemp
  cloud : ∀ i, x'.cloudFactor i ≤ x.cloudFactor i
  vapor : x'.vapor = x.vapor
  dew : x'.dew = x.dew

/-- Claimed: moister, hotter or cloudier air never gives less thermal radiation. -/
def C171_full : Prop :=
  ∀ (c : Cfg) (g : Maps Unit) (x x' : In Unit) (o o' : Out Unit), Sound g x → Sound g x' → Moister x x' ∨ Hotter x x' ∨ Cloudier x x' →
    distribute c g x = .ok o → distribute c g x' = .ok o' → ∀ i, o.thermal i ≤ o'.thermal i

theorem dilley_moist (ta ea ea' : ℝ) (ht : -(27316 / 100) < ta) (h : ea ≤ ea') : dilley ta ea ≤ dilley ta ea' := by
  unfold dilley
  simp only
  have hT : 0 < ta + freeze := by unfold freeze; linarith
  have : Real.sqrt (precipitableWater (ta + freeze) ea / 25) ≤ Real.sqrt (precipitableWater (ta + freeze) ea' / 25) := by
    apply Real.sqrt_le_sqrt
    unfold precipitableWater
    exact div_le_div_of_nonneg_right (div_le_div_of_nonneg_right (by linarith) hT.le) (by norm_num)
  linarith

/-- Moister air gives no less clear-sky radiation. -/
theorem sky_moist {ι : Type} (m : Sky) (dem : ι → ℝ) (svf : Option (ι → ℝ)) (hv : ∀ v, svf = some v → ∀ i, 0 ≤ v i) (x x' : In ι)
    (hm : Moister x x') (ht : ∀ i, -(27316 / 100) < x.airTemp i ∧ x.airTemp i ≤ 700) (h0 : ∀ i, 0 ≤ x.vapor i) (cth cth' : ι → ℝ)
    (h : clearSky m dem svf x = .ok cth) (h' : clearSky m dem svf x' = .ok cth') (i : ι) : cth i ≤ cth' i := by
  have hd : x.vapor i / 1000 ≤ x'.vapor i / 1000 := by have := hm.vapor i; linarith
  have hd0 : 0 ≤ x.vapor i / 1000 := by have := h0 i; linarith
  have et : x'.airTemp i = x.airTemp i := congrFun hm.temp i
  cases m with
  | marks1979 =>
    rcases svf with _ | v
    · cases h
    · unfold clearSky at h h'
      simp only at h h'
      split at h
      · rename_i hs
        split at h'
        · rename_i hs'
          cases h
          cases h'
          have e' := (Option.some_get (hs' i)).symm
          refine C78_marks_dew (x.airTemp i) (x.dew i) (x'.dew i) (dem i) (v i) _ _ (Option.some_get (hs i)).symm ?_ (hm.dew i) (hv v rfl i) (ht i).2
          rw [← et]
          exact e'
        · cases h'
      · cases h
  | dilley1998 =>
    cases h; cases h'
    show dilley _ _ ≤ dilley _ _
    rw [et]
    exact dilley_moist _ _ _ (ht i).1 hd
  | prata1996 =>
    cases h; cases h'
    show prata _ _ ≤ prata _ _
    rw [et]
    rcases hd.lt_or_eq with hl | he
    · exact (C78_prata_shape _ _ _ (ht i).1 hd0 hl).2.le
    · rw [he]
  | angstrom1918 =>
    cases h; cases h'
    show angstrom _ _ ≤ angstrom _ _
    rw [et]
    exact (C78_angstrom _ _ _ (ht i).1 hd0 hd).2.2

/-- Moister air, for every clear-sky method and every cloud method but that of Kimball. -/
theorem C171_moist_partial {ι : Type} (c : Cfg) (hc : c.cloud ≠ some .kimball1982) (g : Maps ι) (x x' : In ι) (hx : Sound g x)
    (hm : Moister x x') (o o' : Out ι) (h : distribute c g x = .ok o) (h' : distribute c g x' = .ok o') (i : ι) : o.thermal i ≤ o'.thermal i := by
  obtain ⟨cth, hs, e⟩ := step_cell c g x o h
  obtain ⟨cth', hs', e'⟩ := step_cell c g x' o' h'
  have et : x'.airTemp i = x.airTemp i := congrFun hm.temp i
  have hl := sky_moist c.sky g.dem _ (fun v hv j => by
    split at hv
    · cases hv; exact (hx.svf j).1
    · cases hv) x x' hm hx.temp hx.vapor cth cth' hs hs' i
  rw [e, e', et, congrFun hm.cloud i, hm.temp]
  refine later_le c hc _ _ _ _ _ _ _ _ _ ?_ (hx.temp i).1 le_rfl (hx.tau i).1 (hx.tau i).2 (hx.cloud i).1 (hx.cloud i).2
  unfold terrain
  by_cases hT : c.terrain = true
  · simp only [if_pos hT]
    split
    · exact hl
    · have := mul_le_mul_of_nonneg_right hl (hx.svf i).1
      simp only
      linarith
  · simp only [if_neg hT]
    exact hl

/-- The emissivity of Prata. -/
noncomputable def prataE (w : ℝ) : ℝ := 1 - (1 + w) * Real.exp (-Real.sqrt (12 / 10 + 3 * w))

/-- The emissivity of Prata grows at most with the fourth power of the water. -/
theorem prata_power (w r : ℝ) (hw : 0 ≤ w) (hr : 1 ≤ r) : prataE (r * w) ≤ r ^ 4 * prataE w := by
  unfold prataE
  have hrw : w ≤ r * w := by nlinarith
  have hs := Real.sq_sqrt (show (0 : ℝ) ≤ 12 / 10 + 3 * w by linarith)
  have hs' := Real.sq_sqrt (show (0 : ℝ) ≤ 12 / 10 + 3 * (r * w) by linarith)
  have hle : Real.sqrt (12 / 10 + 3 * w) ≤ Real.sqrt (12 / 10 + 3 * (r * w)) := Real.sqrt_le_sqrt (by linarith)
  have hpos : 0 < Real.sqrt (12 / 10 + 3 * w) := Real.sqrt_pos.2 (by linarith)
  generalize Real.sqrt (12 / 10 + 3 * w) = s at *
  generalize Real.sqrt (12 / 10 + 3 * (r * w)) = s' at *
  have hw1 : w = (s ^ 2 - 12 / 10) / 3 := by linarith
  -- exp(-s) (s^3 + 1.8 s) / 6 <= 1 and (1 + w) exp (-s) <= 3 / 4
  have hE := Real.exp_pos (-s)
  have hcube : 1 + s + s ^ 2 / 2 + s ^ 3 / 6 ≤ Real.exp s := by
    have := Real.sum_le_exp_of_nonneg hpos.le 4
    simp [Finset.sum_range_succ, Nat.factorial] at this
    linarith
  have hone : Real.exp (-s) * Real.exp s = 1 := by rw [← Real.exp_add]; simp
  have hA : (s ^ 3 + 18 / 10 * s) / 6 * Real.exp (-s) ≤ 1 := by
    have : (s ^ 3 + 18 / 10 * s) / 6 ≤ Real.exp s := by nlinarith [sq_nonneg s]
    have := mul_le_mul_of_nonneg_right this hE.le
    linarith
  have hB : (1 + w) * Real.exp (-s) ≤ 3 / 4 := by
    have : (1 + w) ≤ 3 / 4 * Real.exp s := by
      rw [hw1]
      nlinarith [sq_nonneg s, pow_pos hpos 3]
    have := mul_le_mul_of_nonneg_right this hE.le
    linarith
  -- the difference of the exponentials
  have hx : 0 ≤ s' - s := by linarith
  have hexp : Real.exp (-s) - Real.exp (-s') ≤ Real.exp (-s) * (s' - s) := by
    have e : Real.exp (-s') = Real.exp (-s) * Real.exp (-(s' - s)) := by rw [← Real.exp_add]; congr 1; ring
    have := Real.add_one_le_exp (-(s' - s))
    rw [e]
    nlinarith
  have hE' := Real.exp_pos (-s')
  have hd : (s' - s) * (2 * s) ≤ 3 * (w * (r - 1)) := by nlinarith
  have h1 : (1 + w) * Real.exp (-s) - (1 + r * w) * Real.exp (-s') ≤ r - 1 := by
    have a : (1 + w) * Real.exp (-s) - (1 + r * w) * Real.exp (-s') ≤ (1 + w) * (Real.exp (-s) * (s' - s)) := by nlinarith
    have b : (1 + w) * (Real.exp (-s) * (s' - s)) * (2 * s) ≤ (r - 1) * (2 * s) := by
      have k : (1 + w) * Real.exp (-s) * ((s' - s) * (2 * s)) ≤ (1 + w) * Real.exp (-s) * (3 * (w * (r - 1))) :=
        mul_le_mul_of_nonneg_left hd (by positivity)
      have q : (1 + w) * Real.exp (-s) * (3 * w) ≤ 2 * s := by
        have q1 : (1 + w) * (3 * w) ≤ 2 * s * ((s ^ 3 + 18 / 10 * s) / 6) := by
          rw [hw1]; nlinarith [sq_nonneg s]
        have q2 := mul_le_mul_of_nonneg_right q1 hE.le
        have q3 := mul_le_mul_of_nonneg_left hA (show 0 ≤ 2 * s by linarith)
        linarith
      have q4 := mul_le_mul_of_nonneg_right q (show 0 ≤ r - 1 by linarith)
      linarith
    have c := le_of_mul_le_mul_right b (show 0 < 2 * s by linarith)
    linarith
  have hr4 : 1 + 4 * (r - 1) ≤ r ^ 4 := by
    have := one_add_mul_le_pow (show (-2 : ℝ) ≤ r - 1 by linarith) 4
    norm_num at this
    linarith
  have h2 : (r ^ 4 - 1) * (1 / 4) ≤ (r ^ 4 - 1) * (1 - (1 + w) * Real.exp (-s)) := mul_le_mul_of_nonneg_left (by linarith) (by linarith)
  linarith

theorem prata_hot (ta ta' ea : ℝ) (ht : -(27316 / 100) < ta) (h : ta ≤ ta') (he : 0 ≤ ea) : prata ta ea ≤ prata ta' ea := by
  have hT : 0 < ta + freeze := by unfold freeze; linarith
  have hT' : 0 < ta' + freeze := by unfold freeze at *; linarith
  have e : ∀ t, prata t ea = prataE (precipitableWater (t + freeze) ea) * blackBody t := fun t => longWave_eq _ _
  rw [e, e]
  have hw : precipitableWater (ta + freeze) ea = (ta' + freeze) / (ta + freeze) * precipitableWater (ta' + freeze) ea := by
    unfold precipitableWater; field_simp
  have hw0 : 0 ≤ precipitableWater (ta' + freeze) ea := div_nonneg (by linarith) hT'.le
  have hp := prata_power _ ((ta' + freeze) / (ta + freeze)) hw0 ((one_le_div hT).2 (by linarith))
  rw [← hw] at hp
  have hb : blackBody ta' = ((ta' + freeze) / (ta + freeze)) ^ 4 * blackBody ta := by
    unfold blackBody
    rw [show (27316 / 100 : ℝ) = freeze from rfl]
    field_simp
  rw [hb]
  have := mul_le_mul_of_nonneg_right hp (blackBody_nonneg ta)
  linarith

theorem dilley_hot (ta ta' ea : ℝ) (ht : -63 ≤ ta) (h : ta ≤ ta') (he : 0 ≤ ea) (he5 : ea ≤ 5) : dilley ta ea ≤ dilley ta' ea := by
  unfold dilley
  simp only
  have hT : 210 ≤ ta + freeze := by unfold freeze; linarith
  have hTT : ta + freeze ≤ ta' + freeze := by linarith
  generalize ta + freeze = T at *
  generalize ta' + freeze = T' at *
  -- the roots
  have hw0 : 0 ≤ precipitableWater T ea / 25 := div_nonneg (div_nonneg (by linarith) (by linarith)) (by norm_num)
  have hw0' : 0 ≤ precipitableWater T' ea / 25 := div_nonneg (div_nonneg (by linarith) (by linarith)) (by norm_num)
  have hq := Real.sq_sqrt hw0
  have hq' := Real.sq_sqrt hw0'
  have hn := Real.sqrt_nonneg (precipitableWater T ea / 25)
  have hn' := Real.sqrt_nonneg (precipitableWater T' ea / 25)
  have hrel : precipitableWater T' ea / 25 * T' = precipitableWater T ea / 25 * T := by
    unfold precipitableWater
    have : T ≠ 0 := by linarith
    have : T' ≠ 0 := by linarith
    field_simp
  have hbound : precipitableWater T ea / 25 ≤ 9 / 2 := by
    unfold precipitableWater
    rw [div_div, div_le_iff₀ (by linarith)]
    linarith
  generalize precipitableWater T ea / 25 = w at *
  generalize precipitableWater T' ea / 25 = w' at *
  generalize Real.sqrt w = a at *
  generalize Real.sqrt w' = b at *
  -- a - b is small against the growth of the sixth power
  have ha : a ≤ 22 / 10 := by nlinarith
  have h6 : (T / (27316 / 100)) ^ 6 * (1 + 6 * ((T' - T) / T)) ≤ (T' / (27316 / 100)) ^ 6 := by
    have hT0 : 0 < T := by linarith
    have e : T' / (27316 / 100) = T / (27316 / 100) * (1 + (T' - T) / T) := by field_simp; ring
    have hb6 := one_add_mul_le_pow (show (-2 : ℝ) ≤ (T' - T) / T by have := div_nonneg (sub_nonneg.2 hTT) hT0.le; linarith) 6
    rw [e, mul_pow]
    apply mul_le_mul_of_nonneg_left _ (by positivity)
    push_cast at hb6
    exact hb6
  have hc6 : 2 / 10 ≤ (T / (27316 / 100)) ^ 6 := by
    have : (210 / (27316 / 100) : ℝ) ^ 6 ≤ (T / (27316 / 100)) ^ 6 :=
      pow_le_pow_left₀ (by norm_num) (div_le_div_of_nonneg_right hT (by norm_num)) 6
    refine le_trans (by norm_num) this
  have hT0 : 0 < T := by linarith
  have hd0 : 0 ≤ (T' - T) / T := div_nonneg (sub_nonneg.2 hTT) hT0.le
  have hr : T' = T * (1 + (T' - T) / T) := by field_simp; ring
  generalize (T' - T) / T = d at *
  generalize (T / (27316 / 100)) ^ 6 = p at *
  generalize (T' / (27316 / 100)) ^ 6 = p' at *
  have hsq : b ^ 2 * (1 + d) = a ^ 2 := by
    have : b ^ 2 * T' = a ^ 2 * T := by rw [hq, hq']; exact hrel
    rw [hr] at this
    exact mul_right_cancel₀ hT0.ne' (by linarith)
  have hab : a - b ≤ a * (d / 2) := by
    rcases le_or_gt 2 d with h2 | h2
    · nlinarith
    · by_contra hc
      have hc' : b < a * (1 - d / 2) := by linarith [not_le.1 hc]
      have k : b ^ 2 < (a * (1 - d / 2)) ^ 2 := pow_lt_pow_left₀ hc' hn' two_ne_zero
      have k2 := mul_lt_mul_of_pos_right k (show 0 < 1 + d by linarith)
      have k3 : (a * (1 - d / 2)) ^ 2 * (1 + d) = a ^ 2 - a ^ 2 * (d ^ 2 * (3 - d) / 4) := by ring
      have k4 : 0 ≤ a ^ 2 * (d ^ 2 * (3 - d) / 4) := mul_nonneg (sq_nonneg a) (div_nonneg (mul_nonneg (sq_nonneg d) (by linarith)) (by norm_num))
      linarith
  have l1 : p * d ≥ 2 / 10 * d := mul_le_mul_of_nonneg_right hc6 hd0
  have l2 : a * d ≤ 22 / 10 * d := mul_le_mul_of_nonneg_right ha hd0
  linarith

theorem angstrom_hot (ta ta' ea : ℝ) (ht : -(27316 / 100) < ta) (h : ta ≤ ta') (he : 0 ≤ ea) : angstrom ta ea ≤ angstrom ta' ea := by
  have e : ∀ t, angstrom t ea = (83 / 100 - 18 / 100 * (10 : ℝ) ^ (-(67 / 1000) * ea)) * blackBody t := fun t => longWave_eq _ _
  rw [e, e]
  refine mul_le_mul_of_nonneg_left (blackBody_mono ht h) ?_
  have : (10 : ℝ) ^ (-(67 / 1000) * ea) ≤ 1 := Real.rpow_le_one_of_one_le_of_nonpos (by norm_num) (by linarith)
  linarith

/-- Where the method of Dilley is known to rise with the temperature: not below -63 degrees, vapor pressures up to 5 kPa. -/
def Mild {ι : Type} (m : Sky) (x : In ι) : Prop := m = .dilley1998 → ∀ i, -63 ≤ x.airTemp i ∧ x.vapor i ≤ 5000

theorem sky_hot {ι : Type} (m : Sky) (hn : m ≠ .marks1979) (dem : ι → ℝ) (svf : Option (ι → ℝ)) (x x' : In ι) (hm : Hotter x x')
    (hd : Mild m x) (ht : ∀ i, -(27316 / 100) < x.airTemp i) (h0 : ∀ i, 0 ≤ x.vapor i) (cth cth' : ι → ℝ)
    (h : clearSky m dem svf x = .ok cth) (h' : clearSky m dem svf x' = .ok cth') (i : ι) : cth i ≤ cth' i := by
  have hd0 : 0 ≤ x.vapor i / 1000 := by have := h0 i; linarith
  have ev : x'.vapor i = x.vapor i := congrFun hm.vapor i
  cases m with
  | marks1979 => exact absurd rfl hn
  | dilley1998 =>
    cases h; cases h'
    show dilley _ _ ≤ dilley _ _
    rw [ev]
    have := hd rfl i
    exact dilley_hot _ _ _ this.1 (hm.temp i) hd0 (by linarith)
  | prata1996 =>
    cases h; cases h'
    show prata _ _ ≤ prata _ _
    rw [ev]
    exact prata_hot _ _ _ (ht i) (hm.temp i) hd0
  | angstrom1918 =>
    cases h; cases h'
    show angstrom _ _ ≤ angstrom _ _
    rw [ev]
    exact angstrom_hot _ _ _ (ht i) (hm.temp i) hd0

/-- Hotter air, for the methods of Dilley, Prata and Angstrom, every cloud method but that of Kimball, and where the terrain correction is off, the
cell sees no terrain or the air is not below zero (the terrain term takes the fourth power of the temperature in degrees, C52). -/
theorem C171_hot_partial {ι : Type} (c : Cfg) (hs : c.sky ≠ .marks1979) (hc : c.cloud ≠ some .kimball1982) (g : Maps ι) (x x' : In ι)
    (hx : Sound g x) (hm : Hotter x x') (hd : Mild c.sky x) (hg : c.terrain = true → ∀ i, g.svf i = 1 ∨ 0 ≤ x.airTemp i) (o o' : Out ι)
    (h : distribute c g x = .ok o) (h' : distribute c g x' = .ok o') (i : ι) : o.thermal i ≤ o'.thermal i := by
  obtain ⟨cth, hs1, e⟩ := step_cell c g x o h
  obtain ⟨cth', hs2, e'⟩ := step_cell c g x' o' h'
  have hl := sky_hot c.sky hs g.dem _ x x' hm hd (fun i => (hx.temp i).1) hx.vapor cth cth' hs1 hs2 i
  rw [e, e', congrFun hm.cloud i]
  refine later_le c hc _ _ _ _ _ _ _ _ _ ?_ (hx.temp i).1 (hm.temp i) (hx.tau i).1 (hx.tau i).2 (hx.cloud i).1 (hx.cloud i).2
  unfold terrain
  by_cases hT : c.terrain = true
  · simp only [if_pos hT, if_neg hs]
    have a := mul_le_mul_of_nonneg_right hl (hx.svf i).1
    refine add_le_add a ?_
    rcases hg hT i with h1 | h1
    · rw [h1]; simp
    · exact mul_le_mul_of_nonneg_left (pow_le_pow_left₀ h1 (hm.temp i) 4)
        (mul_nonneg (by have := (hx.svf i).2; linarith) stefBoltz_pos.le)
  · simp only [if_neg hT]
    exact hl

theorem cloud_cloudier (m : Cloud) (th ta vp cf cf' : ℝ) (ht : -(27316 / 100) < ta) (h0 : 0 ≤ th) (h1 : th ≤ blackBody ta) (h : cf' ≤ cf) :
    cloudCell m th ta vp cf ≤ cloudCell m th ta vp cf' := by
  cases m with
  | garen2005 => exact mul_le_mul_of_nonneg_left (by linarith) h0
  | unsworth1975 =>
    show unsworth _ _ _ ≤ unsworth _ _ _
    rw [unsworth_eq _ _ _ ht, unsworth_eq _ _ _ ht]
    have := mul_nonneg (sub_nonneg.2 h) (sub_nonneg.2 h1)
    linarith
  | kimball1982 => exact le_rfl
  | crawford1999 =>
    show crawford _ _ _ ≤ crawford _ _ _
    rw [crawford_eq, crawford_eq]
    have := mul_nonneg (sub_nonneg.2 h) (sub_nonneg.2 h1)
    linarith

/-- A cloudier sky, for every cloud method, the methods of Marks, Prata and Angstrom, and temperatures from -136 degrees on. -/
theorem C171_cloud_partial {ι : Type} (c : Cfg) (hs : c.sky ≠ .dilley1998) (g : Maps ι) (x x' : In ι) (hx : Sound g x)
    (hT : ∀ i, -136 ≤ x.airTemp i) (hm : Cloudier x x') (o o' : Out ι)
    (h : distribute c g x = .ok o) (h' : distribute c g x' = .ok o') (i : ι) : o.thermal i ≤ o'.thermal i := by
  obtain ⟨cth, hs1, e⟩ := step_cell c g x o h
  obtain ⟨cth', hs2, e'⟩ := step_cell c g x' o' h'
  have es : ∀ svf, clearSky c.sky g.dem svf x' = clearSky c.sky g.dem svf x := by
    intro svf
    obtain ⟨t, v, d, cf⟩ := x
    obtain ⟨t', v', d', cf'⟩ := x'
    obtain ⟨h1, -, h2, h3⟩ := hm
    simp only at h1 h2 h3
    subst h1 h2 h3
    rfl
  rw [es, hs1] at hs2
  cases hs2
  rw [e, e', hm.temp, hm.vapor]
  -- the clear-sky value lies between zero and the black body
  have hmem : 0 ≤ cth i ∧ cth i ≤ blackBody (x.airTemp i) := by
    by_cases ht : c.terrain = true
    · rw [if_pos ht] at hs1
      exact C78_step_partial c.sky hs g.dem g.svf x cth hs1 i (hx.svf i).1 (hx.svf i).2 (hx.temp i).1 (hx.vapor i)
    · rw [if_neg ht] at hs1
      refine C78_step_partial c.sky hs g.dem g.svf x cth ?_ i (hx.svf i).1 (hx.svf i).2 (hx.temp i).1 (hx.vapor i)
      rw [← hs1]
      cases hk : c.sky with
      | marks1979 => rw [hk] at hs1; cases hs1
      | dilley1998 => rfl
      | prata1996 => rfl
      | angstrom1918 => rfl
  have hclear : 0 ≤ terrain c.sky (if c.terrain = true then some g.svf else none) x.airTemp cth i ∧
      terrain c.sky (if c.terrain = true then some g.svf else none) x.airTemp cth i ≤ blackBody (x.airTemp i) := by
    unfold terrain
    by_cases ht : c.terrain = true
    · simp only [if_pos ht]
      split
      · exact hmem
      · have hv := hx.svf i
        have h4 : stefBoltz * x.airTemp i ^ 4 ≤ blackBody (x.airTemp i) := by
          unfold blackBody
          rw [show stefBoltz = 56697 / 10 ^ 12 from rfl]
          refine mul_le_mul_of_nonneg_left ?_ (by norm_num)
          have hT := hT i
          have : |x.airTemp i| ≤ x.airTemp i + 27316 / 100 := _root_.abs_le.2 ⟨by linarith, by linarith⟩
          calc x.airTemp i ^ 4 = |x.airTemp i| ^ 4 := by rw [Even.pow_abs (by decide)]
            _ ≤ _ := pow_le_pow_left₀ (abs_nonneg _) this 4
        have h40 : 0 ≤ stefBoltz * x.airTemp i ^ 4 := mul_nonneg stefBoltz_pos.le (by positivity)
        have a1 := mul_nonneg hmem.1 hv.1
        have a2 := mul_nonneg (sub_nonneg.2 hv.2) h40
        have a3 := mul_le_mul_of_nonneg_right hmem.2 hv.1
        have a4 := mul_le_mul_of_nonneg_left h4 (sub_nonneg.2 hv.2)
        constructor
        · linarith
        · linarith
    · simp only [if_neg ht]
      exact hmem
  generalize terrain c.sky (if c.terrain = true then some g.svf else none) x.airTemp cth i = th at hclear
  unfold later
  have a : (c.cloud.elim th fun m => cloudCell m th (x.airTemp i) (x.vapor i) (x.cloudFactor i)) ≤
      c.cloud.elim th fun m => cloudCell m th (x.airTemp i) (x.vapor i) (x'.cloudFactor i) := by
    rcases c.cloud with _ | m
    · exact le_rfl
    · exact cloud_cloudier m _ _ _ _ _ (hx.temp i).1 hclear.1 hclear.2 (hm.cloud i)
  apply Solar.clamp_mono
  split
  · exact canopy_le _ _ _ _ _ _ a (hx.temp i).1 le_rfl (hx.tau i).1 (hx.tau i).2
  · exact a

/-! ### Where it fails -/

/-- The step of one cell without limits and without canopy. -/
def bare (m : Sky) (k : Option Cloud) (t : Bool) : Cfg := ⟨m, k, false, t, none, none⟩

/-- The correction of Kimball: at about 27 degrees, doubling the vapor pressure from 1.75 to 3.5 kPa (just below saturation) takes more from the window
term than the clear sky gains. -/
theorem kimball_moist_drop (cf : ℝ) :
    cloudCell .kimball1982 (angstrom (2684 / 100) (3500 / 1000)) (2684 / 100) 3500 cf <
      cloudCell .kimball1982 (angstrom (2684 / 100) (1750 / 1000)) (2684 / 100) 1750 cf := by
  show kimball _ _ (3500 / 1000) cf < kimball _ _ (1750 / 1000) cf
  rw [kimball_eq, kimball_eq, kimballT8_eq, kimballT8_eq]
  have hb := blackBody_pos (t := 2684 / 100) (by norm_num)
  have e : Real.exp (3000 / (2684 / 100 + freeze)) = Real.exp 1 ^ 10 := by
    rw [← Real.exp_nat_mul]; unfold freeze; norm_num
  have hexp1 : (22026 : ℝ) ≤ Real.exp (3000 / (2684 / 100 + freeze)) := by
    rw [e]
    calc (22026 : ℝ) ≤ 2.7182818283 ^ 10 := by norm_num
      _ ≤ _ := pow_le_pow_left₀ (by norm_num) Real.exp_one_gt_d9.le 10
  have hexp2 : Real.exp (3000 / (2684 / 100 + freeze)) ≤ 22027 := by
    rw [e]
    calc _ ≤ (2.7182818286 : ℝ) ^ 10 := pow_le_pow_left₀ (Real.exp_pos 1).le Real.exp_one_lt_d9.le 10
      _ ≤ _ := by norm_num
  have a1 : 43 / 100 ≤ kimballE8 (2684 / 100 + freeze) (1750 / 1000) := by unfold kimballE8; nlinarith
  have a2 : kimballE8 (2684 / 100 + freeze) (1750 / 1000) ≤ 45 / 100 := by unfold kimballE8; nlinarith
  have b1 : 1 ≤ kimballE8 (2684 / 100 + freeze) (3500 / 1000) := by unfold kimballE8; nlinarith
  have b2 : kimballE8 (2684 / 100 + freeze) (3500 / 1000) ≤ 2 := by unfold kimballE8; nlinarith
  have f : 36 / 100 ≤ kimballF8 (2684 / 100 + freeze) := by unfold kimballF8 freeze; norm_num
  -- the gain of the clear sky
  have gain : angstrom (2684 / 100) (3500 / 1000) - angstrom (2684 / 100) (1750 / 1000) ≤ 5 / 100 * blackBody (2684 / 100) := by
    have h1 := (C78_angstrom_shape (2684 / 100) (1750 / 1000) (1750 / 1000)).2
    have h2 : (74 / 100 : ℝ) ≤ (10 : ℝ) ^ (-(67 / 1000) * (1750 / 1000) : ℝ) := by
      have k1 : (10 : ℝ) ^ (-(1 / 8) : ℝ) ≤ (10 : ℝ) ^ (-(67 / 1000) * (1750 / 1000) : ℝ) :=
        Real.rpow_le_rpow_of_exponent_le (by norm_num) (by norm_num)
      have k2 : (74 / 100 : ℝ) ≤ (10 : ℝ) ^ (-(1 / 8) : ℝ) := by
        have p : ((10 : ℝ) ^ (-(1 / 8) : ℝ)) ^ 8 = 1 / 10 := by
          rw [← Real.rpow_natCast, ← Real.rpow_mul (by norm_num)]
          norm_num [Real.rpow_neg_one]
        refine le_of_pow_le_pow_left₀ (n := 8) (by norm_num) (Real.rpow_pos_of_pos (by norm_num) _).le ?_
        rw [p]; norm_num
      exact k2.trans k1
    have h3 := (C78_angstrom (2684 / 100) (1750 / 1000) (1750 / 1000) (by norm_num) (by norm_num) le_rfl).1
    rw [show (1750 / 1000 + 1750 / 1000 : ℝ) = 3500 / 1000 by norm_num] at h1
    have h4 := (C78_angstrom (2684 / 100) (1750 / 1000) (1750 / 1000) (by norm_num) (by norm_num) le_rfl).2.1
    have h5 := mul_le_mul_of_nonneg_right h2 (show 0 ≤ 83 / 100 * blackBody (2684 / 100) - angstrom (2684 / 100) (1750 / 1000) by linarith)
    linarith
  generalize kimballE8 (2684 / 100 + freeze) (1750 / 1000) = u at *
  generalize kimballE8 (2684 / 100 + freeze) (3500 / 1000) = v at *
  generalize kimballF8 (2684 / 100 + freeze) = f8 at *
  generalize angstrom (2684 / 100) (3500 / 1000) = p at *
  generalize angstrom (2684 / 100) (1750 / 1000) = q at *
  generalize blackBody (2684 / 100) = bb at *
  have hu : 19 / 100 ≤ u * ((1 - u) * (1 - 2 / 5 * u)) := by
    nlinarith [mul_nonneg (sub_nonneg.2 a1) (sub_nonneg.2 a2), mul_nonneg (mul_nonneg (sub_nonneg.2 a1) (sub_nonneg.2 a2)) (show 0 ≤ u by linarith)]
  have hv : v * ((1 - v) * (1 - 2 / 5 * v)) ≤ 0 :=
    mul_nonpos_of_nonneg_of_nonpos (by linarith) (mul_nonpos_of_nonpos_of_nonneg (by linarith) (by linarith))
  have h1 : 36 / 100 * (19 / 100) ≤ f8 * (u * ((1 - u) * (1 - 2 / 5 * u))) := mul_le_mul f hu (by norm_num) (by linarith)
  have h2 : f8 * (v * ((1 - v) * (1 - 2 / 5 * v))) ≤ 0 := mul_nonpos_of_nonneg_of_nonpos (by linarith) hv
  have h3 := mul_le_mul_of_nonneg_right h1 hb.le
  have h4 := mul_nonpos_of_nonpos_of_nonneg h2 hb.le
  have h5 : 5 / 100 * bb < 36 / 100 * (19 / 100) * bb := by linarith
  linarith [show f8 * u * ((1 - u) * (1 - 2 / 5 * u)) * bb = f8 * (u * ((1 - u) * (1 - 2 / 5 * u))) * bb by ring,
    show f8 * v * ((1 - v) * (1 - 2 / 5 * v)) * bb = f8 * (v * ((1 - v) * (1 - 2 / 5 * v))) * bb by ring]

/-- Moister air can give less with the method of Kimball. -/
theorem C171_kimball_fails : ∃ (x x' : In Unit) (o o' : Out Unit) (g : Maps Unit), Sound g x ∧ Sound g x' ∧ Moister x x' ∧
    distribute (bare .angstrom1918 (some .kimball1982) false) g x = .ok o ∧
    distribute (bare .angstrom1918 (some .kimball1982) false) g x' = .ok o' ∧ o'.thermal () < o.thermal () := by
  refine ⟨⟨fun _ => 2684 / 100, fun _ => 1750, fun _ => 15, fun _ => 1⟩, ⟨fun _ => 2684 / 100, fun _ => 3500, fun _ => 26, fun _ => 1⟩, _, _,
    ⟨fun _ => 0, fun _ => 1, fun _ => 0, fun _ => 1⟩, ?_, ?_, ?_, rfl, rfl, ?_⟩
  · constructor <;> intro _ <;> norm_num
  · constructor <;> intro _ <;> norm_num
  · exact ⟨rfl, rfl, fun _ => by norm_num, fun _ => by norm_num⟩
  · exact kimball_moist_drop 1

/-- Hotter air below zero gives less in a cell that sees no sky. -/
theorem C171_terrain_fails (m : Sky) (hm : m ≠ .marks1979) (ta ta' vp : ℝ) (h : ta < ta') (h0 : ta' ≤ 0) :
    ∃ (o o' : Out Unit), distribute (bare m none true) ⟨fun _ => 0, fun _ => 0, fun _ => 0, fun _ => 1⟩ ⟨fun _ => ta, fun _ => vp, fun _ => 0, fun _ => 1⟩ = .ok o ∧
      distribute (bare m none true) ⟨fun _ => 0, fun _ => 0, fun _ => 0, fun _ => 1⟩ ⟨fun _ => ta', fun _ => vp, fun _ => 0, fun _ => 1⟩ = .ok o' ∧
      o'.thermal () < o.thermal () := by
  have key : stefBoltz * ta' ^ 4 < stefBoltz * ta ^ 4 := by
    refine mul_lt_mul_of_pos_left ?_ stefBoltz_pos
    have := pow_lt_pow_left₀ (show -ta' < -ta by linarith) (by linarith) (show 4 ≠ 0 by norm_num)
    rwa [Even.neg_pow (by decide), Even.neg_pow (by decide)] at this
  cases m with
  | marks1979 => exact absurd rfl hm
  | dilley1998 =>
    refine ⟨_, _, rfl, rfl, ?_⟩
    simpa [bare, terrain, Solar.clamp] using key
  | prata1996 =>
    refine ⟨_, _, rfl, rfl, ?_⟩
    simpa [bare, terrain, Solar.clamp] using key
  | angstrom1918 =>
    refine ⟨_, _, rfl, rfl, ?_⟩
    simpa [bare, terrain, Solar.clamp] using key

/-- Clouds take radiation away at -100 degrees with the method of Dilley. -/
theorem C171_dilley_fails (vp : ℝ) : ∃ (o o' : Out Unit),
    distribute (bare .dilley1998 (some .crawford1999) false) ⟨fun _ => 0, fun _ => 1, fun _ => 0, fun _ => 1⟩ ⟨fun _ => -100, fun _ => vp, fun _ => -100, fun _ => 1⟩ = .ok o ∧
    distribute (bare .dilley1998 (some .crawford1999) false) ⟨fun _ => 0, fun _ => 1, fun _ => 0, fun _ => 1⟩ ⟨fun _ => -100, fun _ => vp, fun _ => -100, fun _ => 0⟩ = .ok o' ∧
      o'.thermal () < o.thermal () := by
  refine ⟨_, _, rfl, rfl, ?_⟩
  have h := C78_dilley_fails (-100) (vp / 1000) (by norm_num) (by norm_num)
  show crawford (dilley (-100) (vp / 1000)) (-100) 0 < crawford (dilley (-100) (vp / 1000)) (-100) 1
  rw [crawford_eq, crawford_eq]
  linarith

theorem C171_fails : ¬ C171_full := by
  intro h
  obtain ⟨x, x', o, o', g, hx, hx', hm, h1, h2, hlt⟩ := C171_kimball_fails
  have := h _ g x x' o o' hx hx' (.inl hm) h1 h2 ()
  linarith

/-! ### Examples -/

/-- A forested cell at 2000 m. -/
noncomputable def forest : Maps Unit := ⟨fun _ => 2000, fun _ => 8 / 10, fun _ => 12, fun _ => 3 / 10⟩

/-- The weather of one cell. -/
def weather (ta vp dew cf : ℝ) : In Unit := ⟨fun _ => ta, fun _ => vp, fun _ => dew, fun _ => cf⟩

theorem sound_forest (ta vp dew cf : ℝ) (h : 0 ≤ cf ∧ cf ≤ 1) (hv : 0 ≤ vp) (ht : -(27316 / 100) < ta ∧ ta ≤ 700) :
    Sound forest (weather ta vp dew cf) :=
  ⟨fun _ => by norm_num [forest], fun _ => by norm_num [forest], fun _ => h, fun _ => hv, fun _ => ht⟩

/-- Five degrees more, above zero, with terrain, canopy and the cloud method of Unsworth. -/
example : ∃ o o', distribute ⟨.prata1996, some .unsworth1975, true, true, some 0, some 600⟩ forest (weather 1 500 (-3) (7 / 10)) = .ok o ∧
    distribute ⟨.prata1996, some .unsworth1975, true, true, some 0, some 600⟩ forest (weather 6 500 (-3) (7 / 10)) = .ok o' ∧
    o.thermal () ≤ o'.thermal () := by
  refine ⟨_, _, rfl, rfl, C171_hot_partial ⟨.prata1996, some .unsworth1975, true, true, some 0, some 600⟩ (by decide) (by simp) forest
    (weather 1 500 (-3) (7 / 10)) (weather 6 500 (-3) (7 / 10)) (sound_forest _ _ _ _ (by norm_num) (by norm_num) (by norm_num))
    ⟨fun _ => by norm_num [weather], rfl, rfl, rfl⟩ (fun e => by cases e) (fun _ _ => .inr (by norm_num [weather])) _ _ rfl rfl ()⟩

/-- Five degrees more for the method of Dilley, in the cold, without terrain. -/
example : ∃ o o', distribute ⟨.dilley1998, some .garen2005, true, false, none, none⟩ forest (weather (-20) 100 (-22) (7 / 10)) = .ok o ∧
    distribute ⟨.dilley1998, some .garen2005, true, false, none, none⟩ forest (weather (-15) 100 (-22) (7 / 10)) = .ok o' ∧
    o.thermal () ≤ o'.thermal () := by
  refine ⟨_, _, rfl, rfl, C171_hot_partial ⟨.dilley1998, some .garen2005, true, false, none, none⟩ (by decide) (by simp) forest
    (weather (-20) 100 (-22) (7 / 10)) (weather (-15) 100 (-22) (7 / 10)) (sound_forest _ _ _ _ (by norm_num) (by norm_num) (by norm_num))
    ⟨fun _ => by norm_num [weather], rfl, rfl, rfl⟩ (fun _ _ => by norm_num [weather]) (fun e => by cases e) _ _ rfl rfl ()⟩

/-- More cloud, the methods of Angstrom and Garen. -/
example : ∃ o o', distribute ⟨.angstrom1918, some .garen2005, true, true, none, none⟩ forest (weather (-8) 200 (-12) (7 / 10)) = .ok o ∧
    distribute ⟨.angstrom1918, some .garen2005, true, true, none, none⟩ forest (weather (-8) 200 (-12) (4 / 10)) = .ok o' ∧
    o.thermal () ≤ o'.thermal () := by
  refine ⟨_, _, rfl, rfl, C171_cloud_partial ⟨.angstrom1918, some .garen2005, true, true, none, none⟩ (by decide) forest
    (weather (-8) 200 (-12) (7 / 10)) (weather (-8) 200 (-12) (4 / 10)) (sound_forest _ _ _ _ (by norm_num) (by norm_num) (by norm_num))
    (fun _ => by norm_num [weather]) ⟨rfl, fun _ => by norm_num [weather], rfl, rfl⟩ _ _ rfl rfl ()⟩

/-- Moister air, the methods of Dilley and Crawford. -/
example : ∃ o o', distribute ⟨.dilley1998, some .crawford1999, true, true, none, none⟩ forest (weather (-8) 200 (-12) (7 / 10)) = .ok o ∧
    distribute ⟨.dilley1998, some .crawford1999, true, true, none, none⟩ forest (weather (-8) 250 (-10) (7 / 10)) = .ok o' ∧
    o.thermal () ≤ o'.thermal () := by
  refine ⟨_, _, rfl, rfl, C171_moist_partial ⟨.dilley1998, some .crawford1999, true, true, none, none⟩ (by simp) forest
    (weather (-8) 200 (-12) (7 / 10)) (weather (-8) 250 (-10) (7 / 10)) (sound_forest _ _ _ _ (by norm_num) (by norm_num) (by norm_num))
    ⟨rfl, rfl, fun _ => by norm_num [weather], fun _ => by norm_num [weather]⟩ _ _ rfl rfl ()⟩

end Verif.Thermal
