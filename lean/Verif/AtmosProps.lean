import Verif.Atmos
import Verif.TwostreamProps
import Verif.SunOrbitProps
import Mathlib.Analysis.SpecialFunctions.Trigonometric.Inverse
import Mathlib.Analysis.SpecialFunctions.Trigonometric.Bounds
import Mathlib.Analysis.Real.Pi.Bounds
import Mathlib.Tactic.NormNum
import Mathlib.Tactic.Positivity

/-! C100 - C102: optical depth, cells without sun, solar irradiance. -/

namespace Verif.Atmos

open Verif.Calendar (DT)
open Verif.Sun (Out ephemeris)
open Verif.Twostream (tauAt elevrad stoporad twostream)

/-! ### C100 -/

/-- The elevation (m) is below the top of the standard atmosphere of the code, where the temperature would be zero. -/
def BelowTop (z : ℝ) : Prop := 0 < 288 - 65 / 10 * (z / 1000)

theorem pressure_eq (z : ℝ) : Twostream.hysat Twostream.seaLevel Twostream.stdAirtmp Twostream.stdLapse (z / 1000)
    Twostream.gravity Twostream.molAir =
      1013246 / 10 * (288 / (288 - 65 / 10 * (z / 1000))) ^
        (980665 / 100000 * (289644 / 10000) / (831432 / 100 * (-65 / 10) * (1 / 1000)) : ℝ) := by
  unfold Twostream.hysat Twostream.seaLevel Twostream.stdAirtmp Twostream.stdLapse Twostream.gravity Twostream.molAir
    Twostream.rgas
  rw [if_neg (by norm_num)]
  congr 3
  ring

theorem pressure_pos (z : ℝ) (hz : BelowTop z) : 0 < Twostream.hysat Twostream.seaLevel Twostream.stdAirtmp
    Twostream.stdLapse (z / 1000) Twostream.gravity Twostream.molAir := by
  rw [pressure_eq]
  have : 0 < 288 / (288 - 65 / 10 * (z / 1000)) := div_pos (by norm_num) hz
  have := Real.rpow_pos_of_pos this
    (980665 / 100000 * (289644 / 10000) / (831432 / 100 * (-65 / 10) * (1 / 1000)) : ℝ)
  exact mul_pos (by norm_num) this

theorem pressure_lt (z z' : ℝ) (h : z < z') (hz : BelowTop z') : Twostream.hysat Twostream.seaLevel Twostream.stdAirtmp
    Twostream.stdLapse (z' / 1000) Twostream.gravity Twostream.molAir < Twostream.hysat Twostream.seaLevel
    Twostream.stdAirtmp Twostream.stdLapse (z / 1000) Twostream.gravity Twostream.molAir := by
  rw [pressure_eq, pressure_eq]
  unfold BelowTop at hz
  have hz0 : 0 < 288 - 65 / 10 * (z / 1000) := by linarith
  have hx : 0 < 288 / (288 - 65 / 10 * (z / 1000)) := div_pos (by norm_num) hz0
  have hlt : 288 / (288 - 65 / 10 * (z / 1000)) < 288 / (288 - 65 / 10 * (z' / 1000)) :=
    div_lt_div_of_pos_left (by norm_num) hz (by linarith)
  exact mul_lt_mul_of_pos_left (Real.rpow_lt_rpow_of_neg hx hlt (by norm_num)) (by norm_num)

/-- C100: the optical depth at the elevation of the measurement is the measured one. -/
theorem C100_reference (tau z : ℝ) (hz : BelowTop z) : tauAt tau z z = tau := by
  unfold tauAt
  exact mul_div_cancel_right₀ _ (pressure_pos z hz).ne'

/-- C100: the optical depth is positive and falls strictly with the elevation. -/
theorem C100_falls (tau z0 z z' : ℝ) (ht : 0 < tau) (h0 : BelowTop z0) (hz : BelowTop z') (h : z < z') :
    0 < tauAt tau z0 z' ∧ tauAt tau z0 z' < tauAt tau z0 z := by
  unfold tauAt
  have p0 := pressure_pos z0 h0
  refine ⟨div_pos (mul_pos ht (pressure_pos z' hz)) p0, ?_⟩
  exact div_lt_div_of_pos_right (mul_lt_mul_of_pos_left (pressure_lt z z' h hz) ht) p0

/-- C100: the measurement elevation only sets the scale: depths at two elevations are in the same ratio for all of them. -/
theorem C100_ratio (tau z0 z1 z z' : ℝ) (h0 : BelowTop z0) (h1 : BelowTop z1) :
    tauAt tau z0 z * tauAt tau z1 z' = tauAt tau z0 z' * tauAt tau z1 z := by
  unfold tauAt
  have p0 := (pressure_pos z0 h0).ne'
  have p1 := (pressure_pos z1 h1).ne'
  field_simp

/-- C100: a higher cell gets at least as much beam, and more unless nothing gets through. -/
theorem C100_beam (p : Twostream.Clear) (s0 cosz r0 z z' : ℝ) (o o' : Twostream.Out) (hs : 0 < s0) (hc : 0 < cosz)
    (ht : 0 < p.tau) (h0 : BelowTop p.tauElevation) (hz : BelowTop z') (h : z < z')
    (ho : twostream cosz s0 (tauAt p.tau p.tauElevation z) p.omega p.gamma r0 = .ok o)
    (ho' : twostream cosz s0 (tauAt p.tau p.tauElevation z') p.omega p.gamma r0 = .ok o') :
    (elevrad s0 cosz o).1 ≤ (elevrad s0 cosz o').1 ∧ ((elevrad s0 cosz o').1 ≠ 0 →
      (elevrad s0 cosz o).1 < (elevrad s0 cosz o').1) := by
  obtain ⟨hp, hlt⟩ := C100_falls p.tau p.tauElevation z z' ht h0 hz h
  obtain ⟨h1, h2⟩ := Twostream.C49_direct_decreasing cosz s0 _ _ p.omega p.gamma r0 o' o hc hp hlt ho' ho
  unfold elevrad
  refine ⟨mul_le_mul_of_nonneg_left h1 hs.le, fun hne => ?_⟩
  exact mul_lt_mul_of_pos_left (h2 fun e => hne (by simp [e])) hs

/-- A mountain range and the default elevation of the measurement. -/
example : BelowTop 100 ∧ BelowTop 4000 ∧ tauAt (2 / 10) 100 4000 < 2 / 10 := by
  have h1 : BelowTop 100 := by unfold BelowTop; norm_num
  have h2 : BelowTop 4000 := by unfold BelowTop; norm_num
  refine ⟨h1, h2, ?_⟩
  have := (C100_falls (2 / 10) 100 100 4000 (by norm_num) h1 h2 (by norm_num)).2
  rwa [C100_reference _ _ h1] at this

/-! ### C101 -/

/-- The elevation of the sun above the horizontal. -/
noncomputable def sunElevation (cosz : ℝ) : ℝ := Real.arcsin cosz

theorem elev_range (cosz : ℝ) (h0 : 0 ≤ cosz) (h1 : cosz < 1) :
    Real.pi / 2 - Real.arccos cosz = Real.arcsin cosz ∧ 0 ≤ Real.arcsin cosz ∧ Real.arcsin cosz < Real.pi / 2 := by
  refine ⟨by unfold Real.arccos; ring, Real.arcsin_nonneg.2 h0, Real.arcsin_lt_pi_div_two.2 h1⟩

theorem noSun_iff (h cosz : ℝ) (hh : |h| < Real.pi / 2) (h0 : 0 ≤ cosz) (h1 : cosz < 1) :
    NoSun h cosz ↔ Real.arcsin cosz < |h| := by
  obtain ⟨e, e0, e1⟩ := elev_range cosz h0 h1
  have hpi := Real.pi_pos
  unfold NoSun
  rw [e, gt_iff_lt]
  exact Real.strictMonoOn_tan.lt_iff_lt ⟨by linarith, e1⟩ ⟨by have := abs_nonneg h; linarith, hh⟩

/-- The claim of C101, when the horizon is given as an angle above the horizontal: a cell has no sun exactly if its horizon is
higher than the sun. -/
def C101_full : Prop := ∀ h cosz : ℝ, |h| < Real.pi / 2 → 0 ≤ cosz → cosz < 1 → (NoSun h cosz ↔ sunElevation cosz < h)

/-- C101: proved for a horizon that is not below the horizontal. -/
theorem C101_partial (h cosz : ℝ) (hh0 : 0 ≤ h) (hh : h < Real.pi / 2) (h0 : 0 ≤ cosz) (h1 : cosz < 1) :
    (NoSun h cosz ↔ sunElevation cosz < h) ∧ (NoSun h cosz ↔ cosz < Real.sin h) := by
  have := noSun_iff h cosz (by rwa [abs_of_nonneg hh0]) h0 h1
  rw [abs_of_nonneg hh0] at this
  refine ⟨this, this.trans ?_⟩
  exact Real.arcsin_lt_iff_lt_sin ⟨by linarith, h1.le⟩ ⟨by have := Real.pi_pos; linarith, hh.le⟩

/-- C101 fails for a horizon below the horizontal: the absolute value takes it for one above. -/
theorem C101_below_fails (h cosz : ℝ) (hh : -(Real.pi / 2) < h) (h0 : 0 ≤ cosz) (h1 : cosz < 1)
    (hs : sunElevation cosz < -h) : NoSun h cosz ∧ h < sunElevation cosz := by
  obtain ⟨-, e0, -⟩ := elev_range cosz h0 h1
  have hneg : h < 0 := by unfold sunElevation at hs; linarith
  refine ⟨(noSun_iff h cosz (by rw [abs_of_neg hneg]; linarith) h0 h1).2 (by rw [abs_of_neg hneg]; exact hs), ?_⟩
  unfold sunElevation
  linarith

/-- C101 fails in the full form. -/
theorem C101_fails : ¬ C101_full := by
  intro h
  have hpi := Real.pi_gt_three
  have h1 := C101_below_fails (-1) 0 (by linarith) le_rfl (by norm_num) (by unfold sunElevation; simp)
  have h2 := (h (-1) 0 (by rw [abs_neg, abs_one]; linarith) le_rfl (by norm_num)).1 h1.1
  linarith [h1.2]

/-- C101, when the horizon is given as the cosine of its angle from the zenith (`sin H` for the elevation `H`): no cell in the
sun is taken out. -/
theorem C101_cosine_partial (H cosz : ℝ) (hH0 : 0 ≤ H) (hH : H < Real.pi / 2) (h0 : 0 ≤ cosz) (h1 : cosz < 1)
    (h : NoSun (Real.sin H) cosz) : sunElevation cosz < H := by
  have hs0 : 0 ≤ Real.sin H := Real.sin_nonneg_of_nonneg_of_le_pi hH0 (by have := Real.pi_pos; linarith)
  have hs1 : Real.sin H ≤ 1 := Real.sin_le_one H
  have hpi := Real.pi_gt_three
  have := (C101_partial (Real.sin H) cosz hs0 (by linarith) h0 h1).1.1 h
  exact lt_of_lt_of_le this (Real.sin_le hH0)

/-- C101 fails in that reading: a cell keeps its sun while the sun is behind the horizon, in a range of elevations below each
horizon. -/
theorem C101_cosine_fails (H cosz : ℝ) (hH0 : 0 ≤ H) (hH : H < Real.pi / 2) (h0 : 0 ≤ cosz) (h1 : cosz < 1)
    (ha : Real.sin H ≤ sunElevation cosz) (_hb : sunElevation cosz < H) : ¬ NoSun (Real.sin H) cosz := by
  have hs0 : 0 ≤ Real.sin H := Real.sin_nonneg_of_nonneg_of_le_pi hH0 (by have := Real.pi_pos; linarith)
  have hs1 : Real.sin H ≤ 1 := Real.sin_le_one H
  have hpi := Real.pi_gt_three
  intro h
  have := (C101_partial (Real.sin H) cosz hs0 (by linarith) h0 h1).1.1 h
  linarith

/-- Such sun elevations exist below every horizon. -/
theorem C101_cosine_gap_fails (H : ℝ) (hH0 : 0 < H) (hH : H < Real.pi / 2) :
    ∃ cosz, 0 ≤ cosz ∧ cosz < 1 ∧ sunElevation cosz < H ∧ ¬ NoSun (Real.sin H) cosz := by
  have hlt := Real.sin_lt hH0
  have hpi := Real.pi_gt_three
  have hs0 : 0 ≤ Real.sin H := Real.sin_nonneg_of_nonneg_of_le_pi hH0.le (by linarith)
  have e : sunElevation (Real.sin (Real.sin H)) = Real.sin H :=
    Real.arcsin_sin (by linarith) (by linarith [Real.sin_le_one H])
  have hc0 : 0 ≤ Real.sin (Real.sin H) := Real.sin_nonneg_of_nonneg_of_le_pi hs0 (by linarith [Real.sin_le_one H])
  have hc1 : Real.sin (Real.sin H) < 1 := by
    have := Real.sin_le hs0
    have h2 : Real.sin H < 1 := by
      rw [← Real.sin_pi_div_two]
      exact Real.sin_lt_sin_of_lt_of_le_pi_div_two (by linarith) le_rfl hH
    linarith
  exact ⟨_, hc0, hc1, by rw [e]; exact hlt,
    C101_cosine_fails H _ hH0.le hH hc0 hc1 (by rw [e]) (by rw [e]; exact hlt)⟩

open Classical in
/-- C101: a cell without sun gets no beam: both results are the diffuse radiation. -/
theorem C101_no_beam {ι : Type} [Fintype ι] (p : Twostream.Clear) (topo : Twostream.Topo ι) (s0 cosz : ℝ) (h : ι → ℝ)
    (illum alb : ι → ℝ) (lo hi : ℝ) (r : ι → ℝ × ℝ)
    (hr : stoporad p topo s0 cosz (fun i => NoSun (h i) cosz) illum alb lo hi = .ok r) (i : ι) (hi' : NoSun (h i) cosz) :
    (r i).1 = (r i).2 := by
  unfold stoporad at hr
  cases hw : Twostream.checkWavelengths lo hi with
  | error e => rw [hw] at hr; cases hr
  | ok b =>
    rw [hw] at hr
    simp only at hr
    by_cases hc : cosz < 0
    · rw [if_pos hc] at hr
      injection hr with hr
      rw [← hr]
    · rw [if_neg hc] at hr
      cases ht : Twostream.twostreamAll cosz s0 (fun i => tauAt p.tau p.tauElevation (topo.dem i)) p.omega p.gamma
          ((∑ i, alb i) / Fintype.card ι) with
      | error e => rw [ht] at hr; cases hr
      | ok o =>
        rw [ht] at hr
        injection hr with hr
        rw [← hr]
        simp only [Twostream.toporad, if_pos hi', mul_zero, add_zero]

/-- A ridge at 30 degrees hides the sun at 0 degrees. -/
example : NoSun (Real.pi / 6) 0 := by
  have hpi := Real.pi_pos
  exact (C101_partial (Real.pi / 6) 0 (by linarith) (by linarith) le_rfl (by norm_num)).1.2
    (by unfold sunElevation; simp; linarith)

/-! ### C102 -/

/-- C102: the irradiance depends on the date, not on the time of the day. -/
theorem C102_day (solint : ℝ → ℝ → ℝ) (fuel : Nat) (t t' : DT) (w : List ℝ) (hy : t.year = t'.year)
    (hm : t.month = t'.month) (hd : t.day = t'.day) : irradiance solint fuel t w = irradiance solint fuel t' w := by
  have : noon t = noon t' := by
    cases t; cases t'
    simp only at hy hm hd
    subst hy hm hd
    rfl
  unfold irradiance
  rw [this]

/-- C102: a list of wavelengths of any other length than two is rejected. -/
theorem C102_two (solint : ℝ → ℝ → ℝ) (fuel : Nat) (t : DT) (w : List ℝ) (h : w.length ≠ 2) :
    irradiance solint fuel t w = .invalid := by
  match w, h with
  | [], _ => rfl
  | [_], _ => rfl
  | [_, _], h => exact absurd rfl h
  | _ :: _ :: _ :: _, _ => rfl

/-- C102: the irradiance of a band follows the inverse square of the distance of the sun at noon. -/
theorem C102_inverse_square (solint : ℝ → ℝ → ℝ) (fuel : Nat) (t : DT) (a b s : ℝ)
    (h : irradiance solint fuel t [a, b] = .ok s) :
    ∃ d o r, ephemeris fuel ⟨t.year, t.month, t.day, 43200⟩ = .ok (d, o, r) ∧ (r ≠ 0 → s * r ^ 2 = solint a b) := by
  unfold irradiance at h
  simp only at h
  have e : noon t = ⟨t.year, t.month, t.day, 43200⟩ := rfl
  rw [e] at h
  cases hE : ephemeris fuel ⟨t.year, t.month, t.day, 43200⟩ with
  | ok x =>
    obtain ⟨d, o, r⟩ := x
    rw [hE] at h
    simp only [Out.ok.injEq] at h
    refine ⟨d, o, r, rfl, fun hr => ?_⟩
    rw [← h]
    exact div_mul_cancel₀ _ (pow_ne_zero 2 hr)
  | divZero => rw [hE] at h; cases h
  | assertion => rw [hE] at h; cases h
  | invalid => rw [hE] at h; cases h
  | noFuel => rw [hE] at h; cases h

/-- C102: for every date from 1900 on the irradiance is defined and within 3.7 percent of the value at the mean distance. -/
theorem C102_defined (solint : ℝ → ℝ → ℝ) (t : DT) (hv : t.Valid) (hy1 : 1900 ≤ t.year) (hy : t.year ≤ 9999) (a b : ℝ)
    (hp : 0 ≤ solint a b) :
    ∃ turns s, (∀ fuel, turns ≤ fuel → irradiance solint fuel t [a, b] = .ok s) ∧
      0.963 * solint a b ≤ s ∧ s ≤ 1.037 * solint a b := by
  have hv' : (noon t).Valid := by
    unfold DT.Valid at hv ⊢
    simp only [noon] at hv ⊢
    exact ⟨hv.1, hv.2.1, by norm_num⟩
  obtain ⟨turns, mu, az, r, h1, -, -, h4⟩ := Sun.C90_defined (noon t) hv' hy1 hy 0 0 (by norm_num) (by norm_num)
  refine ⟨turns, solint a b / r ^ 2, fun fuel hf => ?_, ?_⟩
  · have h := h1 fuel hf
    unfold Sun.sunang at h
    unfold irradiance
    simp only
    cases hE : ephemeris fuel (noon t) with
    | ok x =>
      obtain ⟨d, o, r'⟩ := x
      rw [hE] at h
      simp only at h
      cases hS : Sun.sunpath (0 * Real.pi / 180) (0 * Real.pi / 180) d o with
      | ok y =>
        obtain ⟨m, z⟩ := y
        rw [hS] at h
        simp only [Out.ok.injEq, Prod.mk.injEq] at h
        simp only [h.2.2]
      | divZero => rw [hS] at h; cases h
      | assertion => rw [hS] at h; cases h
      | invalid => rw [hS] at h; cases h
      | noFuel => rw [hS] at h; cases h
    | divZero => rw [hE] at h; cases h
    | assertion => rw [hE] at h; cases h
    | invalid => rw [hE] at h; cases h
    | noFuel => rw [hE] at h; cases h
  · rw [abs_le] at h4
    norm_num at h4
    have hr0 : 0 < r := by linarith [h4.1]
    have hr2 : 0 < r ^ 2 := by positivity
    norm_num
    constructor
    · rw [le_div_iff₀ hr2]
      have : r ^ 2 ≤ 1000 / 963 := by nlinarith [h4.1, h4.2]
      nlinarith
    · rw [div_le_iff₀ hr2]
      have : 1000 / 1037 ≤ r ^ 2 := by nlinarith [h4.1, h4.2]
      nlinarith

/-- The visible band on a date of the calendar. -/
example : ∃ turns s, (∀ fuel, turns ≤ fuel → irradiance (fun a b => 1000 * (b - a)) fuel ⟨2019, 4, 1, 3600⟩
    [28 / 100, 7 / 10] = .ok s) ∧ 404 ≤ s ∧ s ≤ 436 := by
  obtain ⟨turns, s, h1, h2, h3⟩ := C102_defined (fun a b => 1000 * (b - a)) ⟨2019, 4, 1, 3600⟩
    ⟨by decide, ⟨30, .short 4 (by decide), by decide, by decide⟩, by decide⟩ (by norm_num) (by norm_num) (28 / 100) (7 / 10) (by norm_num)
  norm_num at h2 h3
  exact ⟨turns, s, h1, by linarith, by linarith⟩

end Verif.Atmos
