import Verif.WetBulbLoopProps
import Verif.RunWet

/-! C176: how the wet-bulb temperature responds to moisture, temperature and elevation
(`smrf/envphys/core/iwbt.c`). -/

namespace Verif.WetBulb
open Verif.Vapor

/-- The cells on which the routine is known to end (C44): air up to 320.2 K, a dew point below it and from
199 K up, a pressure of at least 50 kPa. -/
structure Ordinary (ta dpt press : ℝ) : Prop where
  dew : 199 ≤ dpt
  below : dpt < ta
  warm : ta ≤ 3202 / 10
  press : 50000 ≤ press

/-- How far the returned value may be from the solution: the tolerance, or the last correction if that is larger. -/
noncomputable def offBy (tol last : ℝ) : ℝ := max tol |last|

theorem lhFus_nonneg {t : ℝ} (h : t ≤ freeze) : 0 ≤ lhFus t := by unfold lhFus; linarith

/-- The latent heat falls when the air gets warmer. -/
theorem latent_warmer (ta ta' dpt : ℝ) (hd : dpt < ta) (ht : ta ≤ ta') : latent ta' dpt ≤ latent ta dpt := by
  have hv : lhVap ((ta' + dpt) / 2) ≤ lhVap ((ta + dpt) / 2) := by unfold lhVap; linarith
  unfold latent
  by_cases a : ta ≤ freeze
  · rw [if_pos a]
    by_cases b : ta' ≤ freeze
    · rw [if_pos b]
      have : lhFus ((ta' + dpt) / 2) ≤ lhFus ((ta + dpt) / 2) := by unfold lhFus; linarith
      linarith
    · have b' := not_le.1 b
      rw [if_neg b, if_pos (by linarith)]
      have h1 : (freeze - dpt) / (ta' - dpt) ≤ 1 := by
        rw [div_le_one (by linarith)]; linarith
      have h2 : lhFus ((freeze + dpt) / 2) ≤ lhFus ((ta + dpt) / 2) := by unfold lhFus; linarith
      have h3 : 0 ≤ lhFus ((freeze + dpt) / 2) := lhFus_nonneg (by linarith)
      have h4 := mul_le_mul_of_nonneg_right h1 h3
      linarith
  · have a' := not_le.1 a
    rw [if_neg a, if_neg (by linarith)]
    by_cases c : dpt ≤ freeze
    · rw [if_pos c, if_pos c]
      have h1 : (freeze - dpt) / (ta' - dpt) ≤ (freeze - dpt) / (ta - dpt) :=
        div_le_div_of_nonneg_left (by linarith) (by linarith) (by linarith)
      have h3 : 0 ≤ lhFus ((freeze + dpt) / 2) := lhFus_nonneg (by linarith)
      have h4 := mul_le_mul_of_nonneg_right h1 h3
      linarith
    · rw [if_neg c, if_neg c]
      exact hv

/-- The latent heat falls when the dew point rises. -/
theorem latent_moister (ta dpt dpt' : ℝ) (hd : dpt ≤ dpt') (hd' : dpt' < ta) : latent ta dpt' ≤ latent ta dpt := by
  have hv : lhVap ((ta + dpt') / 2) ≤ lhVap ((ta + dpt) / 2) := by unfold lhVap; linarith
  unfold latent
  by_cases a : ta ≤ freeze
  · rw [if_pos a, if_pos a]
    have : lhFus ((ta + dpt') / 2) ≤ lhFus ((ta + dpt) / 2) := by unfold lhFus; linarith
    linarith
  · have a' := not_le.1 a
    rw [if_neg a, if_neg a]
    by_cases c : dpt ≤ freeze
    · rw [if_pos c]
      have h0 : 0 ≤ (freeze - dpt) / (ta - dpt) := div_nonneg (by linarith) (by linarith)
      have h3 : 0 ≤ lhFus ((freeze + dpt) / 2) := lhFus_nonneg (by linarith)
      by_cases b : dpt' ≤ freeze
      · rw [if_pos b]
        have h1 : (freeze - dpt') / (ta - dpt') ≤ (freeze - dpt) / (ta - dpt) := by
          rw [div_le_div_iff₀ (by linarith) (by linarith)]
          nlinarith [mul_nonneg (sub_nonneg.2 hd) (by linarith : (0 : ℝ) ≤ ta - freeze)]
        have h2 : lhFus ((freeze + dpt') / 2) ≤ lhFus ((freeze + dpt) / 2) := by unfold lhFus; linarith
        have h4 : 0 ≤ lhFus ((freeze + dpt') / 2) := lhFus_nonneg (by linarith)
        have h5 := mul_le_mul h1 h2 h4 h0
        linarith
      · rw [if_neg b]
        have := mul_nonneg h0 h3
        linarith
    · rw [if_neg c, if_neg (by linarith [not_le.1 c])]
      exact hv

theorem latent_pos' {ta dpt press : ℝ} (h : Ordinary ta dpt press) : 0 < latent ta dpt := by
  obtain ⟨h1, h2, h3, -⟩ := h
  rcases le_or_gt 300 ta with hh | hh
  · linarith [(latent_hot ta dpt hh h3 h1 h2.le).1]
  · rcases lt_or_ge freeze ta with hf | hf
    · linarith [(latent_cold ta dpt hf hh.le h1 h2.le).1]
    · linarith [(latent_ice ta dpt hf h1 h2.le).1]

/-- The factor of the vapor pressures falls as well. -/
theorem psyc_anti {ta ta' dpt dpt' press press' : ℝ} (h : Ordinary ta dpt press) (h' : Ordinary ta' dpt' press')
    (ht : ta ≤ ta') (hd : dpt ≤ dpt') (hp : press ≤ press') :
    psyc (latent ta' dpt') press' ≤ psyc (latent ta dpt) press ∧ 0 < psyc (latent ta' dpt') press' := by
  have p' := latent_pos' h'
  have l : latent ta' dpt' ≤ latent ta dpt :=
    le_trans (latent_moister ta' dpt dpt' hd h'.below) (latent_warmer ta ta' dpt h.below ht)
  have q : 0 < press := by linarith [h.press]
  refine ⟨?_, psyc_pos _ _ p' (by linarith)⟩
  unfold psyc
  refine mul_le_mul_of_nonneg_left ?_ (by norm_num)
  exact div_le_div₀ (by linarith) l (by linarith) (by linarith)

/-- What is returned lies below the air temperature and above the dew point, and solves the equation. -/
theorem returned {ta dpt press tol ti last : ℝ} {n : Nat} (h : Ordinary ta dpt press) (htol : 7 / 1000 ≤ tol)
    (htol1 : tol < 1) (hv : wetbulb ta dpt press tol = .value ti last n) :
    0 < ti ∧ (∀ t, ti + offBy tol last ≤ t → t ≤ 1000 → 0 ≤ psychro (psyc (latent ta dpt) press) (sat dpt) ta t) ∧
      (∀ t, 0 < t → t ≤ ti - offBy tol last → psychro (psyc (latent ta dpt) press) (sat dpt) ta t ≤ 0) := by
  obtain ⟨ti', last', n', a1, a2, -, a4, a5⟩ :=
    wetbulb_returns ta dpt press tol h.dew h.below.le h.warm h.press htol htol1
  rw [a1] at hv
  cases hv
  exact ⟨a2, a4, a5⟩

/-- Where the first equation is not yet balanced, neither is the second. -/
theorem cross {ta ta' dpt dpt' press press' t : ℝ} (h : Ordinary ta dpt press) (h' : Ordinary ta' dpt' press')
    (ht : ta ≤ ta') (hd : dpt ≤ dpt') (hp : press ≤ press') (t0 : 0 < t) (tle : t ≤ 1000)
    (s3 : psychro (psyc (latent ta dpt) press) (sat dpt) ta t ≤ 0) :
    psychro (psyc (latent ta' dpt') press') (sat dpt') ta' t ≤ 0 := by
  obtain ⟨c1, c2⟩ := psyc_anti h h' ht hd hp
  unfold psychro at s3 ⊢
  rcases lt_or_ge t dpt' with q | q
  · have h1 := C41_increasing t dpt' t0 q (by linarith [h'.below, h'.warm])
    have h2 := mul_pos c2 (sub_pos.2 h1)
    have := h'.below
    linarith
  · have m1 : sat dpt' ≤ sat t := by
      rcases eq_or_lt_of_le q with e | e
      · rw [e]
      · exact (C41_increasing _ _ (by linarith [h'.dew]) e tle).le
    have m2 : sat dpt ≤ sat dpt' := by
      rcases eq_or_lt_of_le hd with e | e
      · rw [e]
      · exact (C41_increasing _ _ (by linarith [h.dew]) e (by linarith [h'.below, h'.warm])).le
    have m3 := mul_le_mul c1 (by linarith : sat t - sat dpt' ≤ sat t - sat dpt) (by linarith)
      (le_trans c2.le c1)
    linarith

/-- Nothing above the air temperature balances the equation. -/
theorem not_above {ta dpt press t : ℝ} (h : Ordinary ta dpt press) (hta : ta ≤ t) (tle : t ≤ 1000) :
    0 < psychro (psyc (latent ta dpt) press) (sat dpt) ta t := by
  have c := psyc_pos _ _ (latent_pos' h) (by linarith [h.press] : 0 < press)
  have h2 := C41_increasing dpt t (by linarith [h.dew]) (by linarith [h.below]) tle
  have h3 := mul_pos c (sub_pos.2 h2)
  unfold psychro
  linarith

/-- Moister, warmer air under higher pressure has no lower wet-bulb temperature, up to what the two returned
values may be off. -/
theorem C176_response (ta ta' dpt dpt' press press' tol tol' ti ti' last last' : ℝ) (n n' : Nat)
    (h : Ordinary ta dpt press) (h' : Ordinary ta' dpt' press') (htol : 7 / 1000 ≤ tol) (htol1 : tol < 1)
    (htol' : 7 / 1000 ≤ tol') (htol1' : tol' < 1) (ht : ta ≤ ta') (hd : dpt ≤ dpt') (hp : press ≤ press')
    (hv : wetbulb ta dpt press tol = .value ti last n) (hv' : wetbulb ta' dpt' press' tol' = .value ti' last' n') :
    ti - offBy tol last ≤ ti' + offBy tol' last' := by
  obtain ⟨-, -, a2⟩ := returned h htol htol1 hv
  obtain ⟨p', b1, -⟩ := returned h' htol' htol1' hv'
  obtain ⟨c1, c2⟩ := psyc_anti h h' ht hd hp
  by_contra hn
  have hn := not_le.1 hn
  have ho' : 0 ≤ offBy tol' last' := le_trans (by linarith) (le_max_left _ _)
  -- the first value lies below its air temperature up to the distance
  have top : ti - offBy tol last < ta := by
    by_contra hc
    have h1 := a2 ta (by linarith [h.dew, h.below]) (not_lt.1 hc)
    have h2 := not_above h le_rfl (by linarith [h.warm])
    linarith
  -- between the two values the two equations have opposite signs
  have s1 := b1 (ti' + offBy tol' last') le_rfl (by linarith [h.warm])
  have s2 := psychro_mono (psyc (latent ta' dpt') press') (sat dpt') ta' (ti' + offBy tol' last')
    (ti - offBy tol last) (psyc_anti h h' ht hd hp).2 (by linarith) hn.le (by linarith [h.warm])
  have s3 := cross h h' ht hd hp (by linarith) (by linarith [h.warm]) (a2 (ti - offBy tol last) (by linarith) le_rfl)
  linarith

/-- The solutions themselves are in order, whatever the routine returns. -/
theorem C176_solution (ta ta' dpt dpt' press press' w w' : ℝ)
    (h : Ordinary ta dpt press) (h' : Ordinary ta' dpt' press') (ht : ta ≤ ta') (hd : dpt ≤ dpt')
    (hp : press ≤ press') (hw0' : 0 < w') (hw1 : w ≤ 1000)
    (hw : imbalance ta dpt press w = 0) (hw' : imbalance ta' dpt' press' w' = 0) : w ≤ w' := by
  rw [imbalance_eq _ _ _ _ h.below] at hw
  rw [imbalance_eq _ _ _ _ h'.below] at hw'
  by_contra hn
  have hn := not_le.1 hn
  have s2 := psychro_mono (psyc (latent ta' dpt') press') (sat dpt') ta' w' w (psyc_anti h h' ht hd hp).2 hw0' hn.le hw1
  have s3 := cross h h' ht hd hp (by linarith) hw1 hw.le
  linarith

/-- The pressure that `iwbt` uses at an elevation in metres. -/
noncomputable def pressureAt (z : ℝ) : ℝ :=
  Twostream.hysat Vapor.seaLevel Twostream.stdAirtmp Twostream.stdLapse (z / 1000) Twostream.gravity Twostream.molAir

/-- Higher up, up to 5500 m, the wet-bulb temperature of the same air is no higher. -/
theorem C176_elevation (ta dpt z z' tol ti ti' last last' : ℝ) (n n' : Nat) (hd : 199 ≤ dpt) (hdt : dpt < ta)
    (hw : ta ≤ 3202 / 10) (hz : z' ≤ z) (hz5 : z ≤ 5500) (htol : 7 / 1000 ≤ tol) (htol1 : tol < 1)
    (hv : wetbulb ta dpt (pressureAt z) tol = .value ti last n)
    (hv' : wetbulb ta dpt (pressureAt z') tol = .value ti' last' n') :
    ti - offBy tol last ≤ ti' + offBy tol last' := by
  have p1 : 50000 ≤ pressureAt z := Run.pressure_ge z hz5
  have p2 : pressureAt z ≤ pressureAt z' := by
    rcases eq_or_lt_of_le hz with e | e
    · rw [e]
    · exact (Atmos.pressure_lt z' z e (by unfold Atmos.BelowTop; linarith)).le
  exact C176_response ta ta dpt dpt (pressureAt z) (pressureAt z') tol tol ti ti' last last' n n'
    ⟨hd, hdt, hw, p1⟩ ⟨hd, hdt, hw, by linarith⟩ htol htol1 htol htol1 le_rfl le_rfl p2 hv hv'

/-- Two states of the air: 283 K with a dew point of 270 K at 70 kPa, and 285 K with 274 K at 80 kPa. -/
example : ∃ ti last n ti' last' n', wetbulb 283 270 70000 (1 / 100) = .value ti last n ∧
    wetbulb 285 274 80000 (1 / 100) = .value ti' last' n' ∧
    ti - offBy (1 / 100) last ≤ ti' + offBy (1 / 100) last' := by
  have h : Ordinary 283 270 70000 := ⟨by norm_num, by norm_num, by norm_num, by norm_num⟩
  have h' : Ordinary 285 274 80000 := ⟨by norm_num, by norm_num, by norm_num, by norm_num⟩
  obtain ⟨ti, last, n, hv, -⟩ := C44_returns_partial 283 270 70000 (1 / 100) h.dew h.below h.warm h.press
    (by norm_num) (by norm_num)
  obtain ⟨ti', last', n', hv', -⟩ := C44_returns_partial 285 274 80000 (1 / 100) h'.dew h'.below h'.warm h'.press
    (by norm_num) (by norm_num)
  exact ⟨ti, last, n, ti', last', n', hv, hv', C176_response _ _ _ _ _ _ _ _ _ _ _ _ _ _ h h' (by norm_num)
    (by norm_num) (by norm_num) (by norm_num) (by norm_num) (by norm_num) (by norm_num) hv hv'⟩

/-- The same air at 3000 m and at 1000 m. -/
example : ∃ ti last n ti' last' n', wetbulb 283 270 (pressureAt 3000) (1 / 100) = .value ti last n ∧
    wetbulb 283 270 (pressureAt 1000) (1 / 100) = .value ti' last' n' ∧
    ti - offBy (1 / 100) last ≤ ti' + offBy (1 / 100) last' := by
  obtain ⟨ti, last, n, hv, -⟩ := C44_returns_partial 283 270 (pressureAt 3000) (1 / 100) (by norm_num) (by norm_num)
    (by norm_num) (Run.pressure_ge 3000 (by norm_num)) (by norm_num) (by norm_num)
  obtain ⟨ti', last', n', hv', -⟩ := C44_returns_partial 283 270 (pressureAt 1000) (1 / 100) (by norm_num) (by norm_num)
    (by norm_num) (Run.pressure_ge 1000 (by norm_num)) (by norm_num) (by norm_num)
  exact ⟨ti, last, n, ti', last', n', hv, hv', C176_elevation 283 270 3000 1000 _ _ _ _ _ _ _ (by norm_num)
    (by norm_num) (by norm_num) (by norm_num) (by norm_num) (by norm_num) (by norm_num) hv hv'⟩

end Verif.WetBulb
