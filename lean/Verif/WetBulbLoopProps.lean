import Verif.WetBulbProps
import Verif.WetBulbLoop

/-!
C44: the wet-bulb iteration ends within its ten rounds, at the solution of the psychrometric equation.
-/

namespace Verif.WetBulb
open Verif.Vapor

/-- The psychrometric equation says that this is zero at the wet-bulb temperature `t`: the heat given up by
the air from `ta` to `t` against the latent heat taken up by evaporation from the vapor pressure at the dew
point to the saturation pressure at `t`, with molecular weights 18.0153 and 28.9644 and a heat capacity of
1005 J/kg/K. -/
noncomputable def imbalance (ta dpt press t : ℝ) : ℝ :=
  t - ta + 18.0153 / 28.9644 * documentedLatent ta dpt / (1005 * press) * (sat t - sat dpt)

/-- Within `δ` of `ti` the psychrometric equation changes sign, and nowhere else. (Saturation pressure jumps at
the freezing point, so there need not be a zero.) -/
def Solves (ta dpt press ti δ : ℝ) : Prop :=
  (∀ t, ti + δ ≤ t → t ≤ 1000 → 0 ≤ imbalance ta dpt press t) ∧
  ∀ t, 0 < t → t ≤ ti - δ → imbalance ta dpt press t ≤ 0

theorem imbalance_eq (ta dpt press t : ℝ) (h : dpt < ta) :
    imbalance ta dpt press t = psychro (psyc (latent ta dpt) press) (sat dpt) ta t := by
  unfold imbalance psychro psyc
  rw [C44_latent ta dpt h]
  ring

/-- For air up to 320.2 K, a dew point below it and from 199 K up, a pressure of at least 50 kPa and a
tolerance between 7 mK and 1 K the routine never exits: within ten rounds it returns a value, the psychrometric
equation is solved to within the tolerance or the last correction, whichever is larger, and the value lies
between dew point and air temperature up to the same distance. Missing: other air and smaller tolerances. -/
theorem C44_returns_partial (ta dpt press tol : ℝ) (h1 : 199 ≤ dpt) (h2 : dpt < ta) (h3 : ta ≤ 3202 / 10)
    (hP : 50000 ≤ press) (htol : 7 / 1000 ≤ tol) (htol1 : tol < 1) :
    ∃ ti last n, wetbulb ta dpt press tol = .value ti last n ∧ 1 ≤ n ∧ n ≤ 10 ∧ last ≤ tol ∧
      Solves ta dpt press ti (max tol |last|) ∧
      dpt - max tol |last| < ti ∧ ti < ta + max tol |last| := by
  obtain ⟨ti, last, n, a1, a2, a3, a4, a5⟩ := wetbulb_returns ta dpt press tol h1 h2.le h3 hP htol htol1
  have hs : Solves ta dpt press ti (max tol |last|) := by
    refine ⟨fun t p q => ?_, fun t p q => ?_⟩
    · rw [imbalance_eq ta dpt press t h2]; exact a4 t p q
    · rw [imbalance_eq ta dpt press t h2]; exact a5 t p q
  have hL : 0 < latent ta dpt := by
    rcases le_or_gt 300 ta with hh | hh
    · linarith [(latent_hot ta dpt hh h3 h1 h2.le).1]
    · rcases lt_or_ge freeze ta with hf | hf
      · linarith [(latent_cold ta dpt hf hh.le h1 h2.le).1]
      · linarith [(latent_ice ta dpt hf h1 h2.le).1]
  have hps := psyc_pos (latent ta dpt) press hL (by linarith)
  refine ⟨ti, last, n, a1, (C44_converged_partial ta dpt press tol ti last n htol1 a1).1,
    C44_at_most_ten ta dpt press tol ti last n a1, a3, hs, ?_, ?_⟩
  · by_contra hc
    have h := hs.1 dpt (by linarith [not_lt.1 hc]) (by linarith)
    unfold imbalance at h
    rw [sub_self, mul_zero] at h
    linarith
  · by_contra hc
    have h := a5 ta (by linarith) (by linarith [not_lt.1 hc])
    unfold psychro at h
    have := C41_increasing dpt ta (by linarith) h2 (by linarith)
    have := mul_pos hps (sub_pos.2 this)
    linarith

/-- A hot dry day at 4000 m, with the tolerance of `CoreConfig.ini`. -/
example : ∃ ti last n, wetbulb 310 250 61640 (1 / 100) = .value ti last n ∧ n ≤ 10 := by
  obtain ⟨ti, last, n, h, -, hn, -⟩ := C44_returns_partial 310 250 61640 (1 / 100) (by norm_num) (by norm_num)
    (by norm_num) (by norm_num) (by norm_num) (by norm_num)
  exact ⟨ti, last, n, h, hn⟩

end Verif.WetBulb
