import Verif.WetBulb
import Verif.VaporProps

/-! C44: the wet-bulb routine. -/

namespace Verif.WetBulb
open Verif.Vapor

/-- C44 as stated: a returned value's last correction is within the tolerance. -/
def C44_full : Prop :=
  ∀ ta dpt press tol ti last : ℝ, ∀ n, 0 < tol → tol < 1 → 0 < press →
    wetbulb ta dpt press tol = .value ti last n → |last| ≤ tol

theorem go_value (xlh ps ea ta tol : ℝ) (left n : Nat) (ti esat dti v last : ℝ) (k : Nat)
    (h : go xlh ps ea ta tol left n ti esat dti = .value v last k) :
    last ≤ tol ∧ n ≤ k ∧ k ≤ n + left ∧
    (k = n → v = ti ∧ last = dti) ∧
    (n < k → ∃ w es, v = newton xlh ps ea ta w es ∧ last = w - v ∧ (w ≠ ta → es = sat w)) := by
  induction left generalizing n ti esat dti with
  | zero =>
    unfold go at h
    split at h
    · split at h
      · cases h
      · cases h
    · simp only [Outcome.value.injEq] at h
      obtain ⟨rfl, rfl, rfl⟩ := h
      exact ⟨not_lt.1 ‹_›, le_refl _, le_refl _, fun _ => ⟨rfl, rfl⟩, fun h => absurd h (lt_irrefl _)⟩
  | succ l ih =>
    unfold go at h
    split at h
    · split at h
      · cases h
      · rename_i es hes
        simp only at h
        obtain ⟨h1, h2, h3, h4, h5⟩ := ih _ _ _ _ h
        refine ⟨h1, by omega, by omega, fun e => by omega, fun _ => ?_⟩
        rcases Nat.eq_or_lt_of_le h2 with e | e
        · obtain ⟨rfl, rfl⟩ := h4 e.symm
          refine ⟨ti, es, rfl, rfl, fun hti => ?_⟩
          rw [if_pos hti] at hes
          unfold satiC at hes
          split at hes
          · cases hes
          · exact (Option.some.inj hes).symm
        · exact h5 e
    · simp only [Outcome.value.injEq] at h
      obtain ⟨rfl, rfl, rfl⟩ := h
      exact ⟨not_lt.1 ‹_›, le_refl _, by omega, fun _ => ⟨rfl, rfl⟩, fun h => absurd h (lt_irrefl _)⟩

/-- A returned value took at most ten rounds, for every input. -/
theorem C44_at_most_ten (ta dpt press tol ti last : ℝ) (n : Nat)
    (h : wetbulb ta dpt press tol = .value ti last n) : n ≤ 10 := by
  unfold wetbulb at h
  simp only at h
  split at h
  · have := (go_value _ _ _ _ _ _ _ _ _ _ _ _ _ h).2.2.1
    omega
  · cases h

/-- With a tolerance below 1 K: a returned value is the result of a Newton step whose correction
downwards is within the tolerance. Missing: corrections upwards, of which the test takes no notice
(`C44_upward_fails`). -/
theorem C44_converged_partial (ta dpt press tol ti last : ℝ) (n : Nat) (ht : tol < 1)
    (h : wetbulb ta dpt press tol = .value ti last n) :
    1 ≤ n ∧ last ≤ tol ∧ (0 ≤ last → |last| ≤ tol) ∧
    ∃ w es ea, ti = newton (latent ta dpt) (psyc (latent ta dpt) press) ea ta w es ∧ last = w - ti ∧
      ea = sat dpt ∧ (w ≠ ta → es = sat w) := by
  unfold wetbulb at h
  simp only at h
  split at h
  · rename_i ea esat hea _
    obtain ⟨h1, h2, h3, h4, h5⟩ := go_value _ _ _ _ _ _ _ _ _ _ _ _ _ h
    have hn : 0 < n := by
      rcases Nat.eq_zero_or_pos n with e | e
      · obtain ⟨-, e2⟩ := h4 e
        rw [e2] at h1; linarith
      · exact e
    obtain ⟨w, es, hv, hl, hw⟩ := h5 hn
    refine ⟨hn, h1, fun h0 => by rw [abs_of_nonneg h0]; exact h1, w, es, ea, hv, hl, ?_, hw⟩
    unfold satiC at hea
    split at hea
    · cases hea
    · exact (Option.some.inj hea).symm
  · cases h

theorem sati_pos {t : ℝ} (h : 0 < t) : satiC t = some (sat t) := by
  unfold satiC; rw [if_neg (not_le.2 h)]

/-- The first round. -/
theorem wetbulb_first (ta dpt press tol : ℝ) (hta : 0 < ta) (hd : 0 < dpt) (ht : tol < 1) :
    wetbulb ta dpt press tol =
      go (latent ta dpt) (psyc (latent ta dpt) press) (sat dpt) ta tol 9 1
        (newton (latent ta dpt) (psyc (latent ta dpt) press) (sat dpt) ta ta (sat ta)) (sat ta)
        (ta - newton (latent ta dpt) (psyc (latent ta dpt) press) (sat dpt) ta ta (sat ta)) := by
  unfold wetbulb
  simp only [sati_pos hta, sati_pos hd]
  rw [go.eq_def]
  simp only [ht, if_true, ne_eq, not_true_eq_false, if_false]

theorem latent_pos (ta dpt : ℝ) (h1 : ta ≤ freeze) (h2 : dpt ≤ freeze) : 0 < latent ta dpt := by
  unfold latent lhVap lhFus
  rw [if_pos h1]
  linarith

theorem first_step (ta dpt press : ℝ) (h1 : 0 < ta) (h1' : ta ≤ freeze) (h2' : dpt ≤ freeze)
    (hp : 0 < press) :
    ∃ D, 0 < D ∧ newton (latent ta dpt) (psyc (latent ta dpt) press) (sat dpt) ta ta (sat ta) =
      ta + (sat dpt - sat ta) * D := by
  have hl := latent_pos ta dpt h1' h2'
  have hps : 0 < psyc (latent ta dpt) press := by
    unfold psyc
    exact mul_pos (by norm_num) (div_pos hl (mul_pos (by norm_num) hp))
  have hsa := C41_positive ta
  have hden : 0 < 1 + psyc (latent ta dpt) press *
      (latent ta dpt * (sat ta / (4615 / 10 * (ta * ta)))) := by positivity
  refine ⟨psyc (latent ta dpt) press / (1 + psyc (latent ta dpt) press *
      (latent ta dpt * (sat ta / (4615 / 10 * (ta * ta))))), div_pos hps hden, ?_⟩
  unfold newton
  simp only
  rw [sub_self, zero_add, mul_div_assoc', sub_eq_add_neg, ← neg_div]
  congr 2
  ring

/-- Below freezing, with a dew point above the air temperature: whatever the tolerance, the value
after one upward step is returned, although that step can be larger than the tolerance. -/
theorem C44_upward_fails (ta dpt press : ℝ) (h1 : 0 < ta) (h12 : ta < dpt) (h2 : dpt ≤ freeze)
    (hp : 0 < press) :
    ∃ ti last, last < 0 ∧ ∀ tol, 0 < tol → tol < 1 → wetbulb ta dpt press tol = .value ti last 1 := by
  obtain ⟨D, hD, he⟩ := first_step ta dpt press h1 (le_trans h12.le h2) h2 hp
  have hs := C41_ice_increasing ta dpt h1 h12 h2
  refine ⟨newton (latent ta dpt) (psyc (latent ta dpt) press) (sat dpt) ta ta (sat ta),
    ta - newton (latent ta dpt) (psyc (latent ta dpt) press) (sat dpt) ta ta (sat ta), ?_,
    fun tol h0 ht => ?_⟩
  · rw [he]
    have := mul_pos (sub_pos.2 hs) hD
    linarith
  · rw [wetbulb_first ta dpt press tol h1 (lt_trans h1 h12) ht, go.eq_def]
    simp only
    rw [if_neg]
    rw [he]
    have := mul_pos (sub_pos.2 hs) hD
    linarith

theorem C44_fails : ¬ C44_full := by
  intro h
  obtain ⟨ti, last, hl, hall⟩ := C44_upward_fails 260 270 100000 (by norm_num) (by norm_num)
    (by norm_num [freeze]) (by norm_num)
  have hx : ∃ tol : ℝ, 0 < tol ∧ tol < 1 ∧ tol < -last := by
    refine ⟨min (1 / 2) (-last / 2), lt_min (by norm_num) (by linarith), ?_, ?_⟩
    · exact lt_of_le_of_lt (min_le_left _ _) (by norm_num)
    · exact lt_of_le_of_lt (min_le_right _ _) (by linarith)
  obtain ⟨tol, t0, t1, t2⟩ := hx
  have := h 260 270 100000 tol ti last 1 t0 t1 (by norm_num) (hall tol t0 t1)
  rw [abs_of_neg hl] at this
  linarith

/-- In saturated air the wet-bulb temperature is the air temperature, after one round. -/
theorem C44_saturated (ta press tol : ℝ) (h1 : 0 < ta) (h0 : 0 ≤ tol) (ht : tol < 1) :
    wetbulb ta ta press tol = .value ta 0 1 := by
  rw [wetbulb_first ta ta press tol h1 h1 ht]
  have : newton (latent ta ta) (psyc (latent ta ta) press) (sat ta) ta ta (sat ta) = ta := by
    unfold newton; simp
  rw [this, go.eq_def]
  simp only
  rw [if_neg (by rw [sub_self]; exact not_lt.2 h0), sub_self]

/-- Below freezing, with the dew point at most the air temperature, the first correction is
downwards, so that a value returned after one round is converged. -/
theorem C44_first_round_partial (ta dpt press tol ti last : ℝ) (h1 : 0 < dpt) (h12 : dpt ≤ ta)
    (h2 : ta ≤ freeze) (hp : 0 < press) (ht : tol < 1)
    (h : wetbulb ta dpt press tol = .value ti last 1) : 0 ≤ last ∧ |last| ≤ tol := by
  have hta : 0 < ta := lt_of_lt_of_le h1 h12
  obtain ⟨D, hD, he⟩ := first_step ta dpt press hta h2 (le_trans h12 h2) hp
  have hs : sat dpt ≤ sat ta := by
    rcases eq_or_lt_of_le h12 with e | e
    · rw [e]
    · exact (C41_ice_increasing dpt ta h1 e h2).le
  rw [wetbulb_first ta dpt press tol hta h1 ht] at h
  obtain ⟨g1, -, -, g4, -⟩ := go_value _ _ _ _ _ _ _ _ _ _ _ _ _ h
  obtain ⟨-, g5⟩ := g4 rfl
  have h0 : 0 ≤ last := by
    rw [g5, he]
    have := mul_nonneg (sub_nonneg.2 hs) hD.le
    linarith
  exact ⟨h0, by rw [abs_of_nonneg h0]; exact g1⟩

/-- The latent heat between dew point and air temperature: vaporisation at the mean temperature, plus
fusion for the part of the interval below freezing, at the middle of that part. -/
noncomputable def documentedLatent (ta dpt : ℝ) : ℝ :=
  let frozen := max 0 (min ta freeze - dpt)
  2500000 - 2955.73 * ((ta + dpt) / 2 - freeze)
    + frozen / (ta - dpt) * (333600 + 166.67 * (freeze - (min ta freeze + dpt) / 2))

theorem C44_latent (ta dpt : ℝ) (h : dpt < ta) : latent ta dpt = documentedLatent ta dpt := by
  unfold latent documentedLatent lhVap lhFus
  simp only
  have h0 : ta - dpt ≠ 0 := (sub_pos.2 h).ne'
  by_cases h1 : ta ≤ freeze
  · rw [if_pos h1, min_eq_left h1, max_eq_right (by linarith), div_self h0]
    norm_num
  · rw [if_neg h1, min_eq_right (not_le.1 h1).le]
    by_cases h2 : dpt ≤ freeze
    · rw [if_pos h2, max_eq_right (by linarith)]
      norm_num
    · rw [if_neg h2, max_eq_left (by linarith [not_le.1 h2])]
      norm_num

example : latent 275 271 = documentedLatent 275 271 := C44_latent _ _ (by norm_num)

/-- Failure is reported when ten rounds are not enough; a tolerance of 1 K or more returns the air
temperature itself. -/
theorem C44_large_tolerance (ta dpt press tol : ℝ) (h1 : 0 < ta) (h2 : 0 < dpt) (ht : 1 ≤ tol) :
    wetbulb ta dpt press tol = .value ta 1 0 := by
  unfold wetbulb
  simp only [sati_pos h1, sati_pos h2]
  rw [go.eq_def]
  simp only [if_neg (not_lt.2 ht)]

example : ∃ ti last, last < 0 ∧ wetbulb 260 270 100000 (1 / 100) = .value ti last 1 := by
  obtain ⟨ti, last, h, hall⟩ := C44_upward_fails 260 270 100000 (by norm_num) (by norm_num)
    (by norm_num [freeze]) (by norm_num)
  exact ⟨ti, last, h, hall _ (by norm_num) (by norm_num)⟩

end Verif.WetBulb
