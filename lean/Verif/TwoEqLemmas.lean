import Verif.TwoEq
import Mathlib.Analysis.Calculus.MeanValue
import Mathlib.Analysis.Calculus.LocalExtr.Basic
import Mathlib.Analysis.Calculus.Deriv.MeanValue
import Mathlib.Analysis.SpecialFunctions.Exp
import Mathlib.Tactic.LinearCombination
import Mathlib.Tactic.FieldSimp
import Mathlib.Tactic.Positivity

/-! Helper lemmas on the two-stream equations. -/

namespace Verif.TwoEq

open Set

/-- What the beam contributes to the mode `l`. -/
noncomputable def Medium.src (m : Medium) (l : ℝ) : ℝ :=
  m.omega * (-m.g2 * m.g3 + (l - m.g1) * m.g4) / (l * m.mu + 1)

theorem hasDerivAt_beam (mu t : ℝ) :
    HasDerivAt (fun t => Real.exp (-t / mu)) (-(1 / mu) * Real.exp (-t / mu)) t := by
  have h : HasDerivAt (fun t : ℝ => -t / mu) (-1 / mu) t := (hasDerivAt_id t).neg.div_const mu
  have := h.exp
  convert this using 1
  ring

theorem hasDerivAt_mode (l t : ℝ) :
    HasDerivAt (fun t => Real.exp (-l * t)) (-l * Real.exp (-l * t)) t := by
  have h : HasDerivAt (fun t : ℝ => -l * t) (-l) t := by
    simpa using (hasDerivAt_id t).const_mul (-l)
  have := h.exp
  convert this using 1
  ring

/-- Along an eigenvector of the equations the flux is an exponential plus a multiple of the beam. -/
theorem Inside.mode {m : Medium} {T : ℝ} {up dn : ℝ → ℝ} (h : Inside m (Icc 0 T) up dn) (l : ℝ) (hmu : m.mu ≠ 0)
    (hl : l * l = m.g1 * m.g1 - m.g2 * m.g2) (hne : l * m.mu + 1 ≠ 0) (hT : 0 ≤ T) :
    (m.g2 * up T + (l - m.g1) * dn T + m.src l * Real.exp (-T / m.mu)) * Real.exp (-l * T)
      = m.g2 * up 0 + (l - m.g1) * dn 0 + m.src l := by
  set F : ℝ → ℝ := fun t =>
    (m.g2 * up t + (l - m.g1) * dn t + m.src l * Real.exp (-t / m.mu)) * Real.exp (-l * t) with hF
  have hd : ∀ t ∈ Icc 0 T, HasDerivWithinAt F 0 (Icc 0 T) t := by
    intro t ht
    have h1 := ((h.up_eq t ht).const_mul m.g2).add ((h.dn_eq t ht).const_mul (l - m.g1))
    have h2 := h1.add ((hasDerivAt_beam m.mu t).hasDerivWithinAt.const_mul (m.src l))
    have h3 := h2.mul (hasDerivAt_mode l t).hasDerivWithinAt
    refine h3.congr_deriv ?_
    have hs : m.src l * (l + 1 / m.mu) = m.omega / m.mu * (-m.g2 * m.g3 + (l - m.g1) * m.g4) := by
      unfold Medium.src
      have : l + 1 / m.mu = (l * m.mu + 1) / m.mu := by field_simp
      rw [this]
      field_simp
    simp only [Pi.add_apply, Medium.upRate, Medium.dnRate]
    linear_combination (Real.exp (-t / m.mu) * Real.exp (-l * t)) * (-hs) - (dn t) * Real.exp (-l * t) * hl
  have hc := constant_of_derivWithin_zero (f := F) (a := 0) (b := T) (fun t ht => (hd t ht).differentiableWithinAt)
    (fun t ht => by
      by_cases h0 : (0 : ℝ) < T
      · exact (hd t ⟨ht.1, ht.2.le⟩).derivWithin ((uniqueDiffOn_Icc h0) t ⟨ht.1, ht.2.le⟩)
      · exact absurd (lt_of_le_of_lt ht.1 ht.2) h0)
  have := hc T ⟨hT, le_refl T⟩
  simpa [hF] using this

/-- The two linear equations for the flux up at the top and the flux down at the ground. -/
theorem Layer.linear {m : Medium} {T r : ℝ} {up dn : ℝ → ℝ} (h : Layer m T r up dn) (l : ℝ) (hmu : m.mu ≠ 0)
    (hl : l * l = m.g1 * m.g1 - m.g2 * m.g2) (hne : l * m.mu + 1 ≠ 0) (hT : 0 ≤ T) :
    (m.g2 * r + (l - m.g1)) * Real.exp (-l * T) * (dn T + Real.exp (-T / m.mu)) - m.g2 * up 0
      = m.src l - (m.src l - (l - m.g1)) * Real.exp (-T / m.mu) * Real.exp (-l * T) := by
  have := h.inside.mode l hmu hl hne hT
  rw [h.ground, h.top] at this
  linear_combination this

/-- Fluxes built from the two modes. -/
noncomputable def modeUp (m : Medium) (k R t : ℝ) : ℝ :=
  (Real.exp (k * t) * (m.g2 * R + m.src k) - m.src k * Real.exp (-t / m.mu)
    + (m.g1 - k) * ((Real.exp (k * t) * (m.g2 * R + m.src k) - m.src k * Real.exp (-t / m.mu)
      - (Real.exp (-k * t) * (m.g2 * R + m.src (-k)) - m.src (-k) * Real.exp (-t / m.mu))) / (2 * k))) / m.g2

noncomputable def modeDn (m : Medium) (k R t : ℝ) : ℝ :=
  (Real.exp (k * t) * (m.g2 * R + m.src k) - m.src k * Real.exp (-t / m.mu)
      - (Real.exp (-k * t) * (m.g2 * R + m.src (-k)) - m.src (-k) * Real.exp (-t / m.mu))) / (2 * k)

theorem src_rate (m : Medium) (l : ℝ) (hmu : m.mu ≠ 0) (hne : l * m.mu + 1 ≠ 0) :
    m.src l * (l + 1 / m.mu) = m.omega / m.mu * (-m.g2 * m.g3 + (l - m.g1) * m.g4) := by
  unfold Medium.src
  have : l + 1 / m.mu = (l * m.mu + 1) / m.mu := by field_simp
  rw [this]
  field_simp

theorem hasDerivAt_part (m : Medium) (l c : ℝ) (hmu : m.mu ≠ 0) (hne : l * m.mu + 1 ≠ 0) (t : ℝ) :
    HasDerivAt (fun t => Real.exp (l * t) * c - m.src l * Real.exp (-t / m.mu))
      (l * (Real.exp (l * t) * c - m.src l * Real.exp (-t / m.mu))
        + m.omega / m.mu * (-m.g2 * m.g3 + (l - m.g1) * m.g4) * Real.exp (-t / m.mu)) t := by
  have h1 : HasDerivAt (fun t => Real.exp (l * t)) (l * Real.exp (l * t)) t := by
    have := hasDerivAt_mode (-l) t
    simpa using this
  have h2 := (h1.mul_const c).sub ((hasDerivAt_beam m.mu t).const_mul (m.src l))
  refine h2.congr_deriv ?_
  linear_combination Real.exp (-t / m.mu) * src_rate m l hmu hne

theorem mode_inside (m : Medium) (k R : ℝ) (hmu : m.mu ≠ 0) (hk : k ≠ 0) (hg : m.g2 ≠ 0)
    (hl : k * k = m.g1 * m.g1 - m.g2 * m.g2) (h1 : k * m.mu + 1 ≠ 0) (h2 : -k * m.mu + 1 ≠ 0) (s : Set ℝ) :
    Inside m s (modeUp m k R) (modeDn m k R) := by
  have hp := hasDerivAt_part m k (m.g2 * R + m.src k) hmu h1
  have hq := hasDerivAt_part m (-k) (m.g2 * R + m.src (-k)) hmu h2
  refine ⟨fun t _ => ?_, fun t _ => ?_⟩
  · have := (((hp t).add ((((hp t).sub (hq t)).div_const (2 * k)).const_mul (m.g1 - k))).div_const m.g2)
    refine HasDerivAt.hasDerivWithinAt (HasDerivAt.congr_deriv this ?_)
    simp only [Medium.upRate, modeUp, modeDn]
    generalize Real.exp (k * t) * (m.g2 * R + m.src k) - m.src k * Real.exp (-t / m.mu) = P
    generalize Real.exp (-k * t) * (m.g2 * R + m.src (-k)) - m.src (-k) * Real.exp (-t / m.mu) = Q
    generalize Real.exp (-t / m.mu) = E
    field_simp
    linear_combination (m.mu * (P - Q)) * hl
  · have := ((hp t).sub (hq t)).div_const (2 * k)
    refine HasDerivAt.hasDerivWithinAt (HasDerivAt.congr_deriv this ?_)
    simp only [Medium.dnRate, modeUp, modeDn]
    generalize Real.exp (k * t) * (m.g2 * R + m.src k) - m.src k * Real.exp (-t / m.mu) = P
    generalize Real.exp (-k * t) * (m.g2 * R + m.src (-k)) - m.src (-k) * Real.exp (-t / m.mu) = Q
    generalize Real.exp (-t / m.mu) = E
    field_simp
    ring

theorem modeDn_zero (m : Medium) (k R : ℝ) : modeDn m k R 0 = 0 := by
  simp [modeDn]

theorem modeUp_zero (m : Medium) (k R : ℝ) (hg : m.g2 ≠ 0) : modeUp m k R 0 = R := by
  simp only [modeUp, mul_zero, neg_zero, zero_div, Real.exp_zero]
  field_simp
  ring

/-- When the two linear equations can be solved, a layer has fluxes. -/
theorem exists_layer (m : Medium) (k T r : ℝ) (hmu : m.mu ≠ 0) (hk : k ≠ 0) (hg : m.g2 ≠ 0)
    (hl : k * k = m.g1 * m.g1 - m.g2 * m.g2) (h1 : k * m.mu + 1 ≠ 0) (h2 : -k * m.mu + 1 ≠ 0) (hT : 0 ≤ T)
    (hD : (m.g2 * r + (k - m.g1)) * Real.exp (-k * T) - (m.g2 * r + (-k - m.g1)) * Real.exp (k * T) ≠ 0) :
    ∃ up dn, Layer m T r up dn := by
  set em := Real.exp (-k * T) with hem
  set ep := Real.exp (k * T) with hep
  set et := Real.exp (-T / m.mu) with het
  have hpm : em * ep = 1 := by rw [hem, hep, ← Real.exp_add]; simp
  obtain ⟨W, hW⟩ : ∃ W, W * ((m.g2 * r + (k - m.g1)) * em - (m.g2 * r + (-k - m.g1)) * ep)
      = (m.src k - (m.src k - (k - m.g1)) * et * em) - (m.src (-k) - (m.src (-k) - (-k - m.g1)) * et * ep) :=
    ⟨_, div_mul_cancel₀ _ hD⟩
  obtain ⟨R, hR⟩ : ∃ R, m.g2 * R = (m.g2 * r + (k - m.g1)) * em * W - (m.src k - (m.src k - (k - m.g1)) * et * em) :=
    ⟨_, mul_div_cancel₀ _ hg⟩
  have hR' : m.g2 * R = (m.g2 * r + (-k - m.g1)) * ep * W - (m.src (-k) - (m.src (-k) - (-k - m.g1)) * et * ep) := by
    rw [hR]; linear_combination hW
  have I := mode_inside m k R hmu hk hg hl h1 h2 (Icc 0 T)
  have D0 := modeDn_zero m k R
  have U0 := modeUp_zero m k R hg
  have m1 := I.mode k hmu hl h1 hT
  have m2 := I.mode (-k) hmu (by linarith) h2 hT
  rw [D0, U0] at m1 m2
  rw [neg_neg] at m2
  rw [← hem, ← het] at m1
  rw [← hep, ← het] at m2
  refine ⟨modeUp m k R, modeDn m k R, I, D0, ?_⟩
  rw [← het]
  generalize modeUp m k R T = U at *
  generalize modeDn m k R T = V at *
  have hem0 : em ≠ 0 := (Real.exp_pos _).ne'
  have hep0 : ep ≠ 0 := (Real.exp_pos _).ne'
  have q1 : m.g2 * U + (k - m.g1) * V = (m.g2 * r + (k - m.g1)) * W - (k - m.g1) * et := by
    apply mul_right_cancel₀ hem0
    linear_combination m1 + hR
  have q2 : m.g2 * U + (-k - m.g1) * V = (m.g2 * r + (-k - m.g1)) * W - (-k - m.g1) * et := by
    apply mul_right_cancel₀ hep0
    linear_combination m2 + hR'
  have q3 : V = W - et := by
    have : 2 * k * (V - (W - et)) = 0 := by linear_combination q1 - q2
    rcases mul_eq_zero.1 this with h | h
    · exact absurd h (mul_ne_zero two_ne_zero hk)
    · linarith
  apply mul_left_cancel₀ hg
  rw [q3] at q1 ⊢
  linear_combination q1

/-- At the least value over an interval, the rate points inward. -/
theorem rate_at_min {f : ℝ → ℝ} {T a f' : ℝ} (ha : a ∈ Icc 0 T) (hmin : ∀ t ∈ Icc 0 T, f a ≤ f t)
    (h : HasDerivWithinAt f f' (Icc 0 T) a) : (0 < a → f' ≤ 0) ∧ (a < T → 0 ≤ f') := by
  have hm : IsLocalMinOn f (Icc 0 T) a := by
    filter_upwards [self_mem_nhdsWithin] with t ht using hmin t ht
  have key : ∀ b ∈ Icc 0 T, 0 ≤ (b - a) * f' := by
    intro b hb
    have hseg : segment ℝ a b ⊆ Icc 0 T := (convex_Icc 0 T).segment_subset ha hb
    have := hm.hasFDerivWithinAt_nonneg h.hasFDerivWithinAt (sub_mem_posTangentConeAt_of_segment_subset hseg)
    simpa using this
  constructor
  · intro h0
    have := key 0 ⟨le_refl _, ha.1.trans ha.2⟩
    nlinarith
  · intro h0
    have := key T ⟨ha.1.trans ha.2, le_refl _⟩
    nlinarith

/-- Both diffuse fluxes are nonnegative at every depth. -/
theorem Layer.nonneg {m : Medium} {T r : ℝ} {up dn : ℝ → ℝ} (h : Layer m T r up dn) (hT : 0 ≤ T) (hr : 0 ≤ r)
    (hr1 : r ≤ 1) (hmu : 0 < m.mu) (hw : 0 ≤ m.omega) (h2 : 0 ≤ m.g2) (h12 : m.g2 < m.g1) (h3 : 0 ≤ m.g3)
    (h4 : 0 ≤ m.g4) : ∀ t ∈ Icc 0 T, 0 ≤ up t ∧ 0 ≤ dn t := by
  have hcu : ContinuousOn up (Icc 0 T) := fun t ht => (h.inside.up_eq t ht).continuousWithinAt
  have hcd : ContinuousOn dn (Icc 0 T) := fun t ht => (h.inside.dn_eq t ht).continuousWithinAt
  have hne : (Icc 0 T).Nonempty := ⟨0, le_refl _, hT⟩
  obtain ⟨a, ha, hamin⟩ := isCompact_Icc.exists_isMinOn hne hcu
  obtain ⟨b, hb, hbmin⟩ := isCompact_Icc.exists_isMinOn hne hcd
  have hamin' : ∀ t ∈ Icc 0 T, up a ≤ up t := fun t ht => hamin ht
  have hbmin' : ∀ t ∈ Icc 0 T, dn b ≤ dn t := fun t ht => hbmin ht
  have hbeam : ∀ t, 0 < Real.exp (-t / m.mu) := fun t => Real.exp_pos _
  have hs3 : ∀ t, 0 ≤ m.g3 * (m.omega / m.mu) * Real.exp (-t / m.mu) := fun t => by positivity
  have hs4 : ∀ t, 0 ≤ m.g4 * (m.omega / m.mu) * Real.exp (-t / m.mu) := fun t => by positivity
  suffices hs : 0 ≤ up a ∧ 0 ≤ dn b from
    fun t ht => ⟨hs.1.trans (hamin' t ht), hs.2.trans (hbmin' t ht)⟩
  rcases le_total (up a) (dn b) with hle | hle
  · suffices 0 ≤ up a from ⟨this, this.trans hle⟩
    by_contra hneg
    rw [not_le] at hneg
    rcases lt_or_eq_of_le ha.2 with hlt | heq
    · have h0 := (rate_at_min ha hamin' (h.inside.up_eq a ha)).2 hlt
      unfold Medium.upRate at h0
      have h5 := hbmin' a ha
      have h6 := hs3 a
      have h7 : m.g2 * up a ≤ m.g2 * dn a := mul_le_mul_of_nonneg_left (hle.trans h5) h2
      nlinarith
    · have hg := h.ground
      rw [← heq] at hg
      have h5 := hbmin' a ha
      have h6 : r * up a ≤ r * dn a := mul_le_mul_of_nonneg_left (hle.trans h5) hr
      have h7 := hbeam a
      rcases hr.lt_or_eq with hr0 | hr0
      · have := mul_pos hr0 h7
        nlinarith
      · rw [← hr0] at hg
        simp at hg
        linarith
  · suffices 0 ≤ dn b from ⟨this.trans hle, this⟩
    by_contra hneg
    rw [not_le] at hneg
    have hb0 : 0 < b := by
      rcases lt_or_eq_of_le hb.1 with hlt | heq
      · exact hlt
      · rw [← heq, h.top] at hneg
        exact absurd hneg (lt_irrefl _)
    have h0 := (rate_at_min hb hbmin' (h.inside.dn_eq b hb)).1 hb0
    unfold Medium.dnRate at h0
    have h5 := hamin' b hb
    have h6 := hs4 b
    have h7 : m.g2 * dn b ≤ m.g2 * up b := mul_le_mul_of_nonneg_left (hle.trans h5) h2
    nlinarith

/-- The light absorbed between two depths, with fluxes that are not negative, is not negative. -/
theorem Inside.net_antitone {m : Medium} {T : ℝ} {up dn : ℝ → ℝ} (h : Inside m (Icc 0 T) up dn)
    (hn : ∀ t ∈ Icc 0 T, 0 ≤ up t ∧ 0 ≤ dn t) (hmu : 0 < m.mu) (hw1 : m.omega ≤ 1) (h12 : m.g2 ≤ m.g1)
    (h34 : m.g3 + m.g4 = 1) : AntitoneOn (fun t => Real.exp (-t / m.mu) + dn t - up t) (Icc 0 T) := by
  have hd : ∀ t ∈ Icc 0 T, HasDerivWithinAt (fun t => Real.exp (-t / m.mu) + dn t - up t)
      (-(m.g1 - m.g2) * (up t + dn t) - (1 - m.omega) / m.mu * Real.exp (-t / m.mu)) (Icc 0 T) t := by
    intro t ht
    have := ((hasDerivAt_beam m.mu t).hasDerivWithinAt.add (h.dn_eq t ht)).sub (h.up_eq t ht)
    refine this.congr_deriv ?_
    unfold Medium.upRate Medium.dnRate
    linear_combination (m.omega / m.mu * Real.exp (-t / m.mu)) * h34
  apply antitoneOn_of_deriv_nonpos (convex_Icc 0 T)
  · exact fun t ht => (hd t ht).continuousWithinAt
  · exact fun t ht => ((hd t (interior_subset ht)).differentiableWithinAt).mono interior_subset
  · intro t ht
    have hti := interior_subset ht
    have hnhds : Icc 0 T ∈ nhds t := mem_interior_iff_mem_nhds.1 ht
    rw [((hd t hti).hasDerivAt hnhds).deriv]
    have := hn t hti
    have h1 : 0 ≤ (m.g1 - m.g2) * (up t + dn t) := mul_nonneg (by linarith) (by linarith)
    have h2 : 0 ≤ (1 - m.omega) / m.mu * Real.exp (-t / m.mu) :=
      mul_nonneg (div_nonneg (by linarith) hmu.le) (Real.exp_pos _).le
    linarith

/-- Light is not created: what leaves at the top and what the ground takes up are at most the beam. -/
theorem Layer.energy {m : Medium} {T r : ℝ} {up dn : ℝ → ℝ} (h : Layer m T r up dn) (hT : 0 ≤ T) (hr : 0 ≤ r)
    (hr1 : r ≤ 1) (hmu : 0 < m.mu) (hw : 0 ≤ m.omega) (hw1 : m.omega ≤ 1) (h2 : 0 ≤ m.g2) (h12 : m.g2 < m.g1)
    (h3 : 0 ≤ m.g3) (h4 : 0 ≤ m.g4) (h34 : m.g3 + m.g4 = 1) :
    up 0 + (1 - r) * (dn T + Real.exp (-T / m.mu)) ≤ 1 := by
  have hn := h.nonneg hT hr hr1 hmu hw h2 h12 h3 h4
  have := h.inside.net_antitone hn hmu hw1 h12.le h34 ⟨le_refl _, hT⟩ ⟨hT, le_refl _⟩ hT
  simp only [neg_zero, zero_div, Real.exp_zero, h.top, h.ground] at this
  linarith

/-- Bounded fluxes in a layer without a bottom. -/
theorem Bottomless.up_zero {m : Medium} {up dn : ℝ → ℝ} (h : Bottomless m up dn) (k : ℝ) (hmu : 0 < m.mu)
    (hk : 0 < k) (hl : k * k = m.g1 * m.g1 - m.g2 * m.g2) : m.g2 * up 0 = -m.src k := by
  obtain ⟨B, hB⟩ := h.bounded
  have hne : k * m.mu + 1 ≠ 0 := by positivity
  have hin : ∀ T, Inside m (Icc 0 T) up dn := fun T =>
    ⟨fun t ht => (h.inside.up_eq t ht.1).mono (fun x hx => hx.1),
     fun t ht => (h.inside.dn_eq t ht.1).mono (fun x hx => hx.1)⟩
  set C := |m.g2| * B + |k - m.g1| * B + |m.src k| with hC
  have hle : ∀ T, 0 ≤ T → |m.g2 * up 0 + m.src k| ≤ C * Real.exp (-k * T) := by
    intro T hT
    have e := (hin T).mode k hmu.ne' hl hne hT
    rw [h.top, mul_zero, add_zero] at e
    rw [← e, abs_mul, abs_of_pos (Real.exp_pos _)]
    apply mul_le_mul_of_nonneg_right _ (Real.exp_pos _).le
    have hE : Real.exp (-T / m.mu) ≤ 1 := by
      apply Real.exp_le_one_iff.2
      rw [neg_div, neg_nonpos]
      positivity
    have a1 : |m.g2 * up T| ≤ |m.g2| * B := by
      rw [abs_mul]; exact mul_le_mul_of_nonneg_left (hB T hT).1 (abs_nonneg _)
    have a2 : |(k - m.g1) * dn T| ≤ |k - m.g1| * B := by
      rw [abs_mul]; exact mul_le_mul_of_nonneg_left (hB T hT).2 (abs_nonneg _)
    have a3 : |m.src k * Real.exp (-T / m.mu)| ≤ |m.src k| := by
      rw [abs_mul, abs_of_pos (Real.exp_pos _)]
      exact mul_le_of_le_one_right (abs_nonneg _) hE
    exact (abs_add_le _ _).trans (add_le_add ((abs_add_le _ _).trans (add_le_add a1 a2)) a3)
  have hlim : Filter.Tendsto (fun T => C * Real.exp (-k * T)) Filter.atTop (nhds 0) := by
    have : Filter.Tendsto (fun T => Real.exp (-k * T)) Filter.atTop (nhds 0) := by
      apply Real.tendsto_exp_atBot.comp
      exact Filter.tendsto_id.const_mul_atTop_of_neg (by linarith)
    simpa using this.const_mul C
  have h0 : |m.g2 * up 0 + m.src k| ≤ 0 := by
    apply ge_of_tendsto hlim
    filter_upwards [Filter.eventually_ge_atTop 0] with T hT using hle T hT
  have := abs_nonpos_iff.1 h0
  linarith

/-- Bounded fluxes in a layer without a bottom exist. -/
theorem exists_bottomless (m : Medium) (k : ℝ) (hmu : 0 < m.mu) (hk : 0 < k) (hg : m.g2 ≠ 0)
    (hl : k * k = m.g1 * m.g1 - m.g2 * m.g2) (h1 : k * m.mu + 1 ≠ 0) (h2 : -k * m.mu + 1 ≠ 0) :
    ∃ up dn, Bottomless m up dn := by
  obtain ⟨R, hR⟩ : ∃ R, m.g2 * R = -m.src k := ⟨_, mul_div_cancel₀ _ hg⟩
  refine ⟨modeUp m k R, modeDn m k R, mode_inside m k R hmu.ne' hk.ne' hg hl h1 h2 _, modeDn_zero m k R, ?_⟩
  have hz : m.g2 * R + m.src k = 0 := by rw [hR]; ring
  set c := m.g2 * R + m.src (-k) with hc
  have hdn : ∀ t, 0 ≤ t → |modeDn m k R t| ≤ (|m.src k| + |c| + |m.src (-k)|) / (2 * k) ∧
      |modeUp m k R t| ≤ (|m.src k| + |m.g1 - k| * ((|m.src k| + |c| + |m.src (-k)|) / (2 * k))) / |m.g2| := by
    intro t ht
    have hE : Real.exp (-t / m.mu) ≤ 1 := by
      apply Real.exp_le_one_iff.2
      rw [neg_div, neg_nonpos]
      positivity
    have hM : Real.exp (-k * t) ≤ 1 := by
      apply Real.exp_le_one_iff.2
      nlinarith
    have hE0 : |Real.exp (-t / m.mu)| ≤ 1 := by rw [abs_of_pos (Real.exp_pos _)]; exact hE
    have hM0 : |Real.exp (-k * t)| ≤ 1 := by rw [abs_of_pos (Real.exp_pos _)]; exact hM
    have b1 : |m.src k * Real.exp (-t / m.mu)| ≤ |m.src k| := by
      rw [abs_mul]; exact mul_le_of_le_one_right (abs_nonneg _) hE0
    have b2 : |m.src (-k) * Real.exp (-t / m.mu)| ≤ |m.src (-k)| := by
      rw [abs_mul]; exact mul_le_of_le_one_right (abs_nonneg _) hE0
    have b3 : |Real.exp (-k * t) * c| ≤ |c| := by
      rw [abs_mul]; exact mul_le_of_le_one_left (abs_nonneg _) hM0
    have d : |modeDn m k R t| ≤ (|m.src k| + |c| + |m.src (-k)|) / (2 * k) := by
      unfold modeDn
      rw [hz, abs_div, abs_of_pos (show (0 : ℝ) < 2 * k by linarith)]
      apply div_le_div_of_nonneg_right _ (by linarith)
      have b1' := abs_le.1 b1
      have b2' := abs_le.1 b2
      have b3' := abs_le.1 b3
      rw [abs_le]
      constructor <;> simp only [mul_zero, zero_sub] <;> linarith [b1'.1, b1'.2, b2'.1, b2'.2, b3'.1, b3'.2]
    refine ⟨d, ?_⟩
    have eu : modeUp m k R t = (-(m.src k * Real.exp (-t / m.mu)) + (m.g1 - k) * modeDn m k R t) / m.g2 := by
      unfold modeUp modeDn
      rw [hz]
      ring
    rw [eu, abs_div]
    apply div_le_div_of_nonneg_right _ (abs_nonneg _)
    refine (abs_add_le _ _).trans (add_le_add ?_ ?_)
    · rw [abs_neg]; exact b1
    · rw [abs_mul]; exact mul_le_mul_of_nonneg_left d (abs_nonneg _)
  exact ⟨max _ _, fun t ht => ⟨(hdn t ht).2.trans (le_max_right _ _), (hdn t ht).1.trans (le_max_left _ _)⟩⟩

/-- The solution of the two linear equations, in the form the code has it. -/
theorem solve {g1 g2 g3 g4 w mu k r em ep et R W s1 s2 : ℝ} (hk : k * k = g1 * g1 - g2 * g2) (hpm : em * ep = 1)
    (hg : g2 ≠ 0) (hop : mu * k + 1 ≠ 0) (hom : 1 - mu * k ≠ 0)
    (hs1 : s1 = w * (-g2 * g3 + (k - g1) * g4) / (k * mu + 1))
    (hs2 : s2 = w * (-g2 * g3 + (-k - g1) * g4) / (-k * mu + 1))
    (e1 : (g2 * r + (k - g1)) * em * W - g2 * R = s1 - (s1 - (k - g1)) * et * em)
    (e2 : (g2 * r + (-k - g1)) * ep * W - g2 * R = s2 - (s2 - (-k - g1)) * et * ep) :
    R * (ep * (k + g1) * (g2 - (g1 - k) * r) - em * (g1 - k) * (g2 - (k + g1) * r))
      = w * (ep * (g2 - (g1 - k) * r) * (g3 * k + (g2 * g4 + g1 * g3)) / (mu * k + 1)
          - em * (g2 - (k + g1) * r) * ((g2 * g4 + g1 * g3) - g3 * k) / (1 - mu * k))
        + 2 * et * g2 * (r - (((g1 * g4 + g2 * g3) * r - (g2 * g4 + g1 * g3)) * mu + g4 * r + g3) * w
            / ((1 - mu * k) * (mu * k + 1))) * k ∧
    W * (ep * (k + g1) * (g2 - (g1 - k) * r) - em * (g1 - k) * (g2 - (k + g1) * r))
      = et * (ep * (k + g1) * (g2 - w * ((g2 * g4 + g1 * g3) - g3 * k) / (1 - mu * k))
          - em * (g1 - k) * (g2 - w * (g3 * k + (g2 * g4 + g1 * g3)) / (mu * k + 1)))
        + 2 * g2 * ((g1 * g4 + g2 * g3) * mu + g4) * w * k / ((1 - mu * k) * (mu * k + 1)) := by
  obtain ⟨A, hA⟩ : ∃ A, A = w * ((g2 * g4 + g1 * g3) - g3 * k) / (1 - mu * k) := ⟨_, rfl⟩
  obtain ⟨B, hB⟩ : ∃ B, B = w * (g3 * k + (g2 * g4 + g1 * g3)) / (mu * k + 1) := ⟨_, rfl⟩
  have hom' : -k * mu + 1 ≠ 0 := by intro h; apply hom; linarith
  have hop' : k * mu + 1 ≠ 0 := by intro h; apply hop; linarith
  have A' : A * (1 - mu * k) = w * ((g2 * g4 + g1 * g3) - g3 * k) := by rw [hA, div_mul_cancel₀ _ hom]
  have B' : B * (mu * k + 1) = w * (g3 * k + (g2 * g4 + g1 * g3)) := by rw [hB, div_mul_cancel₀ _ hop]
  have S1 : s1 * (k * mu + 1) = w * (-g2 * g3 + (k - g1) * g4) := by rw [hs1, div_mul_cancel₀ _ hop']
  have S2 : s2 * (-k * mu + 1) = w * (-g2 * g3 + (-k - g1) * g4) := by rw [hs2, div_mul_cancel₀ _ hom']
  have h1 : g2 * (g2 * r + (k - g1)) = -(g1 - k) * (g2 - (k + g1) * r) := by linear_combination r * hk
  have h2 : g2 * (g2 * r + (-k - g1)) = -(k + g1) * (g2 - (g1 - k) * r) := by linear_combination r * hk
  have t1 : g2 * s2 = -(k + g1) * A := by
    apply mul_right_cancel₀ hom
    linear_combination g2 * S2 + (k + g1) * A' - w * g3 * hk
  have t2 : g2 * s1 = -(g1 - k) * B := by
    apply mul_right_cancel₀ hop
    linear_combination g2 * S1 + (g1 - k) * B' - w * g3 * hk
  have hX : g2 * (s1 - s2)
      = 2 * g2 * ((g1 * g4 + g2 * g3) * mu + g4) * w * k / ((1 - mu * k) * (mu * k + 1)) := by
    rw [eq_div_iff (mul_ne_zero hom hop)]
    linear_combination g2 * (1 - mu * k) * S1 - g2 * (mu * k + 1) * S2
  have hY : (g2 - (g1 - k) * r) * B - (g2 - (k + g1) * r) * A
      = 2 * g2 * k * (((g1 * g4 + g2 * g3) * r - (g2 * g4 + g1 * g3)) * mu + g4 * r + g3) * w
        / ((1 - mu * k) * (mu * k + 1)) := by
    rw [eq_div_iff (mul_ne_zero hom hop)]
    linear_combination (g2 - (g1 - k) * r) * (1 - mu * k) * B' - (g2 - (k + g1) * r) * (mu * k + 1) * A'
      - 2 * k * r * mu * w * g3 * hk
  have gg : (k + g1) * (g1 - k) = g2 * g2 := by linear_combination -hk
  have c1 : (g2 * r + (-k - g1)) * s1 = (g2 - (g1 - k) * r) * B := by
    apply mul_left_cancel₀ (mul_ne_zero hg hg)
    linear_combination (g2 * s1) * h2 - (k + g1) * (g2 - (g1 - k) * r) * t2 + (g2 - (g1 - k) * r) * B * gg
  have c2 : (g2 * r + (k - g1)) * s2 = (g2 - (k + g1) * r) * A := by
    apply mul_left_cancel₀ (mul_ne_zero hg hg)
    linear_combination (g2 * s2) * h1 - (g1 - k) * (g2 - (k + g1) * r) * t1 + (g2 - (k + g1) * r) * A * gg
  constructor
  · have e3 : w * (ep * (g2 - (g1 - k) * r) * (g3 * k + (g2 * g4 + g1 * g3)) / (mu * k + 1)
          - em * (g2 - (k + g1) * r) * ((g2 * g4 + g1 * g3) - g3 * k) / (1 - mu * k))
        + 2 * et * g2 * (r - (((g1 * g4 + g2 * g3) * r - (g2 * g4 + g1 * g3)) * mu + g4 * r + g3) * w
            / ((1 - mu * k) * (mu * k + 1))) * k
        = ep * (g2 - (g1 - k) * r) * B - em * (g2 - (k + g1) * r) * A + 2 * et * g2 * r * k
          - et * ((g2 - (g1 - k) * r) * B - (g2 - (k + g1) * r) * A) := by
      rw [hY, hA, hB]
      ring
    rw [e3]
    linear_combination (g2 * r + (-k - g1)) * ep * e1 - (g2 * r + (k - g1)) * em * e2 - R * em * h1 + R * ep * h2
      + ep * c1 - em * c2 + et * (c2 - c1) +
      (et * ((g2 * r + (k - g1)) * (s2 + (k + g1)) - (g2 * r + (-k - g1)) * (s1 + (g1 - k)))) * hpm
  · rw [← hA, ← hB]
    linear_combination g2 * (e1 - e2) - W * em * h1 + W * ep * h2 + hX - et * em * t2 + et * ep * t1

end Verif.TwoEq
