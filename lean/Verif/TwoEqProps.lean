import Verif.TwoEqLemmas
import Verif.TwostreamProps
import Verif.BetaProps
import Mathlib.Analysis.Complex.ExponentialBounds

/-!
C146: the reflectance and the transmittance that `twostream` computes (smrf/envphys/solar/twostream.py 4-128, modelled in
`Twostream`) are those of the two-stream equations (`TwoEq`), and no light is created.
-/

namespace Verif.TwoEq

open Verif.Twostream

/-- The coefficients are those of the table of Meador and Weaver. -/
theorem C146_table (b mu omega g : ℝ) (hg : g ≠ 1) (γ : Gam) (hb : beta0 mu g = .ok b) (h : mwgamma mu omega g = .ok γ) :
    γ = ⟨(table b mu omega g).g1, (table b mu omega g).g2, (table b mu omega g).g3, (table b mu omega g).g4⟩ := by
  unfold mwgamma at h
  rw [hb] at h
  simp only [Except.ok.injEq] at h
  subst h
  unfold hybrid
  simp only [if_neg hg, table, Gam.mk.injEq, and_true]
  constructor
  · congr 1 <;> ring
  · congr 1 <;> ring

/-- Everything about the coefficients of a call that the proofs need. -/
theorem coef_exact {mu omega g r0 : ℝ} {c : Coef} (hw : 0 ≤ omega) (hw1 : omega < 1) (hg1 : g < 1)
    (h : coef mu omega g r0 = .ok c) : ∃ b, beta0 mu g = .ok b ∧
      let m := table b mu omega g
      let r := if r0 < 0 then 0 else r0
      c.gam = ⟨m.g1, m.g2, m.g3, m.g4⟩ ∧ 0 < c.xi ∧ c.xi * c.xi = m.g1 * m.g1 - m.g2 * m.g2 ∧
        c.alph1 = m.g1 * m.g4 + m.g2 * m.g3 ∧ c.alph2 = m.g2 * m.g4 + m.g1 * m.g3 ∧ c.gpx = c.xi + m.g1 ∧
        c.gmx = m.g1 - c.xi ∧ c.opx = mu * c.xi + 1 ∧ c.omx = 1 - mu * c.xi ∧ c.rm = m.g2 - (m.g1 - c.xi) * r ∧
        c.rp = m.g2 - (c.xi + m.g1) * r ∧ m.g2 < m.g1 ∧ 0 < m.g1 ∧ 0 ≤ m.g3 ∧ 0 ≤ m.g4 := by
  unfold coef at h
  simp only at h
  split at h
  · cases h
  · rename_i γ hγ
    have hb : ∃ b, beta0 mu g = .ok b := by
      unfold mwgamma at hγ
      split at hγ
      · cases hγ
      · rename_i b hb; exact ⟨b, hb⟩
    obtain ⟨b, hb⟩ := hb
    obtain ⟨k1, k2, k3, k4, k5, k6, k7⟩ := C49_gammas mu omega g γ hw hw1.le hg1 hγ
    have e := C146_table b mu omega g hg1.ne γ hb hγ
    obtain ⟨-, -, -, -, b1, b2⟩ := beta0_range hb
    have hne : γ.g1 ≠ γ.g2 := fun e => hw1.ne (k5.1 e)
    rw [if_neg (not_lt.2 k4), if_neg hne] at h
    simp only [Except.ok.injEq] at h
    subst h
    subst e
    refine ⟨b, hb, rfl, ?_, ?_, rfl, rfl, rfl, rfl, rfl, rfl, rfl, rfl, ?_, ?_, k2, ?_⟩
    · exact Real.sqrt_pos.2 (mul_pos (sub_pos.2 (lt_of_le_of_ne k4 hne.symm)) k6)
    · simp only
      rw [Real.mul_self_sqrt k7]
      ring
    · exact lt_of_le_of_ne k4 hne.symm
    · simp only at k4 k6; linarith
    · simp only [table]; linarith

/-- Where the code divides by `denrt` there is light scattered back. -/
theorem g2_ne {mu omega g r0 b T : ℝ} {c : Coef} (hx : 0 < c.xi) (hg1 : 0 < (table b mu omega g).g1)
    (hxx : c.xi * c.xi = (table b mu omega g).g1 * (table b mu omega g).g1 - (table b mu omega g).g2 * (table b mu omega g).g2)
    (hgmx : c.gmx = (table b mu omega g).g1 - c.xi)
    (hrm : c.rm = (table b mu omega g).g2 - ((table b mu omega g).g1 - c.xi) * (if r0 < 0 then 0 else r0))
    (hd : denrt c T ≠ 0) : (table b mu omega g).g2 ≠ 0 := by
  intro h
  rw [h] at hxx hrm
  have : c.xi = (table b mu omega g).g1 := by nlinarith
  apply hd
  unfold denrt
  rw [hrm, hgmx, this]
  ring

/-- What a call that succeeds, on a layer the code does not take for infinitely thick, has computed. -/
theorem finite_call {mu s0 tau omega g r0 : ℝ} {o : Out} (hmu : 0 < mu) (ht : 0 < tau) (hw : 0 ≤ omega)
    (hw1 : omega < 1) (hg1 : g < 1) (h : twostream mu s0 tau omega g r0 = .ok o) (hfin : o.btrans ≠ 0) :
    ∃ b, beta0 mu g = .ok b ∧ (∃ up dn, Layer (table b mu omega g) tau (if r0 < 0 then 0 else r0) up dn) ∧
      ∀ up dn, Layer (table b mu omega g) tau (if r0 < 0 then 0 else r0) up dn →
        o.refl = up 0 ∧ o.trans = dn tau + Real.exp (-tau / mu) := by
  obtain ⟨hs, c, x, hcf, hx, hp, rfl⟩ := twostream_ok hmu h
  obtain ⟨b, hb, eg, xp, xx, a1, a2, gpx, gmx, opx, omx, rm, rp, hlt, g1p, g3p, g4p⟩ := coef_exact hw hw1 hg1 hcf
  refine ⟨b, hb, ?_⟩
  have hd : depth tau = tau := if_neg ht.ne'
  rw [hd] at hx
  unfold cell at hx
  simp only at hx
  split at hx
  · split at hx
    · cases hx
    · simp only [Except.ok.injEq] at hx
      subst hx
      exact absurd rfl hfin
  split at hx
  · cases hx
  rename_i hz
  rw [not_or, not_or] at hz
  obtain ⟨zo, zp, zd⟩ := hz
  have g2n := g2_ne xp g1p xx gmx rm zd
  simp only [Except.ok.injEq] at hx
  subst hx
  set r := (if r0 < 0 then 0 else r0) with hr
  set m := table b mu omega g with hm
  have emu : m.mu = mu := rfl
  have eom : m.omega = omega := rfl
  rw [omx] at zo
  rw [opx] at zp
  have den : denrt c tau = Real.exp (tau * c.xi) * (c.xi + m.g1) * (m.g2 - (m.g1 - c.xi) * r)
      - Real.exp (-tau * c.xi) * (m.g1 - c.xi) * (m.g2 - (c.xi + m.g1) * r) := by
    unfold denrt; rw [gpx, gmx, rm, rp]
  have e1 : Real.exp (tau * c.xi) = Real.exp (c.xi * tau) := by rw [mul_comm]
  have e2 : Real.exp (-tau * c.xi) = Real.exp (-c.xi * tau) := by congr 1; ring
  have n1 : c.xi * m.mu + 1 ≠ 0 := by rw [emu]; intro h; apply zp; linarith
  have n2 : -c.xi * m.mu + 1 ≠ 0 := by rw [emu]; intro h; apply zo; linarith
  constructor
  · apply exists_layer m c.xi tau r hmu.ne' xp.ne' g2n xx n1 n2 ht.le
    intro hD
    apply zd
    rw [den, e1, e2]
    linear_combination m.g2 * hD + r * (Real.exp (c.xi * tau) - Real.exp (-c.xi * tau)) * xx
  · intro up dn L
    have l1 := L.linear c.xi hmu.ne' xx n1 ht.le
    have l2 := L.linear (-c.xi) hmu.ne' (by linarith) n2 ht.le
    rw [neg_neg] at l2
    have := solve (w := omega) (mu := mu) xx
      (show Real.exp (-c.xi * tau) * Real.exp (c.xi * tau) = 1 by rw [← Real.exp_add]; simp) g2n zp zo
      (show m.src c.xi = omega * (-m.g2 * m.g3 + (c.xi - m.g1) * m.g4) / (c.xi * mu + 1) from rfl)
      (show m.src (-c.xi) = omega * (-m.g2 * m.g3 + (-c.xi - m.g1) * m.g4) / (-c.xi * mu + 1) from rfl) l1 l2
    simp only [eg]
    rw [den] at zd ⊢
    rw [e1, e2] at zd ⊢
    rw [a1, a2, gpx, gmx, opx, omx, rm, rp]
    constructor
    · rw [div_eq_iff zd]; exact this.1.symm
    · rw [div_eq_iff zd]; exact this.2.symm

/-- The reflectance and the transmittance are those of the two-stream equations. For every sun above the horizon, optical
depth, albedo of the scattering below one, asymmetry below one and reflectance of the ground for which the call succeeds and
does not take the layer for infinitely thick: the layer has fluxes, and whatever fluxes solve the equations of the layer,
the reflectance is the flux up at the top, the transmittance the flux down at the ground, beam and diffuse, and the direct
transmittance the beam. -/
theorem C146_solution (mu s0 tau omega g r0 : ℝ) (o : Out) (hmu : 0 < mu) (ht : 0 < tau) (hw : 0 ≤ omega)
    (hw1 : omega < 1) (hg1 : g < 1) (h : twostream mu s0 tau omega g r0 = .ok o) (hfin : o.btrans ≠ 0) :
    ∃ b, beta0 mu g = .ok b ∧ (∃ up dn, Layer (table b mu omega g) tau (max r0 0) up dn) ∧
      ∀ up dn, Layer (table b mu omega g) tau (max r0 0) up dn →
        o.refl = up 0 ∧ o.trans = dn tau + Real.exp (-tau / mu) ∧ o.trans - o.btrans = dn tau ∧
        o.upwelling = s0 * mu * up 0 ∧ o.bottom = s0 * mu * (dn tau + Real.exp (-tau / mu)) := by
  have er : (if r0 < 0 then (0 : ℝ) else r0) = max r0 0 := by
    split
    · rename_i hn; rw [max_eq_right hn.le]
    · rename_i hn; rw [max_eq_left (not_lt.1 hn)]
  obtain ⟨b, hb, hex, hall⟩ := finite_call hmu ht hw hw1 hg1 h hfin
  rw [er] at hex hall
  refine ⟨b, hb, hex, fun up dn L => ?_⟩
  obtain ⟨q1, q2⟩ := hall up dn L
  obtain ⟨-, c, x, -, hx, -, rfl⟩ := twostream_ok hmu h
  rw [show depth tau = tau from if_neg ht.ne'] at hx
  have hbt : x.btrans = Real.exp (-tau / mu) := by
    rcases cell_btrans hx with ⟨-, e, -⟩ | ⟨-, e⟩
    · exact absurd e hfin
    · exact e
  simp only at q1 q2 ⊢
  refine ⟨q1, q2, ?_, ?_, ?_⟩
  · rw [q2, hbt]; ring
  · rw [q1]; ring
  · rw [q2]; ring

theorem table_g2_pos {b mu omega g : ℝ} (hw : 0 ≤ omega) (hg : 0 ≤ g) (hg1 : g < 1) (hwg : 1 < omega * (4 - 3 * g))
    (hb : beta0 mu g = .ok b) : 0 < (table b mu omega g).g2 := by
  obtain ⟨hc, hc1, -, -, b1, b2⟩ := beta0_range hb
  have hm : mwgamma mu omega g = .ok (hybrid b mu omega g) := by unfold mwgamma; rw [hb]
  have e := C146_table b mu omega g hg1.ne _ hb hm
  have := hybrid_g2_pos b mu omega g b1 hg hg1 hw (hd_pos hc hc1 hg hg1.le) hwg
  rw [e] at this
  exact this

/-- What happens inside the layer: with scattering strong enough to send light back (`omega (4 - 3 g) > 1`) no flux that
solves the equations is negative, and the net flux down falls with the depth. -/
theorem C146_inside (b mu omega g r T : ℝ) (up dn : ℝ → ℝ) (hw : 0 ≤ omega) (hw1 : omega < 1) (hg : 0 ≤ g) (hg1 : g < 1)
    (hwg : 1 < omega * (4 - 3 * g)) (hb : beta0 mu g = .ok b) (hT : 0 ≤ T) (hr : 0 ≤ r) (hr1 : r ≤ 1)
    (L : Layer (table b mu omega g) T r up dn) :
    (∀ t ∈ Set.Icc 0 T, 0 ≤ up t ∧ 0 ≤ dn t) ∧
    AntitoneOn (fun t => Real.exp (-t / mu) + dn t - up t) (Set.Icc 0 T) := by
  obtain ⟨hc, hc1, -, -, b1, b2⟩ := beta0_range hb
  have hm : mwgamma mu omega g = .ok (hybrid b mu omega g) := by unfold mwgamma; rw [hb]
  obtain ⟨k1, k2, k3, k4, k5, k6, k7⟩ := C49_gammas mu omega g _ hw hw1.le hg1 hm
  rw [C146_table b mu omega g hg1.ne _ hb hm] at k1 k2 k3 k4 k5
  simp only at k1 k2 k3 k4 k5
  have hlt := lt_of_le_of_ne k4 (fun e => hw1.ne (k5.1 e.symm))
  have g2 := table_g2_pos hw hg hg1 hwg hb
  have hn := L.nonneg hT hr hr1 hc hw g2.le hlt k2 (by linarith)
  exact ⟨hn, L.inside.net_antitone hn hc hw1.le k4 k1⟩

/-- No light is created: what leaves at the top and what the ground takes up are together at most the beam that came in,
for every optical depth (thick layers included), sun angle and reflectance of the ground. -/
theorem C146_energy (mu s0 tau omega g r0 : ℝ) (o : Out) (hmu : 0 < mu) (ht : 0 < tau) (hw : 0 ≤ omega)
    (hw1 : omega < 1) (hg : 0 ≤ g) (hg1 : g < 1) (hwg : 1 < omega * (4 - 3 * g)) (hr1 : r0 ≤ 1)
    (h : twostream mu s0 tau omega g r0 = .ok o) :
    o.refl + (1 - max r0 0) * o.trans ≤ 1 ∧ o.upwelling + (1 - max r0 0) * o.bottom ≤ s0 * mu := by
  have key : o.refl + (1 - max r0 0) * o.trans ≤ 1 := by
    by_cases hfin : o.btrans = 0
    · obtain ⟨-, c, x, hcf, hx, -, rfl⟩ := twostream_ok hmu h
      rw [show depth tau = tau from if_neg ht.ne'] at hx
      obtain ⟨b, hb, eg, xp, xx, a1, a2, gpx, gmx, opx, omx, rm, rp, hlt, g1p, g3p, g4p⟩ := coef_exact hw hw1 hg1 hcf
      have g2 := table_g2_pos hw hg hg1 hwg hb
      simp only at hfin ⊢
      unfold cell at hx
      simp only at hx
      split at hx
      · split at hx
        · cases hx
        · simp only [Except.ok.injEq] at hx
          subst hx
          simp only [mul_zero, add_zero, eg]
          have e34 : (table b mu omega g).g3 + (table b mu omega g).g4 = 1 := by simp [table]
          rw [a2, gpx, opx, div_le_one (by positivity)]
          generalize (table b mu omega g).g1 = γ1 at *
          generalize (table b mu omega g).g2 = γ2 at *
          generalize (table b mu omega g).g3 = γ3 at *
          generalize (table b mu omega g).g4 = γ4 at *
          have h1 : γ3 * c.xi + (γ2 * γ4 + γ1 * γ3) ≤ c.xi + γ1 := by
            have : γ2 * γ4 ≤ (c.xi + γ1) * γ4 := mul_le_mul_of_nonneg_right (by linarith) g4p
            nlinarith
          have h0 : 0 ≤ γ3 * c.xi + (γ2 * γ4 + γ1 * γ3) := by positivity
          calc omega * (γ3 * c.xi + (γ2 * γ4 + γ1 * γ3)) ≤ γ3 * c.xi + (γ2 * γ4 + γ1 * γ3) :=
                mul_le_of_le_one_left h0 hw1.le
            _ ≤ c.xi + γ1 := h1
            _ ≤ (c.xi + γ1) * (mu * c.xi + 1) := by
                apply le_mul_of_one_le_right (by positivity)
                have := mul_pos hmu xp
                linarith
      · split at hx
        · cases hx
        · simp only [Except.ok.injEq] at hx
          subst hx
          exact absurd hfin (Real.exp_pos _).ne'
    · obtain ⟨b, hb, ⟨up, dn, L⟩, hall⟩ := C146_solution mu s0 tau omega g r0 o hmu ht hw hw1 hg1 h hfin
      obtain ⟨q1, q2, -⟩ := hall up dn L
      have := (C146_inside b mu omega g _ tau up dn hw hw1 hg hg1 hwg hb ht.le (le_max_right _ _)
        (max_le hr1 zero_le_one) L).2 ⟨le_refl _, ht.le⟩ ⟨ht.le, le_refl _⟩ ht.le
      simp only [neg_zero, zero_div, Real.exp_zero, L.top, L.ground] at this
      rw [q1, q2]
      have e : (table b mu omega g).mu = mu := rfl
      rw [e] at this
      linarith
  refine ⟨key, ?_⟩
  obtain ⟨hs, c, x, -, -, -, rfl⟩ := twostream_ok hmu h
  simp only at key ⊢
  have := mul_le_mul_of_nonneg_right key (mul_pos hs hmu).le
  nlinarith

/-- The same with the parameters in the range of the defaults (0.85 and 0.3), for every sun above the horizon: the call
succeeds and the beam and the diffuse light passed on to the slopes, less what flat ground reflects, plus what leaves at the
top, are at most what came in. -/
theorem C146_default (mu s0 tau omega g r0 : ℝ) (h0 : 0 < mu) (h1 : mu ≤ 1) (hs : 0 < s0) (ht : 0 < tau)
    (hw : 3 / 4 ≤ omega) (hw1 : omega < 1) (hg0 : 0 ≤ g) (hg3 : g ≤ 1 / 3) (hr : 0 ≤ r0) (hr1 : r0 ≤ 1) :
    ∃ o, twostream mu s0 tau omega g r0 = .ok o ∧
      o.upwelling + (1 - r0) * ((elevrad s0 mu o).1 * mu + (elevrad s0 mu o).2) ≤ s0 * mu := by
  obtain ⟨o, ho, -⟩ := Beta.C77_default mu s0 tau omega g r0 h0 h1 hs ht hw hw1 hg0 hg3 hr1
  refine ⟨o, ho, ?_⟩
  have := (C146_energy mu s0 tau omega g r0 o h0 ht (by linarith) hw1 hg0 (by linarith) (by nlinarith) hr1 ho).2
  rw [max_eq_left hr] at this
  obtain ⟨-, c, x, -, -, -, rfl⟩ := twostream_ok h0 ho
  simp only [elevrad] at this ⊢
  linarith

/-- A layer that the code takes for infinitely thick: nothing reaches the ground, and the reflectance is that of a layer
without a bottom, whatever bounded fluxes solve its equations; there are such fluxes unless the sun stands at the angle at
which the beam and the diffuse light decay alike. -/
theorem C146_thick (mu s0 tau omega g r0 : ℝ) (o : Out) (hmu : 0 < mu) (ht : 0 < tau) (hw : 0 ≤ omega) (hw1 : omega < 1)
    (hg1 : g < 1) (h : twostream mu s0 tau omega g r0 = .ok o) (hthick : o.btrans = 0) :
    o.trans = 0 ∧ ∃ b, beta0 mu g = .ok b ∧ ((table b mu omega g).g2 ≠ 0 →
      (∀ up dn, Bottomless (table b mu omega g) up dn → o.refl = up 0) ∧
      (mu ^ 2 * ((table b mu omega g).g1 ^ 2 - (table b mu omega g).g2 ^ 2) ≠ 1 →
        ∃ up dn, Bottomless (table b mu omega g) up dn)) := by
  obtain ⟨-, c, x, hcf, hx, -, rfl⟩ := twostream_ok hmu h
  rw [show depth tau = tau from if_neg ht.ne'] at hx
  obtain ⟨b, hb, eg, xp, xx, a1, a2, gpx, gmx, opx, omx, rm, rp, hlt, g1p, g3p, g4p⟩ := coef_exact hw hw1 hg1 hcf
  simp only at hthick ⊢
  unfold cell at hx
  simp only at hx
  split at hx
  · split at hx
    · cases hx
    simp only [Except.ok.injEq] at hx
    subst hx
    refine ⟨rfl, b, hb, fun g2n => ⟨fun up dn B => ?_, fun hres => ?_⟩⟩
    · have hu := B.up_zero c.xi hmu xp xx
      simp only [eg]
      rw [a2, gpx, opx, div_eq_iff (by positivity)]
      have hsrc : (table b mu omega g).src c.xi * (c.xi * mu + 1)
          = omega * (-(table b mu omega g).g2 * (table b mu omega g).g3
            + (c.xi - (table b mu omega g).g1) * (table b mu omega g).g4) := by
        unfold Medium.src
        exact div_mul_cancel₀ _ (by have := mul_pos xp hmu; simp only [table]; positivity)
      generalize (table b mu omega g).src c.xi = S at *
      generalize (table b mu omega g).g1 = γ1 at *
      generalize (table b mu omega g).g2 = γ2 at *
      generalize (table b mu omega g).g3 = γ3 at *
      generalize (table b mu omega g).g4 = γ4 at *
      apply mul_left_cancel₀ g2n
      linear_combination -(c.xi + γ1) * (mu * c.xi + 1) * hu + (c.xi + γ1) * hsrc + omega * γ4 * xx
    · have n1 : c.xi * (table b mu omega g).mu + 1 ≠ 0 := by have := mul_pos xp hmu; simp only [table]; positivity
      have n2 : -c.xi * (table b mu omega g).mu + 1 ≠ 0 := by
        intro h0
        apply hres
        have h1 : mu * c.xi = 1 := by simp only [table] at h0; linarith
        calc mu ^ 2 * ((table b mu omega g).g1 ^ 2 - (table b mu omega g).g2 ^ 2)
            = mu ^ 2 * (c.xi * c.xi) := by rw [xx]; ring
          _ = (mu * c.xi) ^ 2 := by ring
          _ = 1 := by rw [h1]; norm_num
      exact exists_bottomless _ c.xi hmu xp g2n xx n1 n2
  · split at hx
    · cases hx
    · simp only [Except.ok.injEq] at hx
      subst hx
      exact absurd hthick (Real.exp_pos _).ne'

/-! ### The hypotheses are met -/

/-- Scattering alike in all directions, eleven parts in twelve: every sun and depth. -/
theorem iso_call (mu tau : ℝ) (h0 : 0 < mu) (h1 : mu ≤ 1) (ht : 0 < tau) :
    ∃ o, twostream mu 1000 tau (11 / 12) 0 (1 / 2) = .ok o ∧ (tau ≤ 1 → o.btrans ≠ 0) ∧ (100 ≤ tau → o.btrans = 0) := by
  obtain ⟨o, ho, -⟩ := C146_default mu 1000 tau (11 / 12) 0 (1 / 2) h0 h1 (by norm_num) ht (by norm_num) (by norm_num)
    (by norm_num) (by norm_num) (by norm_num) (by norm_num)
  refine ⟨o, ho, ?_⟩
  obtain ⟨-, c, x, hcf, hx, -, rfl⟩ := twostream_ok h0 ho
  rw [show depth tau = tau from if_neg ht.ne'] at hx
  obtain ⟨c', hcf', -, eg, -, exi⟩ := coef_good (r0 := 1 / 2) (omega := 11 / 12) (g := 0) (by norm_num) (by norm_num)
    (by norm_num) (by norm_num) (by norm_num) (beta0_zero h0 h1)
  rw [hcf] at hcf'
  cases hcf'
  have xi : c.xi = 1 / 2 := by
    rw [exi, eg, hybrid_iso]
    simp only
    rw [root_iso, show (3 : ℝ) * (1 - 11 / 12) = (1 / 2) ^ 2 by norm_num, Real.sqrt_sq (by norm_num)]
  simp only
  constructor
  · intro h
    rcases cell_btrans hx with ⟨s, -, -⟩ | ⟨-, e⟩
    · exfalso
      have : Real.exp (tau * c.xi) ≤ Real.exp 1 := by
        apply Real.exp_le_exp.2
        rw [xi]; linarith
      have := Real.exp_one_lt_d9
      norm_num at s
      linarith
    · rw [e]; exact (Real.exp_pos _).ne'
  · intro h
    rcases cell_btrans hx with ⟨-, e, -⟩ | ⟨s, -⟩
    · exact e
    · exfalso
      have h2 : (2 : ℝ) ^ 50 ≤ Real.exp 1 ^ 50 := pow_le_pow_left₀ (by norm_num) (by linarith [Real.exp_one_gt_d9]) _
      have h3 : Real.exp 1 ^ 50 ≤ Real.exp (tau * c.xi) := by
        rw [← Real.exp_nat_mul]
        apply Real.exp_le_exp.2
        rw [xi]
        norm_num
        linarith
      have h4 : (10 : ℝ) ^ 15 ≤ 2 ^ 50 := by norm_num
      linarith

/-- A thin layer: its fluxes. -/
example (mu : ℝ) (h0 : 0 < mu) (h1 : mu ≤ 1) :
    ∃ o up dn, twostream mu 1000 (1 / 5) (11 / 12) 0 (1 / 2) = .ok o ∧
      Layer (table (1 / 2) mu (11 / 12) 0) (1 / 5) (1 / 2) up dn ∧ o.refl = up 0 := by
  obtain ⟨o, ho, hf, -⟩ := iso_call mu (1 / 5) h0 h1 (by norm_num)
  obtain ⟨b, hb, ⟨up, dn, L⟩, hall⟩ := C146_solution mu 1000 (1 / 5) (11 / 12) 0 (1 / 2) o h0 (by norm_num) (by norm_num)
    (by norm_num) (by norm_num) ho (hf (by norm_num))
  have e : b = 1 / 2 := by rw [beta0_zero h0 h1] at hb; cases hb; rfl
  rw [e, max_eq_left (by norm_num)] at L
  rw [e, max_eq_left (by norm_num)] at hall
  exact ⟨o, up, dn, ho, L, (hall up dn L).1⟩

/-- A thick layer. -/
example (mu : ℝ) (h0 : 0 < mu) (h1 : mu ≤ 1) :
    ∃ o up dn, twostream mu 1000 100 (11 / 12) 0 (1 / 2) = .ok o ∧
      Bottomless (table (1 / 2) mu (11 / 12) 0) up dn ∧ o.refl = up 0 ∧ o.trans = 0 := by
  obtain ⟨o, ho, -, hf⟩ := iso_call mu 100 h0 h1 (by norm_num)
  obtain ⟨ht, b, hb, hall⟩ := C146_thick mu 1000 100 (11 / 12) 0 (1 / 2) o h0 (by norm_num) (by norm_num)
    (by norm_num) (by norm_num) ho (hf (by norm_num))
  have e : b = 1 / 2 := by rw [beta0_zero h0 h1] at hb; cases hb; rfl
  rw [e] at hall
  obtain ⟨ha, hx⟩ := hall (by simp only [table]; norm_num)
  obtain ⟨up, dn, B⟩ := hx (by simp only [table]; norm_num; nlinarith)
  exact ⟨o, up, dn, ho, B, ha up dn B, ht⟩

/-- The clear sky of the default configuration over ground that reflects half of the light. -/
example (mu : ℝ) (h0 : 0 < mu) (h1 : mu ≤ 1) : ∃ o, twostream mu 600 (1 / 5) (85 / 100) (3 / 10) (1 / 2) = .ok o ∧
    o.upwelling + (1 - 1 / 2) * ((elevrad 600 mu o).1 * mu + (elevrad 600 mu o).2) ≤ 600 * mu :=
  C146_default mu 600 (1 / 5) (85 / 100) (3 / 10) (1 / 2) h0 h1 (by norm_num) (by norm_num) (by norm_num) (by norm_num)
    (by norm_num) (by norm_num) (by norm_num) (by norm_num)

end Verif.TwoEq
