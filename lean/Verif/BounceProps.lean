import Verif.TwoEqProps
import Verif.CropProps
import Verif.SolarProps
import Mathlib.Analysis.SpecificLimits.Basic

/-!
C177: light that bounces between the ground and the sky (twostream.py 4-128 and toporad.py 26-124, modelled in `Twostream`). No new model.

The specification is the geometric series of the bounces, with the fraction that the sky sends back defined by the
two-stream equations of a layer lit from below only (`FromBelow`).
-/

namespace Verif.TwoEq

open Verif.Twostream

/-- A layer lit from below by diffuse light of strength one and by nothing else: `dn T` is what it sends back to the ground. -/
structure FromBelow (m : Medium) (T : ℝ) (up dn : ℝ → ℝ) : Prop where
  inside : Inside { m with omega := 0 } (Set.Icc 0 T) up dn
  top : dn 0 = 0
  bottom : up T = 1

/-- What a layer lit from below sends back. -/
theorem FromBelow.back {m : Medium} {T k : ℝ} {up dn : ℝ → ℝ} (h : FromBelow m T up dn) (hmu : 0 < m.mu) (hk : k * k = m.g1 * m.g1 - m.g2 * m.g2)
    (n1 : k * m.mu + 1 ≠ 0) (n2 : -k * m.mu + 1 ≠ 0) (hT : 0 ≤ T) :
    dn T * (Real.exp (k * T) * (k + m.g1) - Real.exp (-k * T) * (m.g1 - k)) = m.g2 * (Real.exp (k * T) - Real.exp (-k * T)) := by
  have e1 := h.inside.mode k hmu.ne' hk n1 hT
  have e2 := h.inside.mode (-k) hmu.ne' (by rw [neg_mul_neg]; exact hk) n2 hT
  simp only [Medium.src, zero_mul, zero_div, add_zero, h.top, h.bottom, mul_zero, neg_neg] at e1 e2
  linear_combination e1 - e2

/-- A layer lit from below has fluxes. -/
theorem exists_fromBelow {m : Medium} {T k : ℝ} (hmu : 0 < m.mu) (hk0 : k ≠ 0) (hg : m.g2 ≠ 0) (hk : k * k = m.g1 * m.g1 - m.g2 * m.g2)
    (n1 : k * m.mu + 1 ≠ 0) (n2 : -k * m.mu + 1 ≠ 0) (hD : Real.exp (k * T) * (k + m.g1) - Real.exp (-k * T) * (m.g1 - k) ≠ 0) :
    ∃ up dn, FromBelow m T up dn := by
  refine ⟨modeUp { m with omega := 0 } k (2 * k / (Real.exp (k * T) * (k + m.g1) - Real.exp (-k * T) * (m.g1 - k))),
    modeDn { m with omega := 0 } k (2 * k / (Real.exp (k * T) * (k + m.g1) - Real.exp (-k * T) * (m.g1 - k))),
    mode_inside { m with omega := 0 } k _ hmu.ne' hk0 hg hk n1 n2 _, modeDn_zero _ _ _, ?_⟩
  simp only [modeUp, modeDn, Medium.src, zero_mul, zero_div, add_zero, sub_zero]
  set D := Real.exp (k * T) * (k + m.g1) - Real.exp (-k * T) * (m.g1 - k) with hDef
  rw [div_eq_iff hg]
  have h2 : (2 : ℝ) * k ≠ 0 := by simpa using hk0
  have e : m.g2 * (2 * k / D) * D = m.g2 * (2 * k) := by field_simp
  apply mul_left_cancel₀ h2
  have e3 : 2 * k * (Real.exp (k * T) * (m.g2 * (2 * k / D)) + (m.g1 - k) *
      ((Real.exp (k * T) * (m.g2 * (2 * k / D)) - Real.exp (-k * T) * (m.g2 * (2 * k / D))) / (2 * k)))
      = m.g2 * (2 * k / D) * D := by
    rw [hDef]
    field_simp
    ring
  first
    | (rw [e3, e]; ring)
    | (linear_combination e3 + e)

/-- What two calls over different ground have in common. -/
theorem two_grounds {mu s0 tau omega g s r : ℝ} {o o₀ : Out} (hmu : 0 < mu) (ht : 0 < tau) (hw : 0 ≤ omega) (hw1 : omega < 1)
    (hg : 0 ≤ g) (hg1 : g < 1) (hwg : 1 < omega * (4 - 3 * g)) (hs : 0 ≤ s) (hr : 0 ≤ r)
    (h₀ : twostream mu s0 tau omega g s = .ok o₀) (h : twostream mu s0 tau omega g r = .ok o) (hfin : o₀.btrans ≠ 0) :
    ∃ b k, beta0 mu g = .ok b ∧ 0 < k ∧ k * k = (table b mu omega g).g1 * (table b mu omega g).g1 - (table b mu omega g).g2 * (table b mu omega g).g2 ∧
      k * mu + 1 ≠ 0 ∧ -k * mu + 1 ≠ 0 ∧ 0 < (table b mu omega g).g2 ∧ (table b mu omega g).g2 < (table b mu omega g).g1 ∧
      o.btrans = o₀.btrans ∧ o.btrans = Real.exp (-tau / mu) ∧
      o.trans * ((Real.exp (k * tau) * (k + (table b mu omega g).g1) - Real.exp (-k * tau) * ((table b mu omega g).g1 - k))
          - r * ((table b mu omega g).g2 * (Real.exp (k * tau) - Real.exp (-k * tau))))
        = o₀.trans * ((Real.exp (k * tau) * (k + (table b mu omega g).g1) - Real.exp (-k * tau) * ((table b mu omega g).g1 - k))
          - s * ((table b mu omega g).g2 * (Real.exp (k * tau) - Real.exp (-k * tau)))) := by
  obtain ⟨-, c, x, hcf, hx, -, rfl⟩ := twostream_ok hmu h
  obtain ⟨-, c₀, x₀, hcf₀, hx₀, -, rfl⟩ := twostream_ok hmu h₀
  have hd : depth tau = tau := if_neg ht.ne'
  rw [hd] at hx hx₀
  obtain ⟨e3, erm, erp⟩ := Crop.coef_ground hs hr hcf₀
  have e4 := Except.ok.inj (hcf.symm.trans e3)
  obtain ⟨b, hb, eg, xp, xx, a1, a2, gpx, gmx, opx, omx, rm, rp, hlt, g1p, g3p, g4p⟩ := coef_exact hw hw1 hg1 hcf₀
  have g2 := table_g2_pos hw hg hg1 hwg hb
  rcases cell_btrans hx₀ with ⟨-, hz, -⟩ | ⟨hsm, hbt⟩
  · exact absurd hz hfin
  have hns : ¬ SemiInf c₀ mu tau := by
    rintro (h | h)
    · exact absurd h.1 (Real.exp_pos _).ne'
    · exact absurd hsm (not_lt.2 h)
  have hns' : ¬ SemiInf c mu tau := by rw [e4]; exact hns
  unfold cell at hx hx₀
  simp only at hx hx₀
  rw [if_neg hns'] at hx
  rw [if_neg hns] at hx₀
  split at hx
  · cases hx
  split at hx₀
  · cases hx₀
  rename_i nz nz₀
  rw [not_or, not_or] at nz nz₀
  have hx := Except.ok.inj hx
  have hx₀ := Except.ok.inj hx₀
  refine ⟨b, c₀.xi, hb, xp, xx, ?_, ?_, g2, hlt, ?_, ?_, ?_⟩
  · have := mul_pos xp hmu; positivity
  · have := nz₀.1
    rw [omx] at this
    intro h
    apply this
    linarith
  · simp only
    rw [← hx, ← hx₀]
  · simp only
    rw [← hx]
  · simp only
    have t1 : x.trans * denrt c tau = x₀.trans * denrt c₀ tau := by
      rw [← hx, ← hx₀]
      simp only
      rw [div_mul_cancel₀ _ nz.2.2, div_mul_cancel₀ _ nz₀.2.2, e4]
    have d0 : denrt c₀ tau = (table b mu omega g).g2 * ((Real.exp (c₀.xi * tau) * (c₀.xi + (table b mu omega g).g1)
        - Real.exp (-c₀.xi * tau) * ((table b mu omega g).g1 - c₀.xi))
          - s * ((table b mu omega g).g2 * (Real.exp (c₀.xi * tau) - Real.exp (-c₀.xi * tau)))) := by
      unfold denrt
      rw [erm, erp, gpx, gmx, eg, mul_comm tau, show -tau * c₀.xi = -c₀.xi * tau by ring]
      linear_combination (s * (Real.exp (c₀.xi * tau) - Real.exp (-c₀.xi * tau))) * xx
    have d1 : denrt c tau = (table b mu omega g).g2 * ((Real.exp (c₀.xi * tau) * (c₀.xi + (table b mu omega g).g1)
        - Real.exp (-c₀.xi * tau) * ((table b mu omega g).g1 - c₀.xi))
          - r * ((table b mu omega g).g2 * (Real.exp (c₀.xi * tau) - Real.exp (-c₀.xi * tau)))) := by
      unfold denrt
      rw [e4]
      simp only
      rw [gpx, gmx, eg, mul_comm tau, show -tau * c₀.xi = -c₀.xi * tau by ring]
      simp only
      linear_combination (r * (Real.exp (c₀.xi * tau) - Real.exp (-c₀.xi * tau))) * xx
    rw [d0, d1] at t1
    apply mul_left_cancel₀ g2.ne'
    linear_combination t1

/-- The fraction sent back lies strictly between zero and one. -/
theorem back_range {m : Medium} {T k : ℝ} (hT : 0 < T) (hk : 0 < k) (hkk : k * k = m.g1 * m.g1 - m.g2 * m.g2) (g2 : 0 < m.g2) (hlt : m.g2 < m.g1) :
    0 < m.g2 * (Real.exp (k * T) - Real.exp (-k * T)) ∧
    m.g2 * (Real.exp (k * T) - Real.exp (-k * T)) < Real.exp (k * T) * (k + m.g1) - Real.exp (-k * T) * (m.g1 - k) := by
  have h1 : Real.exp (-k * T) < Real.exp (k * T) := Real.exp_lt_exp.2 (by nlinarith [mul_pos hk hT])
  have h2 := Real.exp_pos (-k * T)
  constructor
  · exact mul_pos g2 (sub_pos.2 h1)
  · have h3 := mul_pos (sub_pos.2 hlt) (sub_pos.2 h1)
    have h4 := mul_pos hk h2
    have h5 := mul_pos hk (Real.exp_pos (k * T))
    linarith

/-- The light at the ground is that of a black ground and of all its bounces: with a fraction `r` reflected by the ground
and the fraction `dn tau` of it sent back by the sky, the transmittance is the sum of the light of all numbers of bounces.
The direct beam is the same. -/
theorem C177_bounces (mu s0 tau omega g r : ℝ) (o o₀ : Out) (hmu : 0 < mu) (ht : 0 < tau) (hw : 0 ≤ omega) (hw1 : omega < 1)
    (hg : 0 ≤ g) (hg1 : g < 1) (hwg : 1 < omega * (4 - 3 * g)) (hr : 0 ≤ r) (hr1 : r ≤ 1)
    (h₀ : twostream mu s0 tau omega g 0 = .ok o₀) (h : twostream mu s0 tau omega g r = .ok o) (hfin : o₀.btrans ≠ 0) :
    o.btrans = o₀.btrans ∧ ∃ b, beta0 mu g = .ok b ∧ (∃ up dn, FromBelow (table b mu omega g) tau up dn) ∧
      ∀ up dn, FromBelow (table b mu omega g) tau up dn →
        0 < dn tau ∧ dn tau < 1 ∧ HasSum (fun n : ℕ => o₀.trans * (r * dn tau) ^ n) o.trans := by
  obtain ⟨b, k, hb, hk, hkk, n1, n2, g2, hlt, e1, -, e2⟩ := two_grounds hmu ht hw hw1 hg hg1 hwg (le_refl 0) hr h₀ h hfin
  rw [zero_mul, sub_zero] at e2
  obtain ⟨q0, q1⟩ := back_range (m := table b mu omega g) ht hk hkk g2 hlt
  refine ⟨e1, b, hb, exists_fromBelow hmu hk.ne' g2.ne' hkk n1 n2 (by linarith), fun up dn F => ?_⟩
  have hB := F.back hmu hkk n1 n2 ht.le
  rw [← hB] at q0 q1 e2
  have hD : 0 < Real.exp (k * tau) * (k + (table b mu omega g).g1) - Real.exp (-k * tau) * ((table b mu omega g).g1 - k) := by linarith
  generalize Real.exp (k * tau) * (k + (table b mu omega g).g1) - Real.exp (-k * tau) * ((table b mu omega g).g1 - k) = D at *
  have p0 : 0 < dn tau := pos_of_mul_pos_left q0 hD.le
  have p1 : dn tau < 1 := by nlinarith
  refine ⟨p0, p1, ?_⟩
  have z0 : 0 ≤ r * dn tau := mul_nonneg hr p0.le
  have z1 : r * dn tau < 1 := by nlinarith
  have e3 : o.trans = o₀.trans * (1 - r * dn tau)⁻¹ := by
    rw [eq_mul_inv_iff_mul_eq₀ (by linarith)]
    apply mul_right_cancel₀ hD.ne'
    linear_combination e2
  rw [e3]
  exact (hasSum_geometric_of_lt_one z0 z1).mul_left _

/-- C177 in full: over a brighter ground no less light reaches the ground. -/
def C177_full : Prop :=
  ∀ (mu s0 tau omega g r r' : ℝ) (o o' : Out), 0 < mu → mu ≤ 1 → 0 < tau → 0 ≤ omega → omega < 1 → 0 ≤ g → g < 1 →
    0 ≤ r → r ≤ r' → r' ≤ 1 → twostream mu s0 tau omega g r = .ok o → twostream mu s0 tau omega g r' = .ok o' →
      o.trans ≤ o'.trans

/-- A call over black ground succeeds with another. -/
theorem thick_same {mu s0 tau omega g r r' : ℝ} {o o' : Out} (hmu : 0 < mu) (ht : 0 < tau) (hr : 0 ≤ r) (hr' : 0 ≤ r')
    (h : twostream mu s0 tau omega g r = .ok o) (h' : twostream mu s0 tau omega g r' = .ok o') :
    o'.btrans = o.btrans ∧ (o.btrans = 0 → o.trans = 0 ∧ o'.trans = 0) := by
  obtain ⟨hs, c, x, hcf, hx, -, rfl⟩ := twostream_ok hmu h
  obtain ⟨-, c', x', hcf', hx', -, rfl⟩ := twostream_ok hmu h'
  rw [show depth tau = tau from if_neg ht.ne'] at hx hx'
  have e4 := Except.ok.inj (hcf'.symm.trans (Crop.coef_ground hr hr' hcf).1)
  have exi : c'.xi = c.xi := by rw [e4]
  simp only
  rcases cell_btrans hx with ⟨a1, a2, a3⟩ | ⟨a1, a2⟩ <;> rcases cell_btrans hx' with ⟨b1, b2, b3⟩ | ⟨b1, b2⟩
  · rw [a2, b2]; exact ⟨rfl, fun _ => ⟨a3, b3⟩⟩
  · rw [exi] at b1; exact absurd b1 (not_lt.2 a1)
  · rw [exi] at b1; exact absurd a1 (not_lt.2 b1)
  · rw [a2, b2]; exact ⟨rfl, fun h => absurd h (Real.exp_pos _).ne'⟩

/-- Strong scattering: over a brighter ground no less light reaches the ground, strictly more if the beam gets through, and
the ground takes up no more of it. Missing: weak scattering, where it is false (`C177_weak_fails`). -/
theorem C177_ground_partial (mu s0 tau omega g r r' : ℝ) (o o' : Out) (hmu : 0 < mu) (ht : 0 < tau) (hw : 0 ≤ omega) (hw1 : omega < 1)
    (hg : 0 ≤ g) (hg1 : g < 1) (hwg : 1 < omega * (4 - 3 * g)) (hr : 0 ≤ r) (hrr : r ≤ r') (hr1 : r' ≤ 1)
    (h : twostream mu s0 tau omega g r = .ok o) (h' : twostream mu s0 tau omega g r' = .ok o') :
    o'.btrans = o.btrans ∧ o.trans ≤ o'.trans ∧ (1 - r') * o'.trans ≤ (1 - r) * o.trans ∧
      (r < r' → o.btrans ≠ 0 → o.trans < o'.trans ∧ (1 - r') * o'.trans < (1 - r) * o.trans) := by
  obtain ⟨eb, hz⟩ := thick_same hmu ht hr (hr.trans hrr) h h'
  refine ⟨eb, ?_⟩
  rcases hrr.eq_or_lt with rfl | hlt
  · rw [h] at h'
    cases h'
    exact ⟨le_refl _, le_refl _, fun h => absurd h (lt_irrefl _)⟩
  by_cases hb : o.btrans = 0
  · obtain ⟨z1, z2⟩ := hz hb
    rw [z1, z2]
    simp only [mul_zero, le_refl, true_and]
    exact fun _ h => absurd hb h
  · have hpos : 0 < o.btrans := by
      obtain ⟨-, c, x, -, -, hp, rfl⟩ := twostream_ok hmu h
      exact lt_of_le_of_ne hp.2.2.1 (Ne.symm hb)
    have hlt' := (Crop.twostream_ground mu s0 tau omega g r r' o o' hmu ht hw hw1 hg hg1 hwg hr hlt hr1 h h' hpos).2
    have key : (1 - r') * o'.trans < (1 - r) * o.trans := by
      obtain ⟨b, k, -, hk, hkk, -, -, g2, hlt2, -, -, e2⟩ := two_grounds hmu ht hw hw1 hg hg1 hwg hr (hr.trans hrr) h h' hb
      obtain ⟨q0, q1⟩ := back_range (m := table b mu omega g) ht hk hkk g2 hlt2
      generalize (table b mu omega g).g2 * (Real.exp (k * tau) - Real.exp (-k * tau)) = P at *
      generalize Real.exp (k * tau) * (k + (table b mu omega g).g1) - Real.exp (-k * tau) * ((table b mu omega g).g1 - k) = D at *
      have ht0 : 0 < o.trans := by
        obtain ⟨-, c, x, -, -, hp, rfl⟩ := twostream_ok hmu h
        exact lt_of_lt_of_le (mul_pos hpos hmu) hp.2.2.2
      have hd : 0 < D - r' * P := by nlinarith
      have hm := mul_pos (mul_pos ht0 (sub_pos.2 hlt)) (sub_pos.2 q1)
      apply lt_of_mul_lt_mul_right _ hd.le
      calc (1 - r') * o'.trans * (D - r' * P) = (1 - r') * (o.trans * (D - r * P)) := by rw [← e2]; ring
        _ < (1 - r) * o.trans * (D - r' * P) := by linarith
    exact ⟨hlt'.le, key.le, fun _ _ => ⟨hlt', key⟩⟩

/-- No scattering at all: over a white ground less light reaches the ground than over a black one, in every layer up to
optical depth one. -/
theorem C177_weak_fails (s0 tau : ℝ) (hs : 0 < s0) (ht : 0 < tau) (ht1 : tau ≤ 1) :
    ∃ o o', twostream (1 / 2) s0 tau 0 0 0 = .ok o ∧ twostream (1 / 2) s0 tau 0 0 1 = .ok o' ∧ o'.trans < o.trans := by
  obtain ⟨o', h', hlt⟩ := C77_diffuse_fails s0 tau hs ht ht1
  have hx3 : Real.sqrt (3 * (1 - 0)) * Real.sqrt (3 * (1 - 0)) = 3 := by
    rw [Real.mul_self_sqrt (by norm_num)]; norm_num
  have hx0 := Real.sqrt_nonneg (3 * (1 - 0) : ℝ)
  have hlt2 : Real.sqrt (3 * (1 - 0)) < 7 / 4 := by rw [Real.sqrt_lt' (by norm_num)]; norm_num
  have hgt : 1 < Real.sqrt (3 * (1 - 0)) := by nlinarith
  have hd : depth tau = tau := if_neg ht.ne'
  have hc := coef_iso (cosz := 1 / 2) (omega := 0) (r0 := 0) (by norm_num) (by norm_num) (by norm_num)
  generalize Real.sqrt (3 * (1 - 0)) = x at *
  obtain ⟨c, hc', ec⟩ : ∃ c, coef (1 / 2) 0 0 0 = .ok c ∧ Except.ok c = coef (1 / 2) 0 0 0 := ⟨_, hc, hc.symm⟩
  rw [hc] at ec
  replace ec := Except.ok.inj ec
  have hep : Real.exp (-tau * x) < Real.exp (tau * x) := by
    apply Real.exp_lt_exp.2; nlinarith
  have hem : 0 < Real.exp (-tau * x) := Real.exp_pos _
  have hns : ¬ SemiInf c (1 / 2) tau := not_semi (by rw [ec]; simp only; nlinarith)
  have hden : denrt c tau = -(1 / 4) * (Real.exp (tau * x) * (x + 7 / 4) - Real.exp (-tau * x) * (7 / 4 - x)) := by
    unfold denrt
    rw [ec]
    simp only [lt_irrefl, if_false]
    ring
  have hD : 0 < Real.exp (tau * x) * (x + 7 / 4) - Real.exp (-tau * x) * (7 / 4 - x) := by nlinarith
  have hne : denrt c tau ≠ 0 := by rw [hden]; intro h; linarith
  have hcell : ∃ y, cell c (1 / 2) 0 0 tau = .ok y ∧ y.btrans = Real.exp (-tau / (1 / 2)) ∧
      y.trans = Real.exp (-tau / (1 / 2)) ∧ y.refl = 0 := by
    unfold cell
    rw [if_neg hns, if_neg (by
      rintro (h | h | h)
      · rw [ec] at h; simp only at h; linarith
      · rw [ec] at h; simp only at h; linarith
      · exact hne h)]
    refine ⟨_, rfl, rfl, ?_, ?_⟩
    · simp only
      rw [div_eq_iff hne, hden, ec]
      simp only
      ring
    · simp only [lt_irrefl, if_false]
      rw [div_eq_zero_iff]
      left
      ring
  obtain ⟨y, hy, y1, y2, y3⟩ := hcell
  have het := Real.exp_pos (-tau / (1 / 2))
  have hp : Passes (1 / 2) y := by
    refine ⟨by rw [y3], by rw [y2]; exact het.le, by rw [y1]; exact het.le, by rw [y1, y2]; linarith⟩
  have ho : twostream (1 / 2) s0 tau 0 0 0 =
      .ok ⟨y.refl, y.trans, y.btrans, y.refl * (1 / 2) * s0, y.trans * (1 / 2) * s0, y.btrans * s0⟩ := by
    unfold twostream
    rw [if_neg (by norm_num), if_neg (not_le.2 hs), hc']
    simp only [hd, hy, if_pos hp]
  refine ⟨_, o', ho, h', ?_⟩
  obtain ⟨e, -⟩ := thick_same (by norm_num) ht (le_refl 0) zero_le_one ho h'
  simp only at e ⊢
  rw [e, y1] at hlt
  rw [y2]
  exact hlt

theorem C177_fails : ¬ C177_full := by
  intro h
  obtain ⟨o, o', h1, h2, h3⟩ := C177_weak_fails 1000 (1 / 5) (by norm_num) (by norm_num) (by norm_num)
  exact absurd (h _ _ _ _ _ _ _ _ _ (by norm_num) (by norm_num) (by norm_num) le_rfl (by norm_num) le_rfl (by norm_num) le_rfl
    zero_le_one le_rfl h1 h2) (not_le.2 h3)

/-- The images of `stoporad`: with the snow of any cells brighter, no cell of the domain gets less clear-sky light, neither
in the image of the diffuse radiation nor in that called beam, wherever the snow is. -/
theorem C177_image {ι : Type} [Fintype ι] (p : Clear) (topo : Topo ι) (s0 cosz : ℝ) (hidden : ι → Prop) (illum alb alb' : ι → ℝ)
    (lo hi : ℝ) (w : Twostream.Band) (hb : checkWavelengths lo hi = .ok w) (hc : 0 < cosz) (hs : 0 < s0) (hp : Solar.Valid p cosz)
    (hdem : ∀ i, topo.dem i < 44000) (ha : ∀ i, 0 ≤ alb i) (hab : ∀ i, alb i ≤ alb' i) (ha1 : ∀ i, alb' i ≤ 1)
    (hsvf : ∀ i, 0 ≤ topo.svf i ∧ topo.svf i ≤ 1) (htcf : ∀ i, 0 ≤ topo.tcf i) :
    ∃ img img', stoporad p topo s0 cosz hidden illum alb lo hi = .ok img ∧
      stoporad p topo s0 cosz hidden illum alb' lo hi = .ok img' ∧ ∀ i, (img i).1 ≤ (img' i).1 ∧ (img i).2 ≤ (img' i).2 := by
  obtain ⟨img, h1, h2⟩ := Solar.stoporad_valid p topo s0 cosz hidden illum alb lo hi w hb hc hs hp hdem
    fun i => ⟨ha i, (hab i).trans (ha1 i)⟩
  obtain ⟨img', h1', h2'⟩ := Solar.stoporad_valid p topo s0 cosz hidden illum alb' lo hi w hb hc hs hp hdem
    fun i => ⟨(ha i).trans (hab i), ha1 i⟩
  refine ⟨img, img', h1, h1', fun i => ?_⟩
  obtain ⟨beam, diff, hb0, hd0, ⟨o, ho, eb, ed⟩, hi⟩ := h2 i
  obtain ⟨beam', diff', hb0', hd0', ⟨o', ho', eb', ed'⟩, hi'⟩ := h2' i
  have hcard : (0 : ℝ) < Fintype.card ι := by
    have : Nonempty ι := ⟨i⟩
    exact_mod_cast Fintype.card_pos
  obtain ⟨q1, q2, -⟩ := C177_ground_partial cosz s0 _ p.omega p.gamma _ _ o o' hc (Solar.tauAt_pos _ _ _ hp.tau hp.elev (hdem i))
    hp.omega hp.omega1 hp.gamma hp.gamma1 hp.strong
    (div_nonneg (Finset.sum_nonneg fun i _ => ha i) hcard.le)
    (div_le_div_of_nonneg_right (Finset.sum_le_sum fun i _ => hab i) hcard.le)
    (by
      rw [div_le_one hcard]
      calc ∑ i, alb' i ≤ ∑ _i : ι, (1 : ℝ) := Finset.sum_le_sum fun i _ => ha1 i
        _ = Fintype.card ι := by simp) ho ho'
  have e1 : beam' = beam := by rw [eb, eb', q1]
  have e2 : diff ≤ diff' := by
    rw [ed, ed', q1]
    exact mul_le_mul_of_nonneg_left (by linarith) (mul_nonneg hs.le hc.le)
  subst e1
  have v0 := (hsvf i).1
  have v1 := sub_nonneg.2 (hsvf i).2
  have k1 : diff * topo.svf i ≤ diff' * topo.svf i := mul_le_mul_of_nonneg_right e2 v0
  have k2 : (diff * (1 - topo.svf i) + beam' * cosz) * topo.tcf i * alb i
      ≤ (diff' * (1 - topo.svf i) + beam' * cosz) * topo.tcf i * alb' i := by
    have k3 : diff * (1 - topo.svf i) ≤ diff' * (1 - topo.svf i) := mul_le_mul_of_nonneg_right e2 v1
    have k4 : 0 ≤ diff' * (1 - topo.svf i) + beam' * cosz := by positivity
    exact mul_le_mul (mul_le_mul_of_nonneg_right (by linarith) (htcf i)) (hab i) (ha i) (mul_nonneg k4 (htcf i))
  rcases hi with ⟨hh, e⟩ | ⟨hh, e⟩ <;> rcases hi' with ⟨hh', e'⟩ | ⟨hh', e'⟩
  · rw [e, e']; simp only [toporad]; constructor <;> linarith
  · exact absurd hh hh'
  · exact absurd hh' hh
  · rw [e, e']; simp only [toporad]; constructor <;> linarith

/-! ### The hypotheses are met -/

/-- A thin layer with the default scattering: black ground and snow. -/
example (mu : ℝ) (h0 : 0 < mu) (h1 : mu ≤ 1) : ∃ o o', twostream mu 1000 (1 / 5) (85 / 100) (3 / 10) 0 = .ok o ∧
    twostream mu 1000 (1 / 5) (85 / 100) (3 / 10) (8 / 10) = .ok o' ∧ o.trans ≤ o'.trans ∧ (1 - 8 / 10) * o'.trans ≤ (1 - 0) * o.trans := by
  obtain ⟨o, e, -⟩ := Beta.C77_default mu 1000 (1 / 5) (85 / 100) (3 / 10) 0 h0 h1 (by norm_num) (by norm_num)
    (by norm_num) (by norm_num) (by norm_num) (by norm_num) (by norm_num)
  obtain ⟨o', e', -⟩ := Beta.C77_default mu 1000 (1 / 5) (85 / 100) (3 / 10) (8 / 10) h0 h1 (by norm_num) (by norm_num)
    (by norm_num) (by norm_num) (by norm_num) (by norm_num) (by norm_num)
  obtain ⟨-, h2, h3, -⟩ := C177_ground_partial mu 1000 (1 / 5) (85 / 100) (3 / 10) 0 (8 / 10) o o' h0 (by norm_num) (by norm_num)
    (by norm_num) (by norm_num) (by norm_num) (by norm_num) le_rfl (by norm_num) (by norm_num) e e'
  exact ⟨o, o', e, e', h2, h3⟩

/-- Light gets through the layer and comes back. -/
example (mu : ℝ) (h0 : 0 < mu) (h1 : mu ≤ 1) : ∃ o o₀ up dn, twostream mu 1000 (1 / 5) (11 / 12) 0 (1 / 2) = .ok o ∧
    twostream mu 1000 (1 / 5) (11 / 12) 0 0 = .ok o₀ ∧ FromBelow (table (1 / 2) mu (11 / 12) 0) (1 / 5) up dn ∧
    HasSum (fun n : ℕ => o₀.trans * (1 / 2 * dn (1 / 5)) ^ n) o.trans := by
  obtain ⟨o, e, hf, -⟩ := iso_call mu (1 / 5) h0 h1 (by norm_num)
  obtain ⟨o₀, e₀, -⟩ := Beta.C77_default mu 1000 (1 / 5) (11 / 12) 0 0 h0 h1 (by norm_num) (by norm_num)
    (by norm_num) (by norm_num) (by norm_num) (by norm_num) (by norm_num)
  have hne : o₀.btrans ≠ 0 := by
    rw [(thick_same h0 (by norm_num) (by norm_num) le_rfl e e₀).1]
    exact hf (by norm_num)
  obtain ⟨-, b, hb, ⟨up, dn, F⟩, hall⟩ := C177_bounces mu 1000 (1 / 5) (11 / 12) 0 (1 / 2) o o₀ h0 (by norm_num) (by norm_num)
    (by norm_num) (by norm_num) (by norm_num) (by norm_num) (by norm_num) (by norm_num) e₀ e hne
  have eb : b = 1 / 2 := by rw [beta0_zero h0 h1] at hb; cases hb; rfl
  subst eb
  exact ⟨o, o₀, up, dn, e, e₀, F, (hall up dn F).2.2⟩

/-- Two cells of the default configuration, fresh snow in the one: the other, in a valley, gets no less light. -/
example (mu : ℝ) (h0 : 0 < mu) (h1 : mu ≤ 1) : ∃ img img' : Bool → ℝ × ℝ,
    stoporad ⟨100, 1 / 5, 85 / 100, 3 / 10⟩ ⟨fun i => if i then 3000 else 2000, fun _ => 9 / 10, fun _ => 1 / 20⟩ 600 mu
      (fun _ => False) (fun _ => mu) (fun _ => 1 / 2) (28 / 100) (7 / 10) = .ok img ∧
    stoporad ⟨100, 1 / 5, 85 / 100, 3 / 10⟩ ⟨fun i => if i then 3000 else 2000, fun _ => 9 / 10, fun _ => 1 / 20⟩ 600 mu
      (fun _ => False) (fun _ => mu) (fun i => if i then 9 / 10 else 1 / 2) (28 / 100) (7 / 10) = .ok img' ∧
    (img false).2 ≤ (img' false).2 := by
  obtain ⟨img, img', e, e', h⟩ := C177_image (ι := Bool) ⟨100, 1 / 5, 85 / 100, 3 / 10⟩
    ⟨fun i => if i then 3000 else 2000, fun _ => 9 / 10, fun _ => 1 / 20⟩ 600 mu
      (fun _ => False) (fun _ => mu) (fun _ => 1 / 2) (fun i => if i then 9 / 10 else 1 / 2) (28 / 100) (7 / 10) .vis
    (by unfold checkWavelengths; norm_num) h0 (by norm_num)
    (Beta.C142_valid _ mu h0 h1 (by norm_num) (by norm_num) (by norm_num) (by norm_num) (by norm_num) (by norm_num))
    (by intro i; cases i <;> norm_num) (by intro i; norm_num) (by intro i; cases i <;> norm_num) (by intro i; cases i <;> norm_num)
    (by intro i; norm_num) (by intro i; norm_num)
  exact ⟨img, img', e, e', (h false).2⟩

end Verif.TwoEq
