import Verif.TwostreamLemmas
import Mathlib.Analysis.Complex.ExponentialBounds

/-! C49 (coefficients of the two-stream model) and C77 (its fluxes are physical). -/

namespace Verif.Twostream

/-- The coefficients: forward and backward parts sum to one, `gam1 - gam2` is not negative and is zero
exactly for conservative scattering, and the argument of the square root is not negative. -/
theorem C49_gammas (cosz omega g : ℝ) (γ : Gam) (hw : 0 ≤ omega) (hw1 : omega ≤ 1) (hg1 : g < 1)
    (h : mwgamma cosz omega g = .ok γ) :
    γ.g3 + γ.g4 = 1 ∧ 0 ≤ γ.g3 ∧ γ.g3 ≤ γ.g4 ∧ γ.g2 ≤ γ.g1 ∧ (γ.g1 = γ.g2 ↔ omega = 1) ∧
    0 < γ.g2 + γ.g1 ∧ 0 ≤ (γ.g1 - γ.g2) * (γ.g2 + γ.g1) := by
  unfold mwgamma at h
  split at h
  · cases h
  · rename_i b0 hb
    simp only [Except.ok.injEq] at h
    obtain ⟨hc, hc1, hg0, -, b1, b2⟩ := beta0_range hb
    have hd := hd_pos hc hc1 hg0 hg1.le
    have hs := hybrid_sub b0 cosz omega g hg1.ne hd
    have ha := hybrid_add_pos b0 cosz omega g b1 hw hw1 hg0 hg1 hd
    have h3 : (hybrid b0 cosz omega g).g3 = b0 := by unfold hybrid; simp only [if_neg hg1.ne]
    have h4 : (hybrid b0 cosz omega g).g4 = 1 - b0 := by unfold hybrid; simp only [if_neg hg1.ne]
    rw [h] at hs ha h3 h4
    have hq : 0 < 2 - g * g := by nlinarith
    have hn : 0 ≤ γ.g1 - γ.g2 := by
      rw [hs]
      apply div_nonneg _ hd.le
      have := sub_nonneg.2 hw1
      positivity
    refine ⟨by rw [h3, h4]; ring, by rw [h3]; exact b1, by rw [h3, h4]; linarith, by linarith, ?_, ha,
      mul_nonneg hn ha.le⟩
    constructor
    · intro e
      rw [e, sub_self, eq_comm, div_eq_zero_iff] at hs
      rcases hs with hs | hs
      · rcases mul_eq_zero.1 hs with hs | hs
        · linarith
        · exact absurd hs hq.ne'
      · exact absurd hs hd.ne'
    · intro e
      rw [e] at hs
      simp only [sub_self, mul_zero, zero_mul, zero_div] at hs
      linarith

example : ∃ γ, mwgamma (1 / 2) (85 / 100) 0 = .ok γ ∧ γ.g1 ≠ γ.g2 := by
  have hb : beta0 (1 / 2) 0 = .ok (1 / 2) := by unfold beta0; norm_num
  refine ⟨hybrid (1 / 2) (1 / 2) (85 / 100) 0, by unfold mwgamma; rw [hb], ?_⟩
  unfold hybrid; norm_num

/-- The ValueError `gam1 < gam2` is never raised for these arguments: every error of the coefficients
is one of `beta_0`. -/
theorem C49_no_value_error (cosz omega g r0 : ℝ) (hw : 0 ≤ omega) (hw1 : omega ≤ 1) (hg1 : g < 1) (e : Err)
    (h : coef cosz omega g r0 = .error e) : beta0 cosz g = .error e := by
  unfold coef at h
  simp only at h
  split at h
  · rename_i e' he
    unfold mwgamma at he
    split at he
    · rename_i e'' hb
      simp only [Except.error.injEq] at he h
      rw [hb, he, h]
    · cases he
  · rename_i γ hγ
    have := (C49_gammas cosz omega g γ hw hw1 hg1 hγ).2.2.2.1
    rw [if_neg (not_lt.2 this)] at h
    cases h

/-- The exponent of the diffuse fluxes is positive whenever the coefficients are computed, conservative
scattering included, so that the exponentials stay apart. -/
theorem C49_exponent_positive (cosz omega g r0 : ℝ) (c : Coef) (hw : 0 ≤ omega) (hw1 : omega ≤ 1) (hg1 : g < 1)
    (h : coef cosz omega g r0 = .ok c) : 0 < c.xi ∧ c.gam.g2 < c.gam1 := by
  unfold coef at h
  simp only at h
  split at h
  · cases h
  · rename_i γ hγ
    obtain ⟨-, -, -, hle, -, hpos, -⟩ := C49_gammas cosz omega g γ hw hw1 hg1 hγ
    rw [if_neg (not_lt.2 hle)] at h
    simp only [Except.ok.injEq] at h
    subst h
    simp only
    have hlt : γ.g2 < (if γ.g1 = γ.g2 then γ.g1 + 22204460492503131 / 10 ^ 32 else γ.g1) ∧
        γ.g1 ≤ (if γ.g1 = γ.g2 then γ.g1 + 22204460492503131 / 10 ^ 32 else γ.g1) := by
      split
      · rename_i e; constructor
        · rw [← e]; norm_num
        · norm_num
      · rename_i e; exact ⟨lt_of_le_of_ne hle (Ne.symm e), le_refl _⟩
    generalize (if γ.g1 = γ.g2 then γ.g1 + 22204460492503131 / 10 ^ 32 else γ.g1) = x at hlt ⊢
    exact ⟨Real.sqrt_pos.2 (mul_pos (by linarith [hlt.1]) (by linarith [hlt.2])), hlt.1⟩

example : ∃ c, coef (1 / 2) 1 0 0 = .ok c := by
  have hb : beta0 (1 / 2) 0 = .ok (1 / 2) := by unfold beta0; norm_num
  unfold coef mwgamma
  rw [hb]
  simp only
  rw [if_neg (by unfold hybrid; norm_num)]
  exact ⟨_, rfl⟩

/-- What the tables of a successful call are. -/
theorem twostream_ok {cosz s0 tau omega g r0 : ℝ} {o : Out} (hc : 0 < cosz)
    (h : twostream cosz s0 tau omega g r0 = .ok o) :
    0 < s0 ∧ ∃ c x, coef cosz omega g r0 = .ok c ∧ cell c cosz omega r0 (depth tau) = .ok x ∧ Passes cosz x ∧
      o = ⟨x.refl, x.trans, x.btrans, x.refl * cosz * s0, x.trans * cosz * s0, x.btrans * s0⟩ := by
  unfold twostream at h
  rw [if_neg (not_le.2 hc)] at h
  split at h
  · cases h
  · rename_i hs
    split at h
    · cases h
    · rename_i c hcf
      split at h
      · cases h
      · rename_i x hx
        split at h
        · rename_i hp
          simp only [Except.ok.injEq] at h
          exact ⟨not_le.1 hs, c, x, hcf, hx, hp, h.symm⟩
        · cases h

theorem cell_btrans {c : Coef} {cosz omega r0 tau : ℝ} {x : Cell} (h : cell c cosz omega r0 tau = .ok x) :
    (10 ^ 15 ≤ Real.exp (tau * c.xi) ∧ x.btrans = 0 ∧ x.trans = 0) ∨
    (Real.exp (tau * c.xi) < 10 ^ 15 ∧ x.btrans = Real.exp (-tau / cosz)) := by
  unfold cell at h
  simp only at h
  split at h
  · rename_i hs
    have hs' : 10 ^ 15 ≤ Real.exp (tau * c.xi) := by
      rcases hs with hs | hs
      · exact absurd hs.1 (Real.exp_pos _).ne'
      · exact hs
    split at h
    · cases h
    · simp only [Except.ok.injEq] at h
      subst h
      exact Or.inl ⟨hs', rfl, rfl⟩
  · rename_i hs
    have hs' : Real.exp (tau * c.xi) < 10 ^ 15 := by
      by_contra hh
      exact hs (Or.inr (not_lt.1 hh))
    split at h
    · cases h
    · simp only [Except.ok.injEq] at h
      subst h
      exact Or.inr ⟨hs', rfl⟩

/-- Direct transmittance is between 0 and 1. -/
theorem C49_direct_range (cosz s0 tau omega g r0 : ℝ) (o : Out) (ht : 0 ≤ tau)
    (h : twostream cosz s0 tau omega g r0 = .ok o) : 0 ≤ o.btrans ∧ o.btrans ≤ 1 := by
  by_cases hc : cosz ≤ 0
  · unfold twostream at h
    rw [if_pos hc] at h
    simp only [Except.ok.injEq] at h
    subst h
    simp [Out.zero]
  · rw [not_le] at hc
    obtain ⟨-, c, x, -, hx, hp, rfl⟩ := twostream_ok hc h
    refine ⟨hp.2.2.1, ?_⟩
    rcases cell_btrans hx with ⟨-, e, -⟩ | ⟨-, e⟩
    · simp only [e]; norm_num
    · simp only [e]
      apply Real.exp_le_one_iff.2
      have : 0 ≤ depth tau := by unfold depth; split <;> [norm_num; exact ht]
      rw [neg_div, neg_nonpos]
      exact div_nonneg this hc.le

/-- Direct transmittance decreases with the optical depth, strictly unless it is already zero. (An
optical depth of exactly zero means an infinite one, by the documentation of the function.) -/
theorem C49_direct_decreasing (cosz s0 tau tau' omega g r0 : ℝ) (o o' : Out) (hc : 0 < cosz) (ht : 0 < tau)
    (htt : tau < tau') (h : twostream cosz s0 tau omega g r0 = .ok o)
    (h' : twostream cosz s0 tau' omega g r0 = .ok o') :
    o'.btrans ≤ o.btrans ∧ (o.btrans ≠ 0 → o'.btrans < o.btrans) := by
  obtain ⟨-, c, x, hcf, hx, hp, rfl⟩ := twostream_ok hc h
  obtain ⟨-, c', x', hcf', hx', hp', rfl⟩ := twostream_ok hc h'
  have ec : c' = c := by rw [hcf] at hcf'; simpa using hcf'.symm
  subst ec
  have d1 : depth tau = tau := if_neg ht.ne'
  have d2 : depth tau' = tau' := if_neg (by linarith)
  rw [d1] at hx
  rw [d2] at hx'
  have hxi : 0 ≤ c'.xi := by
    unfold coef at hcf
    simp only at hcf
    split at hcf
    · cases hcf
    · split at hcf
      · cases hcf
      · simp only [Except.ok.injEq] at hcf
        subst hcf
        exact Real.sqrt_nonneg _
  simp only
  rcases cell_btrans hx with ⟨s, e, -⟩ | ⟨s, e⟩ <;> rcases cell_btrans hx' with ⟨s', e', -⟩ | ⟨s', e'⟩
  · rw [e, e']; exact ⟨le_refl _, fun h => absurd rfl h⟩
  · exfalso
    have : Real.exp (tau * c'.xi) ≤ Real.exp (tau' * c'.xi) :=
      Real.exp_le_exp.2 (mul_le_mul_of_nonneg_right htt.le hxi)
    linarith
  · rw [e, e']
    exact ⟨(Real.exp_pos _).le, fun _ => Real.exp_pos _⟩
  · rw [e, e']
    have : Real.exp (-tau' / cosz) < Real.exp (-tau / cosz) := by
      apply Real.exp_lt_exp.2
      exact div_lt_div_of_pos_right (neg_lt_neg htt) hc
    exact ⟨this.le, fun _ => this⟩

/-- Irradiance that is not positive is rejected when the sun is up; below the horizon everything is
zero, whatever the other arguments. -/
theorem C49_irradiance (cosz s0 tau omega g r0 : ℝ) :
    (0 < cosz → s0 ≤ 0 → twostream cosz s0 tau omega g r0 = .error .value) ∧
    (cosz ≤ 0 → twostream cosz s0 tau omega g r0 = .ok Out.zero) := by
  unfold twostream
  exact ⟨fun h1 h2 => by rw [if_neg (not_le.2 h1), if_pos h2], fun h => by rw [if_pos h]⟩

/-! ### C77 -/

/-- C77 as stated: for a positive irradiance, the sun above the horizon, and parameters in their
physical range the call succeeds, and total transmittance is at least direct transmittance. -/
def C77_full : Prop :=
  ∀ cosz s0 tau omega g r0 b0 : ℝ, 0 < cosz → cosz ≤ 1 → 0 < s0 → 0 < tau → 0 ≤ omega → omega < 1 →
    0 ≤ g → g < 1 → 0 ≤ r0 → r0 ≤ 1 → beta0 cosz g = .ok b0 →
    ∃ o, twostream cosz s0 tau omega g r0 = .ok o ∧ o.btrans ≤ o.trans

/-- Is the sun angle the one at which the solution divides by zero? In words: `cosz` times the
eigenvalue of the two-stream equations is one. -/
def Resonant (cosz omega : ℝ) (b : Gam) : Prop :=
  cosz * Real.sqrt ((b.g1 - b.g2) * (b.g2 + b.g1)) = 1 ∧ omega < 1

theorem coef_good {cosz omega g r0 b0 : ℝ} (hw : 0 ≤ omega) (hw1 : omega < 1) (hg : 0 ≤ g) (hg1 : g < 1)
    (hwg : 1 < omega * (4 - 3 * g)) (hb : beta0 cosz g = .ok b0) :
    ∃ c, coef cosz omega g r0 = .ok c ∧ Good c cosz (if r0 < 0 then 0 else r0) ∧
      c.gam = hybrid b0 cosz omega g ∧ c.gam1 = c.gam.g1 ∧
      c.xi = Real.sqrt ((c.gam.g1 - c.gam.g2) * (c.gam.g2 + c.gam.g1)) := by
  have hm : mwgamma cosz omega g = .ok (hybrid b0 cosz omega g) := by unfold mwgamma; rw [hb]
  obtain ⟨hc, hc1, -, -, b1, b2⟩ := beta0_range hb
  obtain ⟨k1, k2, k3, k4, k5, k6, k7⟩ := C49_gammas cosz omega g _ hw hw1.le hg1 hm
  have hne : (hybrid b0 cosz omega g).g1 ≠ (hybrid b0 cosz omega g).g2 := fun e => hw1.ne (k5.1 e)
  have hlt : (hybrid b0 cosz omega g).g2 < (hybrid b0 cosz omega g).g1 := lt_of_le_of_ne k4 hne.symm
  have hg2 := hybrid_g2_pos b0 cosz omega g b1 hg hg1 hw (hd_pos hc hc1 hg hg1.le) hwg
  unfold coef
  simp only [hm, if_neg (not_lt.2 k4), if_neg hne]
  refine ⟨_, rfl, ?_, rfl, rfl, rfl⟩
  refine ⟨hg2, Real.sqrt_pos.2 (mul_pos (sub_pos.2 hlt) k6), ?_, k2, by linarith, hlt, rfl, rfl, rfl, rfl, rfl, rfl,
    rfl, rfl⟩
  simp only
  rw [Real.mul_self_sqrt k7]
  ring

/-- For every optical depth, sun angle and ground reflectance: when scattering is strong enough
(`omega (4 - 3 g) > 1`) and the sun angle is not the resonant one, the call succeeds, that is its own
assertions hold, and the diffuse part of the transmittance is not negative. Missing: weak scattering
and the resonant angle, where this is false (`C77_resonance_fails`, `C77_diffuse_fails`,
`C77_no_backscatter_fails`); that `beta_0` itself succeeds is a hypothesis. -/
theorem C77_physical_partial (cosz s0 tau omega g r0 b0 : ℝ) (hs : 0 < s0) (ht : 0 < tau) (hw : 0 ≤ omega)
    (hw1 : omega < 1) (hg : 0 ≤ g) (hg1 : g < 1) (hr1 : r0 ≤ 1) (hwg : 1 < omega * (4 - 3 * g))
    (hb : beta0 cosz g = .ok b0) (hres : ¬ Resonant cosz omega (hybrid b0 cosz omega g)) :
    ∃ o, twostream cosz s0 tau omega g r0 = .ok o ∧ o.btrans ≤ o.trans ∧ 0 ≤ o.btrans ∧ 0 ≤ o.refl ∧
      0 ≤ o.upwelling ∧ o.normal * cosz ≤ o.bottom := by
  obtain ⟨hc, hc1, -, -, b1, b2⟩ := beta0_range hb
  obtain ⟨c, hcf, G, eg, e1, exi⟩ := coef_good (r0 := r0) hw hw1 hg hg1 hwg hb
  have hd : depth tau = tau := if_neg ht.ne'
  set r := (if r0 < 0 then 0 else r0) with hrdef
  have hr : 0 ≤ r := by rw [hrdef]; split <;> linarith
  have hr' : r ≤ 1 := by rw [hrdef]; split <;> linarith
  have hop : 0 < c.opx := by rw [G.opx]; have := mul_pos hc G.xi_pos; linarith
  have hom : c.omx ≠ 0 := by
    intro h0
    apply hres
    refine ⟨?_, hw1⟩
    rw [G.omx, exi, eg] at h0
    linarith
  have key : ∃ x, cell c cosz omega r0 tau = .ok x ∧ x.btrans ≤ x.trans ∧ 0 ≤ x.btrans ∧ 0 ≤ x.refl := by
    unfold cell
    simp only
    split
    · rw [if_neg (mul_pos G.gpx_pos hop).ne']
      refine ⟨_, rfl, le_refl _, le_refl _, ?_⟩
      simp only
      apply div_nonneg _ (mul_pos G.gpx_pos hop).le
      apply mul_nonneg hw
      rw [G.B]
      exact add_nonneg (mul_nonneg G.b_pos.le G.g4) (mul_nonneg G.g3 G.gpx_pos.le)
    · have hden := G.denrt_pos hr' hr tau ht.le
      rw [if_neg (by rintro (h | h | h); exacts [hom h, hop.ne' h, hden.ne' h])]
      refine ⟨_, rfl, ?_, (Real.exp_pos _).le, ?_⟩
      · simp only
        rw [le_div_iff₀ hden]
        have := G.diffuse_nonneg hr omega tau hw hc hom ht.le
        linarith
      · simp only
        exact div_nonneg (G.refl_nonneg hr hr' omega tau hw hc hom ht.le) hden.le
  obtain ⟨x, hx, x1, x2, x3⟩ := key
  have hp : Passes cosz x := by
    refine ⟨x3, le_trans x2 x1, x2, le_trans ?_ x1⟩
    nlinarith
  refine ⟨⟨x.refl, x.trans, x.btrans, x.refl * cosz * s0, x.trans * cosz * s0, x.btrans * s0⟩, ?_, x1, x2, x3, ?_, ?_⟩
  · unfold twostream
    rw [if_neg (not_le.2 hc), if_neg (not_le.2 hs), hcf]
    simp only [hd, hx, if_pos hp]
  · exact mul_nonneg (mul_nonneg x3 hc.le) hs.le
  · simp only
    have := mul_le_mul_of_nonneg_right x1 (mul_pos hc hs).le
    nlinarith

theorem beta0_zero {cosz : ℝ} (h : 0 < cosz) (h1 : cosz ≤ 1) : beta0 cosz 0 = .ok (1 / 2) := by
  unfold beta0
  rw [if_pos ⟨h, h1⟩]
  norm_num

theorem hybrid_iso (cosz omega : ℝ) :
    hybrid (1 / 2) cosz omega 0 = ⟨(7 - 4 * omega) / 4, (4 * omega - 1) / 4, 1 / 2, 1 / 2⟩ := by
  unfold hybrid
  norm_num
  ring

theorem root_iso (omega : ℝ) :
    ((7 - 4 * omega) / 4 - (4 * omega - 1) / 4) * ((4 * omega - 1) / 4 + (7 - 4 * omega) / 4)
      = 3 * (1 - omega) := by ring

/-- The hypotheses are met with isotropic scattering, for every sun angle. -/
example (cosz : ℝ) (h : 0 < cosz) (h1 : cosz ≤ 1) :
    ∃ o, twostream cosz 1000 (1 / 5) (85 / 100) 0 (1 / 2) = .ok o ∧ o.btrans ≤ o.trans := by
  obtain ⟨o, h1, h2, -⟩ := C77_physical_partial cosz 1000 (1 / 5) (85 / 100) 0 (1 / 2) (1 / 2) (by norm_num)
    (by norm_num) (by norm_num) (by norm_num) (by norm_num) (by norm_num) (by norm_num) (by norm_num)
    (beta0_zero h h1) (by
      intro hr
      have h2 := hr.1
      rw [hybrid_iso] at h2
      simp only at h2
      rw [root_iso] at h2
      have hs : Real.sqrt (3 * (1 - 85 / 100)) < 1 := by
        rw [Real.sqrt_lt' one_pos]; norm_num
      have h3 := Real.sqrt_nonneg (3 * (1 - 85 / 100 : ℝ))
      nlinarith)
  exact ⟨o, h1, h2⟩

/-- The coefficients for isotropic scattering and `omega < 1`. -/
theorem coef_iso {cosz omega r0 : ℝ} (h : 0 < cosz) (h1 : cosz ≤ 1) (hw1 : omega < 1) :
    coef cosz omega 0 r0 = .ok
      { gam := ⟨(7 - 4 * omega) / 4, (4 * omega - 1) / 4, 1 / 2, 1 / 2⟩
        xi := Real.sqrt (3 * (1 - omega)), gam1 := (7 - 4 * omega) / 4
        alph1 := (7 - 4 * omega) / 4 * (1 / 2) + (4 * omega - 1) / 4 * (1 / 2)
        alph2 := (4 * omega - 1) / 4 * (1 / 2) + (7 - 4 * omega) / 4 * (1 / 2)
        gpx := Real.sqrt (3 * (1 - omega)) + (7 - 4 * omega) / 4
        gmx := (7 - 4 * omega) / 4 - Real.sqrt (3 * (1 - omega))
        opx := cosz * Real.sqrt (3 * (1 - omega)) + 1, omx := 1 - cosz * Real.sqrt (3 * (1 - omega))
        rm := (4 * omega - 1) / 4 - ((7 - 4 * omega) / 4 - Real.sqrt (3 * (1 - omega))) * (if r0 < 0 then 0 else r0)
        rp := (4 * omega - 1) / 4 - (Real.sqrt (3 * (1 - omega)) + (7 - 4 * omega) / 4) * (if r0 < 0 then 0 else r0) } := by
  unfold coef mwgamma
  rw [beta0_zero h h1]
  simp only [hybrid_iso]
  rw [if_neg (by linarith)]
  have hne : (7 - 4 * omega) / 4 ≠ (4 * omega - 1) / 4 := by intro e; linarith
  simp only [if_neg hne, root_iso]

theorem exp_lt_big {x : ℝ} (h : x ≤ 2) : Real.exp x < 10 ^ 15 := by
  have h1 : Real.exp x ≤ Real.exp 2 := Real.exp_le_exp.2 h
  have h2 : Real.exp 2 = Real.exp 1 * Real.exp 1 := by rw [← Real.exp_add]; norm_num
  have h3 := Real.exp_one_lt_d9
  have h4 := Real.exp_pos 1
  nlinarith

theorem not_semi {c : Coef} {cosz tau : ℝ} (h : tau * c.xi ≤ 2) : ¬ SemiInf c cosz tau := by
  rintro (h' | h')
  · exact absurd h'.1 (Real.exp_pos _).ne'
  · exact absurd h' (not_le.2 (exp_lt_big h))

/-- With `omega = 2/3` and the sun in the zenith every call fails, whatever the ground reflectance:
the solution divides by `1 - cosz * xi = 0`. -/
theorem C77_resonance_fails (s0 tau r0 : ℝ) (hs : 0 < s0) (ht : 0 < tau) (ht1 : tau ≤ 1) :
    twostream 1 s0 tau (2 / 3) 0 r0 = .error .zeroDiv := by
  have hx : Real.sqrt (3 * (1 - 2 / 3)) = 1 := by rw [Real.sqrt_eq_one]; norm_num
  have hd : depth tau = tau := if_neg ht.ne'
  unfold twostream
  rw [if_neg (by norm_num), if_neg (not_le.2 hs), coef_iso one_pos (le_refl _) (by norm_num)]
  simp only
  unfold cell
  rw [if_neg (not_semi (by simp only [hd, hx]; linarith)), if_pos (Or.inl (by simp only [hx]; norm_num))]

/-- With `omega = 1/4` and isotropic scattering there is no backscatter (`gam2 = 0`) and every call fails,
whatever the sun angle and the ground reflectance. -/
theorem C77_no_backscatter_fails (cosz s0 tau r0 : ℝ) (hc : 0 < cosz) (hc1 : cosz ≤ 1) (hs : 0 < s0)
    (ht : 0 < tau) (ht1 : tau ≤ 1) : twostream cosz s0 tau (1 / 4) 0 r0 = .error .zeroDiv := by
  have hx : Real.sqrt (3 * (1 - 1 / 4)) = 3 / 2 := by
    rw [show (3 * (1 - 1 / 4) : ℝ) = (3 / 2) * (3 / 2) by norm_num, Real.sqrt_mul_self (by norm_num)]
  have hd : depth tau = tau := if_neg ht.ne'
  unfold twostream
  rw [if_neg (not_le.2 hc), if_neg (not_le.2 hs), coef_iso hc hc1 (by norm_num)]
  simp only
  unfold cell
  rw [if_neg (not_semi (by simp only [hd, hx]; linarith)),
    if_pos (Or.inr (Or.inr (by unfold denrt; simp only [hx]; norm_num)))]

/-- Without scattering, over a white ground, the diffuse radiation at the ground comes out negative and
the assertions do not notice: they compare with `btrans * cosz` instead of `btrans`. -/
theorem C77_diffuse_fails (s0 tau : ℝ) (hs : 0 < s0) (ht : 0 < tau) (ht1 : tau ≤ 1) :
    ∃ o, twostream (1 / 2) s0 tau 0 0 1 = .ok o ∧ o.trans < o.btrans := by
  have h3 : 0 < Real.sqrt (3 * (1 - 0)) := Real.sqrt_pos.2 (by norm_num)
  have h32 : Real.sqrt (3 * (1 - 0)) * Real.sqrt (3 * (1 - 0)) = 3 := by
    rw [Real.mul_self_sqrt (by norm_num)]; norm_num
  have hlt : Real.sqrt (3 * (1 - 0)) < 2 := by nlinarith
  have hd : depth tau = tau := if_neg ht.ne'
  have hc := coef_iso (cosz := 1 / 2) (omega := 0) (r0 := 1) (by norm_num) (by norm_num) (by norm_num)
  have hr : (if (1 : ℝ) < 0 then (0 : ℝ) else 1) = 1 := by norm_num
  rw [hr] at hc
  generalize Real.sqrt (3 * (1 - 0)) = x at *
  obtain ⟨c, hc', ec⟩ : ∃ c, coef (1 / 2) 0 0 1 = .ok c ∧ Except.ok c = coef (1 / 2) 0 0 1 := ⟨_, hc, hc.symm⟩
  rw [hc] at ec
  replace ec := Except.ok.inj ec
  replace hc := hc'
  have hep : Real.exp (-tau * x) < Real.exp (tau * x) := by
    apply Real.exp_lt_exp.2; nlinarith
  have hem : 0 < Real.exp (-tau * x) := Real.exp_pos _
  have het : 0 < Real.exp (-tau / (1 / 2)) := Real.exp_pos _
  have hden : denrt c tau =
      - (Real.exp (tau * x) * (1 / 2 + x / 4) - Real.exp (-tau * x) * (1 / 2 - x / 4)) := by
    unfold denrt
    rw [ec]
    simp only
    linear_combination (Real.exp (tau * x) - Real.exp (-tau * x)) * h32
  have hns : ¬ SemiInf c (1 / 2) tau := not_semi (by rw [ec]; simp only; nlinarith)
  have hD : 0 < Real.exp (tau * x) * (1 / 2 + x / 4) - Real.exp (-tau * x) * (1 / 2 - x / 4) := by nlinarith
  have hcell : ∃ y, cell c (1 / 2) 0 1 tau = .ok y ∧ y.btrans = Real.exp (-tau / (1 / 2)) ∧
      y.trans = Real.exp (-tau / (1 / 2)) * (1 - 1 / 16 * (Real.exp (tau * x) - Real.exp (-tau * x)) /
        (Real.exp (tau * x) * (1 / 2 + x / 4) - Real.exp (-tau * x) * (1 / 2 - x / 4))) ∧
      y.refl = Real.exp (-tau / (1 / 2)) * (1 / 2) * x /
        (Real.exp (tau * x) * (1 / 2 + x / 4) - Real.exp (-tau * x) * (1 / 2 - x / 4)) := by
    unfold cell
    rw [if_neg hns, if_neg (by
      rintro (h | h | h)
      · rw [ec] at h; simp only at h; linarith
      · rw [ec] at h; simp only at h; linarith
      · rw [hden] at h; linarith)]
    refine ⟨_, rfl, rfl, ?_, ?_⟩
    · simp only [hden]
      rw [ec]
      simp only [hr]
      have := hD.ne'
      generalize Real.exp (-tau * x) = em at *
      generalize Real.exp (tau * x) = ep at *
      generalize Real.exp (-tau / (1 / 2)) = et at *
      rw [div_neg, ← neg_div, div_eq_iff this]
      have e : (1 - 1 / 16 * (ep - em) / (ep * (1 / 2 + x / 4) - em * (1 / 2 - x / 4))) *
          (ep * (1 / 2 + x / 4) - em * (1 / 2 - x / 4)) =
          (ep * (1 / 2 + x / 4) - em * (1 / 2 - x / 4)) - 1 / 16 * (ep - em) := by
        rw [sub_mul, div_mul_cancel₀ _ this, one_mul]
      rw [mul_assoc et, e]
      ring
    · simp only [hden]
      rw [ec]
      simp only [hr]
      rw [div_neg, ← neg_div]
      congr 1
      ring
  obtain ⟨y, hy, h1, h2, h3'⟩ := hcell
  generalize Real.exp (-tau * x) = em at *
  generalize Real.exp (tau * x) = ep at *
  generalize Real.exp (-tau / (1 / 2)) = et at *
  have hq : 0 < 1 / 16 * (ep - em) / (ep * (1 / 2 + x / 4) - em * (1 / 2 - x / 4)) :=
    div_pos (by linarith) hD
  have hq1 : 1 / 16 * (ep - em) / (ep * (1 / 2 + x / 4) - em * (1 / 2 - x / 4)) ≤ 1 / 2 := by
    rw [div_le_iff₀ hD]; nlinarith
  have hp : Passes (1 / 2) y := by
    refine ⟨?_, ?_, ?_, ?_⟩
    · rw [h3']; positivity
    · rw [h2]; apply mul_nonneg het.le; linarith
    · rw [h1]; exact het.le
    · rw [h1, h2]; apply mul_le_mul_of_nonneg_left _ het.le; linarith
  unfold twostream
  rw [if_neg (by norm_num), if_neg (not_le.2 hs), hc]
  simp only [hd, hy, if_pos hp]
  refine ⟨_, rfl, ?_⟩
  simp only
  rw [h1, h2]
  nlinarith

theorem C77_fails : ¬ C77_full := by
  intro h
  obtain ⟨o, ho, -⟩ := h 1 1000 (1 / 5) (2 / 3) 0 0 (1 / 2) (by norm_num) (by norm_num) (by norm_num) (by norm_num)
    (by norm_num) (by norm_num) (by norm_num) (by norm_num) (by norm_num) (by norm_num)
    (beta0_zero one_pos (le_refl _))
  rw [C77_resonance_fails 1000 (1 / 5) 0 (by norm_num) (by norm_num) (by norm_num)] at ho
  cases ho

end Verif.Twostream
