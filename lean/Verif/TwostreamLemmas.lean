import Verif.Twostream
import Mathlib.Analysis.Calculus.Deriv.MeanValue
import Mathlib.Analysis.SpecialFunctions.ExpDeriv
import Mathlib.Tactic.Linarith
import Mathlib.Tactic.LinearCombination
import Mathlib.Tactic.FieldSimp
import Mathlib.Tactic.Positivity

namespace Verif.Twostream

/-- What `beta_0` returns is at least 0 and at most a half. -/
theorem beta0_range {cosz g b : ℝ} (h : beta0 cosz g = .ok b) :
    0 < cosz ∧ cosz ≤ 1 ∧ 0 ≤ g ∧ g ≤ 1 ∧ 0 ≤ b ∧ (b ≤ 1 / 2) := by
  unfold beta0 at h
  split at h
  · rename_i hc
    split at h
    · rename_i hg
      refine ⟨hc.1, hc.2, hg.1, hg.2, ?_⟩
      split at h
      · split at h
        · cases h
        · rename_i s n hl
          have hn : n ≠ maxno := by
            intro e
            have key : ∀ left m st, legLoop cosz g left m st = .ok (s, n) → 1 ≤ m → n ≤ m + left - 1 := by
              intro left
              induction left with
              | zero =>
                intro m st hh hm
                unfold legLoop at hh
                simp only [Except.ok.injEq, Prod.mk.injEq] at hh
                omega
              | succ l ih =>
                intro m st hh hm
                unfold legLoop at hh
                simp only at hh
                split at hh
                · split at hh
                  · cases hh
                  · split at hh
                    · simp only [Except.ok.injEq, Prod.mk.injEq] at hh
                      omega
                    · have := ih _ _ hh (by omega)
                      omega
                · have := ih _ _ hh (by omega)
                  omega
            have := key _ _ _ hl (by norm_num)
            rw [e] at this
            unfold maxno at this
            omega
          rw [if_neg hn] at h
          split at h
          · rename_i hs
            simp only [Except.ok.injEq] at h
            subst h
            constructor <;> linarith [hs.1, hs.2]
          · cases h
      · simp only [Except.ok.injEq] at h
        subst h
        norm_num
    · cases h
  · cases h

theorem hd_pos {cosz g : ℝ} (hc : 0 < cosz) (hc1 : cosz ≤ 1) (hg : 0 ≤ g) (hg1 : g ≤ 1) :
    0 < 4 * (1 - g * g * (1 - cosz)) := by
  have : g * g ≤ 1 := by nlinarith
  nlinarith [mul_nonneg (sub_nonneg.2 this) (sub_nonneg.2 hc1)]

/-- The difference of the first two gammas in closed form. -/
theorem hybrid_sub (b0 cosz omega g : ℝ) (hg : g ≠ 1) (hd : 0 < 4 * (1 - g * g * (1 - cosz))) :
    (hybrid b0 cosz omega g).g1 - (hybrid b0 cosz omega g).g2 =
      4 * (1 - omega) * (2 - g * g) / (4 * (1 - g * g * (1 - cosz))) := by
  unfold hybrid
  simp only [if_neg hg]
  rw [← sub_div]
  congr 1
  ring

theorem hybrid_add_pos (b0 cosz omega g : ℝ) (hb : 0 ≤ b0) (h0 : 0 ≤ omega) (h1 : omega ≤ 1)
    (hg0 : 0 ≤ g) (hg1 : g < 1) (hd : 0 < 4 * (1 - g * g * (1 - cosz))) :
    0 < (hybrid b0 cosz omega g).g2 + (hybrid b0 cosz omega g).g1 := by
  unfold hybrid
  simp only [if_neg hg1.ne]
  rw [← add_div]
  apply div_pos _ hd
  have e : g * (g * ((3 * g + 4 * (b0 - 1)) * omega + 1) - 3 * omega) + 4 * omega - 1 +
      (g * (g * ((3 * g + 4 * b0) * omega - 3) - 3 * omega) - 4 * omega + 7) =
      (1 - omega) * (6 - 2 * (g * g)) + omega * (6 * ((1 - g) * (1 - g * g))) +
        omega * (8 * (b0 * (g * g))) := by ring
  rw [e]
  have hgg : 0 < 1 - g * g := by nlinarith
  have p1 : 0 ≤ (1 - omega) * (6 - 2 * (g * g)) := mul_nonneg (by linarith) (by nlinarith)
  have p2 : 0 ≤ omega * (6 * ((1 - g) * (1 - g * g))) := by
    have := mul_pos (sub_pos.2 hg1) hgg
    positivity
  have p3 : 0 ≤ omega * (8 * (b0 * (g * g))) := by positivity
  rcases eq_or_lt_of_le h1 with e | e
  · have : 0 < omega * (6 * ((1 - g) * (1 - g * g))) := by
      rw [e]
      have := mul_pos (sub_pos.2 hg1) hgg
      linarith
    linarith
  · have : 0 < (1 - omega) * (6 - 2 * (g * g)) := mul_pos (by linarith) (by nlinarith)
    linarith

/-- A sufficient condition for the second gamma to be positive. -/
theorem hybrid_g2_pos (b0 cosz omega g : ℝ) (hb : 0 ≤ b0) (hg0 : 0 ≤ g) (hg1 : g < 1)
    (h0 : 0 ≤ omega) (hd : 0 < 4 * (1 - g * g * (1 - cosz))) (h : 1 < omega * (4 - 3 * g)) :
    0 < (hybrid b0 cosz omega g).g2 := by
  unfold hybrid
  simp only [if_neg hg1.ne]
  apply div_pos _ hd
  have e : g * (g * ((3 * g + 4 * (b0 - 1)) * omega + 1) - 3 * omega) + 4 * omega - 1 =
      (1 - g) * (1 + g) * (omega * (4 - 3 * g) - 1) + 4 * omega * (b0 * (g * g)) := by ring
  rw [e]
  have : 0 < (1 - g) * (1 + g) * (omega * (4 - 3 * g) - 1) :=
    mul_pos (mul_pos (by linarith) (by linarith)) (by linarith)
  have : 0 ≤ 4 * omega * (b0 * (g * g)) := by positivity
  linarith

/-- Coefficients of a call. -/
theorem coef_ok {cosz omega g r0 : ℝ} {c : Coef} (h : coef cosz omega g r0 = .ok c) :
    ∃ b0, beta0 cosz g = .ok b0 ∧ c.gam = hybrid b0 cosz omega g ∧
      ¬ (hybrid b0 cosz omega g).g1 < (hybrid b0 cosz omega g).g2 := by
  unfold coef mwgamma at h
  simp only at h
  split at h
  · cases h
  · rename_i γ hγ
    split at hγ
    · cases hγ
    · rename_i b0 hb
      simp only [Except.ok.injEq] at hγ
      subst hγ
      split at h
      · cases h
      · rename_i hlt
        simp only [Except.ok.injEq] at h
        subst h
        exact ⟨b0, hb, rfl, hlt⟩

/-- The relations between the coefficients that the algebra below uses. -/
structure Good (c : Coef) (cosz r : ℝ) : Prop where
  b_pos : 0 < c.gam.g2
  xi_pos : 0 < c.xi
  xi_sq : c.xi * c.xi = c.gam1 * c.gam1 - c.gam.g2 * c.gam.g2
  g3 : 0 ≤ c.gam.g3
  g4 : 0 ≤ c.gam.g4
  ab : c.gam.g2 < c.gam1
  a1 : c.alph1 = c.gam1 * c.gam.g4 + c.gam.g2 * c.gam.g3
  a2 : c.alph2 = c.gam.g2 * c.gam.g4 + c.gam1 * c.gam.g3
  gpx : c.gpx = c.xi + c.gam1
  gmx : c.gmx = c.gam1 - c.xi
  opx : c.opx = cosz * c.xi + 1
  omx : c.omx = 1 - cosz * c.xi
  rm : c.rm = c.gam.g2 - (c.gam1 - c.xi) * r
  rp : c.rp = c.gam.g2 - (c.xi + c.gam1) * r

section
variable {c : Coef} {cosz r : ℝ} (G : Good c cosz r)
include G

theorem Good.xi_lt : c.xi < c.gam1 := by
  have h1 := G.b_pos; have h2 := G.xi_sq; have h3 := G.xi_pos; have h4 := G.ab
  nlinarith [mul_pos h1 h1]

theorem Good.gmx_pos : 0 < c.gmx := by rw [G.gmx]; linarith [G.xi_lt]

theorem Good.gpx_pos : 0 < c.gpx := by rw [G.gpx]; linarith [G.xi_lt, G.xi_pos]

theorem Good.gg : c.gpx * c.gmx = c.gam.g2 * c.gam.g2 := by
  rw [G.gpx, G.gmx]; linear_combination -G.xi_sq

theorem Good.gmx_lt : c.gmx < c.gam.g2 := by
  have h1 := G.gg; have h2 := G.gmx_pos; have h3 := G.gpx_pos; have h4 := G.b_pos
  have h5 : c.gam.g2 < c.gpx := by rw [G.gpx]; linarith [G.ab, G.xi_pos]
  nlinarith

theorem Good.rm_pos (hr1 : r ≤ 1) (hr : 0 ≤ r) : 0 < c.rm := by
  rw [G.rm, ← G.gmx]
  nlinarith [G.gmx_lt, G.gmx_pos]

/-- `alph2 - gam3 xi`. -/
theorem Good.A : c.alph2 - c.gam.g3 * c.xi = c.gam.g2 * c.gam.g4 + c.gam.g3 * c.gmx := by
  rw [G.a2, G.gmx]; ring

/-- `gam3 xi + alph2`. -/
theorem Good.B : c.gam.g3 * c.xi + c.alph2 = c.gam.g2 * c.gam.g4 + c.gam.g3 * c.gpx := by
  rw [G.a2, G.gpx]; ring

theorem Good.denrt_pos (hr1 : r ≤ 1) (hr : 0 ≤ r) (tau : ℝ) (ht : 0 ≤ tau) : 0 < denrt c tau := by
  unfold denrt
  have hp : 1 ≤ Real.exp (tau * c.xi) := Real.one_le_exp (mul_nonneg ht G.xi_pos.le)
  have hm : Real.exp (-tau * c.xi) ≤ 1 := by
    apply Real.exp_le_one_iff.2
    nlinarith [G.xi_pos]
  have hm0 : 0 < Real.exp (-tau * c.xi) := Real.exp_pos _
  have h1 : 0 < c.gpx * c.rm := mul_pos G.gpx_pos (G.rm_pos hr1 hr)
  have h2 : c.gpx * c.rm - c.gmx * c.rp = c.gam.g2 * (2 * c.xi) := by
    rw [G.rm, G.rp, G.gpx, G.gmx]; ring
  have h3 : 0 < c.gam.g2 * (2 * c.xi) := mul_pos G.b_pos (by linarith [G.xi_pos])
  generalize Real.exp (tau * c.xi) = ep at *
  generalize Real.exp (-tau * c.xi) = em at *
  rw [mul_assoc, mul_assoc]
  generalize c.gpx * c.rm = X at *
  generalize c.gmx * c.rp = Y at *
  rcases le_total 0 Y with h | h
  · nlinarith
  · nlinarith

end

/-- A function on the half line with non-negative derivative and value 0 at 0 is non-negative. -/
theorem nonneg_of_deriv (f f' : ℝ → ℝ) (h : ∀ t, HasDerivAt f (f' t) t) (h' : ∀ t, 0 ≤ t → 0 ≤ f' t)
    (h0 : f 0 = 0) (t : ℝ) (ht : 0 ≤ t) : 0 ≤ f t := by
  have hm : MonotoneOn f (Set.Ici 0) := by
    apply monotoneOn_of_deriv_nonneg (convex_Ici 0)
    · exact fun x _ => (h x).continuousAt.continuousWithinAt
    · exact fun x _ => (h x).differentiableAt.differentiableWithinAt
    · intro x hx
      rw [interior_Ici] at hx
      rw [(h x).deriv]
      exact h' x (le_of_lt hx)
  have := hm (Set.mem_Ici.2 (le_refl 0)) (Set.mem_Ici.2 ht) ht
  rwa [h0] at this

theorem hasDerivAt_exp_mul (k t : ℝ) : HasDerivAt (fun t => Real.exp (t * k)) (k * Real.exp (t * k)) t := by
  have := (hasDerivAt_mul_const (x := t) k).exp
  rwa [mul_comm] at this

section
variable {c : Coef} {cosz r : ℝ} (G : Good c cosz r)
include G

/-- The diffuse part of the transmittance, times the denominator. -/
theorem Good.diffuse_nonneg (hr : 0 ≤ r) (omega tau : ℝ) (hw : 0 ≤ omega) (hc : 0 < cosz)
    (ho : c.omx ≠ 0) (ht : 0 ≤ tau) :
    0 ≤ (Real.exp (-tau / cosz) *
        (Real.exp (tau * c.xi) * c.gpx * (c.gam.g2 - omega * (c.alph2 - c.gam.g3 * c.xi) / c.omx)
          - Real.exp (-tau * c.xi) * c.gmx * (c.gam.g2 - omega * (c.gam.g3 * c.xi + c.alph2) / c.opx))
        + 2 * c.gam.g2 * (c.alph1 * cosz + c.gam.g4) * omega * c.xi / (c.omx * c.opx))
      - Real.exp (-tau / cosz) * denrt c tau := by
  have hop : 0 < c.opx := by rw [G.opx]; have := mul_pos hc G.xi_pos; linarith
  set A := c.alph2 - c.gam.g3 * c.xi with hA
  set B := c.gam.g3 * c.xi + c.alph2 with hB
  have eA : A = _ := G.A
  have eB : B = _ := G.B
  set C := 2 * c.gam.g2 * (c.alph1 * cosz + c.gam.g4) * omega * c.xi / (c.omx * c.opx) with hC
  -- the part due to scattering
  have hM : 0 ≤ C - omega * (c.gpx * A / c.omx * Real.exp (tau * (c.xi - 1 / cosz))
      - c.gmx * B / c.opx * Real.exp (tau * (-c.xi - 1 / cosz))) := by
    refine nonneg_of_deriv
      (fun t => C - omega * (c.gpx * A / c.omx * Real.exp (t * (c.xi - 1 / cosz))
        - c.gmx * B / c.opx * Real.exp (t * (-c.xi - 1 / cosz))))
      (fun t => - (omega * (c.gpx * A / c.omx * ((c.xi - 1 / cosz) * Real.exp (t * (c.xi - 1 / cosz)))
        - c.gmx * B / c.opx * ((-c.xi - 1 / cosz) * Real.exp (t * (-c.xi - 1 / cosz)))))) ?_ ?_ ?_ tau ht
    · intro t
      exact ((((hasDerivAt_exp_mul _ t).const_mul _).sub
        ((hasDerivAt_exp_mul _ t).const_mul _)).const_mul omega).const_sub C
    · intro t h0
      have e1 : (c.xi - 1 / cosz) = - (c.omx / cosz) := by rw [G.omx]; field_simp; ring
      have e2 : (-c.xi - 1 / cosz) = - (c.opx / cosz) := by rw [G.opx]; field_simp; ring
      have hle : Real.exp (t * (-c.xi - 1 / cosz)) ≤ Real.exp (t * (c.xi - 1 / cosz)) := by
        apply Real.exp_le_exp.2
        apply mul_le_mul_of_nonneg_left _ h0
        linarith [G.xi_pos]
      have hp : 0 < Real.exp (t * (-c.xi - 1 / cosz)) := Real.exp_pos _
      generalize Real.exp (t * (-c.xi - 1 / cosz)) = x at *
      generalize Real.exp (t * (c.xi - 1 / cosz)) = y at *
      rw [e1, e2]
      have e : -(omega * (c.gpx * A / c.omx * (-(c.omx / cosz) * y) - c.gmx * B / c.opx * (-(c.opx / cosz) * x)))
          = omega / cosz * (c.gpx * A * y - c.gmx * B * x) := by
        field_simp; ring
      rw [e]
      apply mul_nonneg (by positivity)
      have h1 : c.gpx * A - c.gmx * B = 2 * c.xi * (c.gam.g2 * c.gam.g4) := by
        rw [eA, eB, G.gpx, G.gmx]; ring
      have h2 : 0 ≤ c.gpx * A := by
        rw [eA]
        exact mul_nonneg G.gpx_pos.le (add_nonneg (mul_nonneg G.b_pos.le G.g4) (mul_nonneg G.g3 G.gmx_pos.le))
      have h3 : 0 ≤ c.gmx * B := by
        rw [eB]
        exact mul_nonneg G.gmx_pos.le (add_nonneg (mul_nonneg G.b_pos.le G.g4) (mul_nonneg G.g3 G.gpx_pos.le))
      have h4 : 0 ≤ 2 * c.xi * (c.gam.g2 * c.gam.g4) :=
        mul_nonneg (by linarith [G.xi_pos]) (mul_nonneg G.b_pos.le G.g4)
      nlinarith
    · simp only [zero_mul, Real.exp_zero, mul_one]
      rw [hC]
      have : 2 * c.gam.g2 * (c.alph1 * cosz + c.gam.g4) * c.xi
          = c.gpx * A * c.opx - c.gmx * B * c.omx := by
        rw [eA, eB, G.a1, G.opx, G.omx, G.gpx, G.gmx]
        linear_combination (2 * cosz * c.xi * c.gam.g3) * G.xi_sq
      have e : 2 * c.gam.g2 * (c.alph1 * cosz + c.gam.g4) * omega * c.xi / (c.omx * c.opx)
          = omega * ((2 * c.gam.g2 * (c.alph1 * cosz + c.gam.g4) * c.xi) / (c.omx * c.opx)) := by ring
      rw [e, this]
      field_simp
      ring
  have e1 : Real.exp (tau * (c.xi - 1 / cosz)) = Real.exp (-tau / cosz) * Real.exp (tau * c.xi) := by
    rw [← Real.exp_add]; congr 1; ring
  have e2 : Real.exp (tau * (-c.xi - 1 / cosz)) = Real.exp (-tau / cosz) * Real.exp (-tau * c.xi) := by
    rw [← Real.exp_add]; congr 1; ring
  rw [e1, e2] at hM
  have hle : Real.exp (-tau * c.xi) ≤ Real.exp (tau * c.xi) := by
    apply Real.exp_le_exp.2; nlinarith [G.xi_pos]
  have ht0 : 0 < Real.exp (-tau / cosz) := Real.exp_pos _
  unfold denrt
  generalize Real.exp (-tau * c.xi) = em at *
  generalize Real.exp (tau * c.xi) = ep at *
  generalize Real.exp (-tau / cosz) = et at *
  have hr2 : 0 ≤ et * r * (c.gam.g2 * c.gam.g2) * (ep - em) := by
    have := G.b_pos
    have := sub_nonneg.2 hle
    positivity
  have key : et * (ep * c.gpx * (c.gam.g2 - omega * A / c.omx) - em * c.gmx * (c.gam.g2 - omega * B / c.opx)) + C
        - et * (ep * c.gpx * c.rm - em * c.gmx * c.rp)
      = et * r * (c.gam.g2 * c.gam.g2) * (ep - em)
        + (C - omega * (c.gpx * A / c.omx * (et * ep) - c.gmx * B / c.opx * (et * em))) := by
    rw [← G.gg, G.rm, G.rp, ← G.gmx, ← G.gpx]
    ring
  rw [key]
  linarith

/-- The reflectance, times the denominator. -/
theorem Good.refl_nonneg (hr : 0 ≤ r) (hr1 : r ≤ 1) (omega tau : ℝ) (hw : 0 ≤ omega) (hc : 0 < cosz)
    (ho : c.omx ≠ 0) (ht : 0 ≤ tau) :
    0 ≤ omega * (Real.exp (tau * c.xi) * c.rm * (c.gam.g3 * c.xi + c.alph2) / c.opx
          - Real.exp (-tau * c.xi) * c.rp * (c.alph2 - c.gam.g3 * c.xi) / c.omx)
        + 2 * Real.exp (-tau / cosz) * c.gam.g2
          * (r - ((c.alph1 * r - c.alph2) * cosz + c.gam.g4 * r + c.gam.g3) * omega
              / (c.omx * c.opx)) * c.xi := by
  have hop : 0 < c.opx := by rw [G.opx]; have := mul_pos hc G.xi_pos; linarith
  set A := c.alph2 - c.gam.g3 * c.xi with hA
  set B := c.gam.g3 * c.xi + c.alph2 with hB
  have eA : A = _ := G.A
  have eB : B = _ := G.B
  set K := ((c.alph1 * r - c.alph2) * cosz + c.gam.g4 * r + c.gam.g3) * omega / (c.omx * c.opx) with hK
  have hA0 : 0 ≤ A := by
    rw [eA]; exact add_nonneg (mul_nonneg G.b_pos.le G.g4) (mul_nonneg G.g3 G.gmx_pos.le)
  have hB0 : 0 ≤ B := by
    rw [eB]; exact add_nonneg (mul_nonneg G.b_pos.le G.g4) (mul_nonneg G.g3 G.gpx_pos.le)
  have hQ : 0 ≤ omega * (c.rm * B / c.opx * Real.exp (tau * (c.xi + 1 / cosz))
      - c.rp * A / c.omx * Real.exp (tau * (1 / cosz - c.xi))) - 2 * c.gam.g2 * c.xi * K := by
    refine nonneg_of_deriv
      (fun t => omega * (c.rm * B / c.opx * Real.exp (t * (c.xi + 1 / cosz))
        - c.rp * A / c.omx * Real.exp (t * (1 / cosz - c.xi))) - 2 * c.gam.g2 * c.xi * K)
      (fun t => omega * (c.rm * B / c.opx * ((c.xi + 1 / cosz) * Real.exp (t * (c.xi + 1 / cosz)))
        - c.rp * A / c.omx * ((1 / cosz - c.xi) * Real.exp (t * (1 / cosz - c.xi))))) ?_ ?_ ?_ tau ht
    · intro t
      exact ((((hasDerivAt_exp_mul _ t).const_mul _).sub
        ((hasDerivAt_exp_mul _ t).const_mul _)).const_mul omega).sub_const _
    · intro t h0
      have e1 : (c.xi + 1 / cosz) = c.opx / cosz := by rw [G.opx]; field_simp
      have e2 : (1 / cosz - c.xi) = c.omx / cosz := by rw [G.omx]; field_simp
      have hle : Real.exp (t * (1 / cosz - c.xi)) ≤ Real.exp (t * (c.xi + 1 / cosz)) := by
        apply Real.exp_le_exp.2
        apply mul_le_mul_of_nonneg_left _ h0
        linarith [G.xi_pos]
      have hp : 0 < Real.exp (t * (1 / cosz - c.xi)) := Real.exp_pos _
      generalize Real.exp (t * (1 / cosz - c.xi)) = x at *
      generalize Real.exp (t * (c.xi + 1 / cosz)) = y at *
      rw [e1, e2]
      have e : omega * (c.rm * B / c.opx * (c.opx / cosz * y) - c.rp * A / c.omx * (c.omx / cosz * x))
          = omega / cosz * (c.rm * B * y - c.rp * A * x) := by
        field_simp
      rw [e]
      apply mul_nonneg (by positivity)
      have h1 : c.rm * B - c.rp * A = 2 * c.xi * (c.gam.g2 * (c.gam.g3 + r * c.gam.g4)) := by
        rw [eA, eB, G.rm, G.rp, G.gpx, G.gmx]; ring
      have h2 : 0 ≤ c.rm * B := mul_nonneg (G.rm_pos hr1 hr).le hB0
      have h4 : 0 ≤ 2 * c.xi * (c.gam.g2 * (c.gam.g3 + r * c.gam.g4)) :=
        mul_nonneg (by linarith [G.xi_pos])
          (mul_nonneg G.b_pos.le (add_nonneg G.g3 (mul_nonneg hr G.g4)))
      rcases le_total 0 (c.rp * A) with h | h
      · nlinarith
      · nlinarith [mul_nonneg h2 (le_trans hp.le hle), mul_nonneg (neg_nonneg.2 h) hp.le]
    · simp only [zero_mul, Real.exp_zero, mul_one]
      rw [hK]
      have : 2 * c.gam.g2 * c.xi * ((c.alph1 * r - c.alph2) * cosz + c.gam.g4 * r + c.gam.g3)
          = c.rm * B * c.omx - c.rp * A * c.opx := by
        rw [eA, eB, G.a1, G.a2, G.opx, G.omx, G.rm, G.rp, G.gpx, G.gmx]
        linear_combination (2 * cosz * c.xi * c.gam.g3 * r) * G.xi_sq
      have e : 2 * c.gam.g2 * c.xi * (((c.alph1 * r - c.alph2) * cosz + c.gam.g4 * r + c.gam.g3) * omega / (c.omx * c.opx))
          = omega * ((2 * c.gam.g2 * c.xi * ((c.alph1 * r - c.alph2) * cosz + c.gam.g4 * r + c.gam.g3)) / (c.omx * c.opx)) := by
        ring
      rw [e, this]
      field_simp
      ring
  have e0 : Real.exp (tau / cosz) * Real.exp (-tau / cosz) = 1 := by
    rw [← Real.exp_add, neg_div, add_neg_cancel, Real.exp_zero]
  have e1 : Real.exp (tau * (c.xi + 1 / cosz)) = Real.exp (tau / cosz) * Real.exp (tau * c.xi) := by
    rw [← Real.exp_add]; congr 1; ring
  have e2 : Real.exp (tau * (1 / cosz - c.xi)) = Real.exp (tau / cosz) * Real.exp (-tau * c.xi) := by
    rw [← Real.exp_add]; congr 1; ring
  rw [e1, e2] at hQ
  have ht0 : 0 < Real.exp (-tau / cosz) := Real.exp_pos _
  generalize Real.exp (-tau * c.xi) = em at *
  generalize Real.exp (tau * c.xi) = ep at *
  generalize Real.exp (-tau / cosz) = et at *
  generalize Real.exp (tau / cosz) = et' at *
  have hQ' := mul_nonneg ht0.le hQ
  have hr2 : 0 ≤ 2 * et * c.gam.g2 * r * c.xi := by
    have := G.b_pos
    have := G.xi_pos
    positivity
  have key : omega * (ep * c.rm * B / c.opx - em * c.rp * A / c.omx) + 2 * et * c.gam.g2 * (r - K) * c.xi
      = 2 * et * c.gam.g2 * r * c.xi + et * (omega * (c.rm * B / c.opx * (et' * ep)
          - c.rp * A / c.omx * (et' * em)) - 2 * c.gam.g2 * c.xi * K) := by
    linear_combination (- omega * (c.rm * B / c.opx * ep - c.rp * A / c.omx * em)) * e0
  rw [key]
  linarith

end

end Verif.Twostream
