import Mathlib.Analysis.SpecialFunctions.ExpDeriv

/-!
The two-stream equations (Meador and Weaver 1980, equations 1 to 4), the specification of
smrf/envphys/solar/twostream.py. Nothing of the code is modelled here: `Verif.Twostream` has the closed
forms the code evaluates.

Fluxes are relative to the beam reaching a horizontal surface above the layer, so that the beam at the
optical depth `t` is `exp (-t / mu)` on the horizontal.
-/

namespace Verif.TwoEq

/-- A layer: the coefficients of the equations, the single scattering albedo, the cosine of the angle of
the sun. -/
structure Medium where
  g1 : ℝ
  g2 : ℝ
  g3 : ℝ
  g4 : ℝ
  omega : ℝ
  mu : ℝ

/-- The rate of change, with the optical depth, of the diffuse flux going up. -/
noncomputable def Medium.upRate (m : Medium) (t up dn : ℝ) : ℝ :=
  m.g1 * up - m.g2 * dn - m.g3 * (m.omega / m.mu) * Real.exp (-t / m.mu)

/-- The rate of change, with the optical depth, of the diffuse flux going down. -/
noncomputable def Medium.dnRate (m : Medium) (t up dn : ℝ) : ℝ :=
  m.g2 * up - m.g1 * dn + m.g4 * (m.omega / m.mu) * Real.exp (-t / m.mu)

/-- The equations inside the layer, at the optical depths of `s`. -/
structure Inside (m : Medium) (s : Set ℝ) (up dn : ℝ → ℝ) : Prop where
  up_eq : ∀ t ∈ s, HasDerivWithinAt up (m.upRate t (up t) (dn t)) s t
  dn_eq : ∀ t ∈ s, HasDerivWithinAt dn (m.dnRate t (up t) (dn t)) s t

/-- A layer of the optical depth `T` above ground of the reflectance `r`: no diffuse light comes from
above, and the ground reflects the fraction `r` of what reaches it, diffuse and direct. -/
structure Layer (m : Medium) (T r : ℝ) (up dn : ℝ → ℝ) : Prop where
  inside : Inside m (Set.Icc 0 T) up dn
  top : dn 0 = 0
  ground : up T = r * (dn T + Real.exp (-T / m.mu))

/-- A layer without a bottom: the equations at every depth, and fluxes that stay bounded. -/
structure Bottomless (m : Medium) (up dn : ℝ → ℝ) : Prop where
  inside : Inside m (Set.Ici 0) up dn
  top : dn 0 = 0
  bounded : ∃ B, ∀ t, 0 ≤ t → |up t| ≤ B ∧ |dn t| ≤ B

/-- The coefficients of the hybrid approximation (Meador and Weaver 1980, Table 1), `b` being the backscatter
fraction of the beam. -/
noncomputable def table (b mu omega g : ℝ) : Medium where
  g1 := (7 - 3 * g ^ 2 - omega * (4 + 3 * g) + omega * g ^ 2 * (4 * b + 3 * g)) / (4 * (1 - g ^ 2 * (1 - mu)))
  g2 := -(1 - g ^ 2 - omega * (4 - 3 * g) - omega * g ^ 2 * (4 * b + 3 * g - 4)) / (4 * (1 - g ^ 2 * (1 - mu)))
  g3 := b
  g4 := 1 - b
  omega := omega
  mu := mu

end Verif.TwoEq
