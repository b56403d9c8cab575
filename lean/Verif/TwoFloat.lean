import Verif.Twostream

/-!
The coefficients of the two-stream model with a rounding `ρ` after every operation of the code. Whole numbers that occur in the code are
exact. The exponentials of the optical depth are not part of this file.
-/

namespace Verif.TwoFloat
open Verif.Twostream

/-- The loop of `beta_0` with rounding. `m` and the expressions in `m` alone are whole numbers. smrf/envphys/solar/twostream.py 211-231. -/
noncomputable def legLoop (ρ : ℝ → ℝ) (cosz g : ℝ) : Nat → Nat → Leg → Except Err (ℝ × Nat)
  | 0, n, s => .ok (s.sum, n - 1)
  | left + 1, n, s =>
    let pn := ρ (ρ (ρ (ρ ((2 * n - 1) * cosz) * s.pnm1) + ρ ((1 - n) * s.pnm2)) / n)
    if n % 2 = 1 then
      let sum := ρ (s.sum + ρ (ρ (s.gn * s.fm) * pn))
      if sum = 0 then .error .zeroDiv
      else if |ρ (ρ (sum - s.sum) / sum)| < ρ (1 / 10 ^ 9) ∧ sum ≤ 1 then .ok (sum, n)
      else
        let m : ℝ := (n - 1) / 2
        legLoop ρ cosz g left (n + 1)
          ⟨s.pnm1, pn, ρ (s.fm * ρ (-(2 * m + 1) / (2 * (m + 2)))),
            ρ (s.gn * ρ (ρ (ρ (g * g) * (4 * m + 7)) / (4 * m + 3))), sum⟩
    else legLoop ρ cosz g left (n + 1) ⟨s.pnm1, pn, s.fm, s.gn, s.sum⟩

/-- `beta_0` with rounding. twostream.py 192-247. -/
noncomputable def beta0 (ρ : ℝ → ℝ) (cosz g : ℝ) : Except Err ℝ :=
  if 0 < cosz ∧ cosz ≤ 1 then
    if 0 ≤ g ∧ g ≤ 1 then
      if g ≠ 0 ∧ cosz ≠ 0 then
        match legLoop ρ cosz g (maxno - 2) 2 ⟨1, cosz, -1 / 8, ρ (ρ (ρ (7 * g) * g) * g), ρ (ρ (ρ (3 * g) * cosz) / 2)⟩ with
        | .error e => .error e
        | .ok (s, n) =>
          if n = maxno then .ok (ρ (ρ (1 - (if 1 < s then 1 else s)) / 2))
          else if 0 ≤ s ∧ s ≤ 1 then .ok (ρ (ρ (1 - s) / 2))
          else .error .assertion
      else .ok (ρ (ρ (1 - 0) / 2))
    else .error .assertion
  else .error .assertion

/-- `hd`. twostream.py 152. -/
noncomputable def hd (ρ : ℝ → ℝ) (cosz g : ℝ) : ℝ := ρ (4 * ρ (1 - ρ (ρ (g * g) * ρ (1 - cosz))))

/-- The numerator of `g1`, `g` different from one. twostream.py 158-159. -/
noncomputable def upper (ρ : ℝ → ℝ) (b0 omega g : ℝ) : ℝ :=
  ρ (ρ (ρ (g * ρ (ρ (g * ρ (ρ (ρ (ρ (3 * g) + ρ (4 * b0)) * omega) - 3)) - ρ (3 * omega))) - ρ (4 * omega)) + 7)

/-- The numerator of `g2`, `g` different from one. twostream.py 161-162. -/
noncomputable def lower (ρ : ℝ → ℝ) (b0 omega g : ℝ) : ℝ :=
  ρ (ρ (ρ (g * ρ (ρ (g * ρ (ρ (ρ (ρ (3 * g) + ρ (4 * ρ (b0 - 1))) * omega) + 1)) - ρ (3 * omega))) + ρ (4 * omega)) - 1)

/-- `g1` and `g2` for a given `b0`; python raises an exception when the divisor is zero. twostream.py 152-162. -/
noncomputable def hybrid (ρ : ℝ → ℝ) (b0 cosz omega g : ℝ) : Except Err (ℝ × ℝ) :=
  if hd ρ cosz g = 0 then .error .zeroDiv
  else if g = 1 then
    let v := ρ (ρ (ρ (g * ρ (ρ (ρ (ρ (3 * ρ (g - 1)) + ρ (4 * b0)) * g) - 3)) + 3) / hd ρ cosz g)
    .ok (v, v)
  else .ok (ρ (upper ρ b0 omega g / hd ρ cosz g), ρ (lower ρ b0 omega g / hd ρ cosz g))

/-- What the code computes from the gammas. -/
structure Exponent where
  gam1 : ℝ
  gam2 : ℝ
  xi : ℝ

/-- The gammas, their comparison, the addition for conservative scattering and the exponent `xi`. twostream.py 60-78. -/
noncomputable def exponent (ρ : ℝ → ℝ) (cosz omega g : ℝ) : Except Err Exponent :=
  match beta0 ρ cosz g with
  | .error e => .error e
  | .ok b0 =>
    match hybrid ρ b0 cosz omega g with
    | .error e => .error e
    | .ok (g1, g2) =>
      if g1 < g2 then .error .value
      else
        let gam1 := if g1 = g2 then ρ (g1 + ρ (22204460492503131 / 10 ^ 32)) else g1
        .ok ⟨gam1, g2, ρ (Real.sqrt (ρ (ρ (gam1 - g2) * ρ (g2 + gam1))))⟩

end Verif.TwoFloat
