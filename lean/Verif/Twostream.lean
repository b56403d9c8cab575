import Mathlib.Analysis.SpecialFunctions.Pow.Real
import Mathlib.Algebra.BigOperators.Fin

/-
Clear-sky radiation: `twostream`, `mwgamma`, `beta_0` (smrf/envphys/solar/twostream.py),
`hysat` (smrf/envphys/thermal/topotherm.py 39-62), `Elevrad`, `toporad`, `stoporad`,
`check_wavelengths` (smrf/envphys/solar/toporad.py).

Real numbers stand for floats. A cell of an array is a real number; arrays are functions from cells.
Divisions of which the divisor can vanish are checked explicitly (numpy gives inf or NaN there, which
the assertions at the end of `twostream` reject).
-/

namespace Verif.Twostream

inductive Err where
  /-- `raise ValueError` -/
  | value
  /-- a failed `assert` -/
  | assertion
  /-- division by zero -/
  | zeroDiv
  deriving DecidableEq

/-! ### beta_0 (twostream.py 170-247) -/

/-- Variables of the loop (twostream.py 200-206). -/
structure Leg where
  pnm2 : ℝ
  pnm1 : ℝ
  fm : ℝ
  gn : ℝ
  sum : ℝ

/-- `for n in range(2, MAXNO)` from `n` on, `left` turns left (twostream.py 211-231). The result is
the sum and the last `n`. -/
noncomputable def legLoop (cosz g : ℝ) : Nat → Nat → Leg → Except Err (ℝ × Nat)
  | 0, n, s => .ok (s.sum, n - 1)
  | left + 1, n, s =>
    let pn := ((2 * n - 1) * cosz * s.pnm1 + (1 - n) * s.pnm2) / n
    if n % 2 = 1 then
      let sum := s.sum + s.gn * s.fm * pn
      if sum = 0 then .error .zeroDiv
      else if |(sum - s.sum) / sum| < 1 / 10 ^ 9 ∧ sum ≤ 1 then .ok (sum, n)
      else
        let m : ℝ := (n - 1) / 2
        legLoop cosz g left (n + 1)
          ⟨s.pnm1, pn, s.fm * (-(2 * m + 1) / (2 * (m + 2))),
            s.gn * (g * g * (4 * m + 7) / (4 * m + 3)), sum⟩
    else legLoop cosz g left (n + 1) ⟨s.pnm1, pn, s.fm, s.gn, s.sum⟩

def maxno : Nat := 2048

/-- `beta_0` (twostream.py 170-247). -/
noncomputable def beta0 (cosz g : ℝ) : Except Err ℝ :=
  if 0 < cosz ∧ cosz ≤ 1 then
    if 0 ≤ g ∧ g ≤ 1 then
      if g ≠ 0 ∧ cosz ≠ 0 then
        match legLoop cosz g (maxno - 2) 2 ⟨1, cosz, -1 / 8, 7 * g * g * g, 3 * g * cosz / 2⟩ with
        | .error e => .error e
        | .ok (s, n) =>
          if n = maxno then .ok ((1 - (if 1 < s then 1 else s)) / 2)
          else if 0 ≤ s ∧ s ≤ 1 then .ok ((1 - s) / 2)
          else .error .assertion
      else .ok ((1 - 0) / 2)
    else .error .assertion
  else .error .assertion

/-! ### mwgamma (twostream.py 131-167) -/

/-- The four gammas. -/
structure Gam where
  g1 : ℝ
  g2 : ℝ
  g3 : ℝ
  g4 : ℝ

/-- The Horner expressions (twostream.py 151-166) for a given `b0`. -/
noncomputable def hybrid (b0 cosz omega g : ℝ) : Gam :=
  let hd := 4 * (1 - g * g * (1 - cosz))
  if g = 1 then
    ⟨(g * ((3 * (g - 1) + 4 * b0) * g - 3) + 3) / hd,
     (g * ((3 * (g - 1) + 4 * b0) * g - 3) + 3) / hd, b0, 1 - b0⟩
  else
    ⟨(g * (g * ((3 * g + 4 * b0) * omega - 3) - 3 * omega) - 4 * omega + 7) / hd,
     (g * (g * ((3 * g + 4 * (b0 - 1)) * omega + 1) - 3 * omega) + 4 * omega - 1) / hd, b0, 1 - b0⟩

/-- `mwgamma` (twostream.py 131-167). The divisor `hd` is positive for the arguments that pass the
assertions of `beta_0` (`hd_pos`). -/
noncomputable def mwgamma (cosz omega g : ℝ) : Except Err Gam :=
  match beta0 cosz g with
  | .error e => .error e
  | .ok b0 => .ok (hybrid b0 cosz omega g)

/-! ### twostream (twostream.py 4-128) -/

/-- The values of one cell of the result. -/
structure Cell where
  refl : ℝ
  trans : ℝ
  btrans : ℝ

/-- Everything that does not depend on the optical depth (twostream.py 59-88). -/
structure Coef where
  gam : Gam
  xi : ℝ
  gam1 : ℝ
  alph1 : ℝ
  alph2 : ℝ
  gpx : ℝ
  gmx : ℝ
  opx : ℝ
  omx : ℝ
  rm : ℝ
  rp : ℝ

/-- twostream.py 56-88. -/
noncomputable def coef (cosz omega g r0 : ℝ) : Except Err Coef :=
  let r := if r0 < 0 then 0 else r0
  match mwgamma cosz omega g with
  | .error e => .error e
  | .ok γ =>
    if γ.g1 < γ.g2 then .error .value
    else
      let gam1 := if γ.g1 = γ.g2 then γ.g1 + 22204460492503131 / 10 ^ 32 else γ.g1
      let xi := Real.sqrt ((gam1 - γ.g2) * (γ.g2 + gam1))
      .ok { gam := γ, xi := xi, gam1 := gam1
            alph1 := γ.g1 * γ.g4 + γ.g2 * γ.g3
            alph2 := γ.g2 * γ.g4 + γ.g1 * γ.g3
            gpx := xi + gam1, gmx := gam1 - xi
            opx := cosz * xi + 1, omx := 1 - cosz * xi
            rm := γ.g2 - (gam1 - xi) * r, rp := γ.g2 - (xi + gam1) * r }

/-- `tau[idx] = 1e15` where `tau == 0` (twostream.py 53-54). -/
noncomputable def depth (tau : ℝ) : ℝ := if tau = 0 then 10 ^ 15 else tau

/-- `denrt` (twostream.py 91). -/
noncomputable def denrt (c : Coef) (tau : ℝ) : ℝ :=
  Real.exp (tau * c.xi) * c.gpx * c.rm - Real.exp (-tau * c.xi) * c.gmx * c.rp

/-- Is the cell treated as semi-infinite? (twostream.py 111). The first alternative, `em == 0` and
`et == 0`, is about underflow; exponentials of reals are positive, so it never holds here. -/
def SemiInf (c : Coef) (cosz tau : ℝ) : Prop :=
  (Real.exp (-tau * c.xi) = 0 ∧ Real.exp (-tau / cosz) = 0) ∨ 10 ^ 15 ≤ Real.exp (tau * c.xi)

open Classical in
/-- One cell: twostream.py 77-114 (`tau` after `depth`, `r0` after the clipping at zero). -/
noncomputable def cell (c : Coef) (cosz omega r0 tau : ℝ) : Except Err Cell :=
  let r := if r0 < 0 then 0 else r0
  let em := Real.exp (-tau * c.xi)
  let et := Real.exp (-tau / cosz)
  let ep := Real.exp (tau * c.xi)
  if SemiInf c cosz tau then
    if c.gpx * c.opx = 0 then .error .zeroDiv
    else .ok ⟨omega * (c.gam.g3 * c.xi + c.alph2) / (c.gpx * c.opx), 0, 0⟩
  else if c.omx = 0 ∨ c.opx = 0 ∨ denrt c tau = 0 then .error .zeroDiv
  else .ok
    { refl := (omega * (ep * c.rm * (c.gam.g3 * c.xi + c.alph2) / c.opx
                 - em * c.rp * (c.alph2 - c.gam.g3 * c.xi) / c.omx)
               + 2 * et * c.gam.g2
                 * (r - ((c.alph1 * r - c.alph2) * cosz + c.gam.g4 * r + c.gam.g3) * omega
                        / (c.omx * c.opx)) * c.xi) / denrt c tau
      trans := (et * (ep * c.gpx * (c.gam.g2 - omega * (c.alph2 - c.gam.g3 * c.xi) / c.omx)
                  - em * c.gmx * (c.gam.g2 - omega * (c.gam.g3 * c.xi + c.alph2) / c.opx))
                + 2 * c.gam.g2 * (c.alph1 * cosz + c.gam.g4) * omega * c.xi
                  / (c.omx * c.opx)) / denrt c tau
      btrans := et }

/-- The assertions on a cell (twostream.py 116-119). -/
def Passes (cosz : ℝ) (x : Cell) : Prop :=
  0 ≤ x.refl ∧ 0 ≤ x.trans ∧ 0 ≤ x.btrans ∧ x.btrans * cosz ≤ x.trans

/-- The values returned (twostream.py 121-128) for one cell. -/
structure Out where
  refl : ℝ
  trans : ℝ
  btrans : ℝ
  upwelling : ℝ
  bottom : ℝ
  normal : ℝ

def Out.zero : Out := ⟨0, 0, 0, 0, 0, 0⟩

open Classical in
/-- `twostream` at one cell (twostream.py 4-128). The assertions are over the whole array; an array
passes when every cell does (`twostreamAll`). -/
noncomputable def twostream (cosz s0 tau omega g r0 : ℝ) : Except Err Out :=
  if cosz ≤ 0 then .ok Out.zero
  else if s0 ≤ 0 then .error .value
  else
    match coef cosz omega g r0 with
    | .error e => .error e
    | .ok c =>
      match cell c cosz omega r0 (depth tau) with
      | .error e => .error e
      | .ok x =>
        if Passes cosz x then
          .ok ⟨x.refl, x.trans, x.btrans, x.refl * cosz * s0, x.trans * cosz * s0, x.btrans * s0⟩
        else .error .assertion

open Classical in
/-- `twostream` on an array of optical depths: an error at any cell is an error of the call. -/
noncomputable def twostreamAll {ι : Type} (cosz s0 : ℝ) (tau : ι → ℝ) (omega g r0 : ℝ) :
    Except Err (ι → Out) :=
  if h : ∃ i e, twostream cosz s0 (tau i) omega g r0 = .error e then .error h.choose_spec.choose
  else .ok fun i => match twostream cosz s0 (tau i) omega g r0 with
    | .ok o => o
    | .error _ => Out.zero

/-! ### Elevrad, toporad, stoporad (smrf/envphys/solar/toporad.py) -/

noncomputable def seaLevel : ℝ := 1013246 / 10
noncomputable def stdAirtmp : ℝ := 288
noncomputable def stdLapse : ℝ := -65 / 10
noncomputable def gravity : ℝ := 980665 / 100000
noncomputable def molAir : ℝ := 289644 / 10000
noncomputable def rgas : ℝ := 831432 / 100

/-- `hysat` (topotherm.py 39-62). -/
noncomputable def hysat (pb tb l h g m : ℝ) : ℝ :=
  if l = 0 then pb * Real.exp (-g * m * h * 1000 / (rgas * tb))
  else pb * (tb / (tb + l * h)) ^ (g * m / (rgas * l * (1 / 1000)))

/-- `tau_domain` (toporad.py 182-189): optical depth at an elevation (m). -/
noncomputable def tauAt (tau tauElevation elevation : ℝ) : ℝ :=
  tau * hysat seaLevel stdAirtmp stdLapse (elevation / 1000) gravity molAir
    / hysat seaLevel stdAirtmp stdLapse (tauElevation / 1000) gravity molAir

/-- `Elevrad.beam` and `Elevrad.diffuse` (toporad.py 200-205). -/
def elevrad (s0 cosz : ℝ) (o : Out) : ℝ × ℝ :=
  (s0 * o.btrans, s0 * cosz * (o.trans - o.btrans))

/-- `toporad` (toporad.py 93-124), one cell. -/
def toporad (beam diffuse illum svf tcf cosz alb : ℝ) : ℝ × ℝ :=
  let drad := diffuse * svf
  let drad := drad + (diffuse * (1 - svf) + beam * cosz) * tcf * alb
  let rad := drad + beam * illum
  (rad, drad)

inductive Band where
  | vis | ir
  deriving DecidableEq

/-- `check_wavelengths` (toporad.py 12-23), with the limits of constants.py 1-4. -/
noncomputable def checkWavelengths (a b : ℝ) : Except Err Band :=
  if 28 / 100 ≤ a ∧ b ≤ 7 / 10 then .ok .vis
  else if 7 / 10 ≤ a ∧ b ≤ 28 / 10 then .ok .ir
  else .error .value

/-- The terrain of a cell (load_topo.py). -/
structure Topo (ι : Type) where
  dem : ι → ℝ
  svf : ι → ℝ
  tcf : ι → ℝ

/-- Solar settings passed to `stoporad` (distribute/solar.py 514-525). -/
structure Clear where
  tauElevation : ℝ
  tau : ℝ
  omega : ℝ
  gamma : ℝ

open Classical in
/-- `stoporad` (toporad.py 26-90). The exoatmospheric irradiance `s0` (`direct_solar_irradiance`, a
numerical integral of scipy) and the mask of cells hidden by the horizon (`topocalc.horizon`) are
arguments. `np.mean(albedo_surface)` is the sum over the cells divided by their number. -/
noncomputable def stoporad {ι : Type} [Fintype ι] (p : Clear) (topo : Topo ι) (s0 cosz : ℝ)
    (hidden : ι → Prop) (illum alb : ι → ℝ) (lo hi : ℝ) : Except Err (ι → ℝ × ℝ) :=
  match checkWavelengths lo hi with
  | .error e => .error e
  | .ok _ =>
    if cosz < 0 then .ok fun _ => (0, 0)
    else
      let ill := fun i => if hidden i then 0 else illum i
      let r0 := (∑ i, alb i) / Fintype.card ι
      match twostreamAll cosz s0 (fun i => tauAt p.tau p.tauElevation (topo.dem i)) p.omega p.gamma r0 with
      | .error e => .error e
      | .ok o => .ok fun i =>
          let e := elevrad s0 cosz (o i)
          toporad e.1 e.2 (ill i) (topo.svf i) (topo.tcf i) cosz (alb i)

end Verif.Twostream
