import Verif.Calendar
import Mathlib.Analysis.SpecialFunctions.Trigonometric.Arctan
import Mathlib.Analysis.SpecialFunctions.Trigonometric.Inverse
import Mathlib.Analysis.SpecialFunctions.Complex.Arg

/-!
Model of `smrf/envphys/sunang.py`: the solar ephemeris, the checks of `sunpath`, the rotation to the observer and
`sunang` for one position.

Exact real arithmetic; the constant `M_PI` is π. The Kepler loop takes a number of turns.
-/

namespace Verif.Sun

open Verif.Calendar (DT yearday)

/-- Results of the functions: a value, an exception, or not enough turns for the loop. -/
inductive Out (α : Type) where
  | ok (a : α)
  /-- `ZeroDivisionError` -/
  | divZero
  /-- an `assert` fails -/
  | assertion
  /-- `ValueError` -/
  | invalid
  | noFuel

/-- `fmod`: the remainder of the division truncated towards zero. -/
noncomputable def fmod (a b : ℝ) : ℝ := a - b * (if 0 ≤ a / b then (⌊a / b⌋ : ℝ) else ⌈a / b⌉)

/-- `degrd`. sunang.py 165-166. -/
noncomputable def degrd : ℝ := Real.arctan 1 / 45

/-- `TOLERANCE`. sunang.py 9. -/
noncomputable def tolerance : ℝ := 1.1920928955e-07

open Classical in
/-- `dsign`. sunang.py 131-138. -/
noncomputable def dsign (a b : ℝ) : ℝ :=
  let x := if a ≥ 0 then a else -a
  if b ≥ 0 then x else -x

/-- The number of the day: the integer part of `p22`. `int` of the quotient truncates towards zero.
sunang.py 176-177. -/
def dayTerm (year month day : Nat) : Option Int :=
  (yearday year month day).map fun yd : Nat => Int.tdiv (((year : Int) - 1900) * 36525 - 25) 100 + (yd : Int)

/-- Mean longitude. sunang.py 182-186. -/
noncomputable def p24 (p22 p23 : ℝ) : ℝ :=
  fmod (279.69668 + fmod (0.9856473354 * p22) 360 + 3.03e-4 * p23 * p23) 360

/-- Mean anomaly. sunang.py 189-194. -/
noncomputable def p25 (p22 p23 : ℝ) : ℝ :=
  fmod (358.47583 + fmod (0.985600267 * p22) 360 + p23 * p23 * (-1.5e-4 + -3.e-6 * p23)) 360

/-- Eccentricity. sunang.py 197-200. -/
noncomputable def p26 (p23 : ℝ) : ℝ := 0.01675104 + p23 * (-4.18e-5 + -1.26e-7 * p23)

open Classical in
/-- The Kepler loop for the mean anomaly `m` (radians) and the eccentricity `e`, with the value `p12` of the last
turn. sunang.py 204-208. -/
noncomputable def kepler (m e : ℝ) : Nat → ℝ → Out ℝ
  | 0, _ => .noFuel
  | fuel + 1, p13 =>
    let p12 := m + e * Real.sin p13
    if p12 = 0 then .divZero
    else if |(p12 - p13) / p12| < tolerance then .ok p12
    else kepler m e fuel p12

open Classical in
/-- True anomaly in degrees from the eccentric anomaly `p13` in degrees. sunang.py 213-218. -/
noncomputable def p27 (e p13 : ℝ) : ℝ :=
  let v := 2.0 * Real.arctan (Real.sqrt ((1.0 + e) / (1.0 - e)) * Real.tan (p13 / 2.0 * degrd)) / degrd
  let v := if dsign 1 v ≠ dsign 1 (Real.sin (p13 * degrd)) then v + 180 else v
  if v < 0 then v + 360 else v

/-- Radius vector. sunang.py 221. -/
noncomputable def radius (e p13 : ℝ) : ℝ := 1.0 - e * Real.cos (p13 * degrd)

/-- Mean obliquity. sunang.py 227-231. -/
noncomputable def p43 (p23 : ℝ) : ℝ := 23.452294 + p23 * (-0.0130125 + p23 * (-1.64e-6 + 5.03e-7 * p23))

/-- Mean ascension. sunang.py 234-239. -/
noncomputable def p45 (p22 p23 : ℝ) : ℝ :=
  fmod (279.6909832 + fmod (0.98564734 * p22) 360 + 3.8708e-4 * p23 * p23) 360

/-- sunang.py 242-249. -/
noncomputable def p28 (p23 : ℝ) : ℝ :=
  fmod (296.104608 + fmod (1325 * 360 * p23) 360 + p23 * (198.8491083 + p23 * (0.00919167 + 1.4388e-5 * p23))) 360

/-- sunang.py 252-257. -/
noncomputable def p30 (p23 : ℝ) : ℝ :=
  fmod (350.737486 + fmod (1236 * 360 * p23) 360 + p23 * (307.1142167 + 1.436e-3 * p23)) 360

/-- sunang.py 260-265. -/
noncomputable def p31 (p23 : ℝ) : ℝ :=
  fmod (259.183275 + fmod (-5 * 360 * p23) 360 + p23 * (-134.142008 + 2.0778e-3 * p23)) 360

/-- sunang.py 268-273. -/
noncomputable def p32 (p23 : ℝ) : ℝ :=
  fmod (270.434164 + fmod (1336 * 360 * p23) 360 + p23 * (307.8831417 + -1.1333e-3 * p23)) 360

/-- Moon perturbation. sunang.py 276-279. -/
noncomputable def p33 (p23 : ℝ) : ℝ :=
  (6.454 * Real.sin (p30 p23 * degrd) + 0.013 * Real.sin (3 * p30 p23 * degrd) +
    0.177 * Real.sin ((p30 p23 + p28 p23) * degrd) - 0.424 * Real.sin ((p30 p23 - p28 p23) * degrd)) / 3600

/-- Nutation of longitude. sunang.py 282-286. -/
noncomputable def p34 (p22 p23 : ℝ) : ℝ :=
  (-(17.234 - 0.017 * p23) * Real.sin (p31 p23 * degrd) + 0.209 * Real.sin (2 * p31 p23 * degrd) -
    0.204 * Real.sin (2 * p32 p23 * degrd) - 1.257 * Real.sin (2 * p24 p22 p23 * degrd) +
    0.127 * Real.sin (p28 p23 * degrd)) / 3600

/-- Nutation in obliquity. sunang.py 289-291. -/
noncomputable def p35 (p22 p23 : ℝ) : ℝ :=
  (9.214 * Real.cos (p31 p23 * degrd) + 0.546 * Real.cos (2 * p24 p22 p23 * degrd) -
    0.09 * Real.cos (2 * p31 p23 * degrd) + 0.088 * Real.cos (2 * p32 p23 * degrd)) / 3600

/-- Inequalities of long period. sunang.py 294-299. -/
noncomputable def p36 (p23 : ℝ) : ℝ :=
  (0.266 * Real.sin ((31.8 + 119 * p23) * degrd) +
    ((1.882 - 0.016 * p23) * degrd) * Real.sin ((57.24 + 150.27 * p23) * degrd) +
    0.202 * Real.sin ((315.6 + 893.3 * p23) * degrd) + 1.089 * p23 * p23 +
    6.4 * Real.sin ((231.19 + 20.2 * p23) * degrd)) / 3600

/-- Apparent longitude in degrees, from the true anomaly and the radius. sunang.py 224, 302. -/
noncomputable def p41 (p22 p23 anomaly r : ℝ) : ℝ :=
  anomaly - p25 p22 p23 + p24 p22 p23 + -20.47 / r / 3600 + p33 p23 + p36 p23 + p34 p22 p23

open Classical in
/-- Right ascension in degrees from the longitude and the obliquity. sunang.py 307-311. -/
noncomputable def p44 (long obl : ℝ) : ℝ :=
  let v := Real.arctan (Real.tan (long * degrd) * Real.cos (obl * degrd)) / degrd
  let v := if dsign 1 v ≠ dsign 1 (Real.sin (long * degrd)) then v + 180 else v
  if v < 0 then v + 360 else v

/-- Declination in radians. sunang.py 319. -/
noncomputable def declination (long obl : ℝ) : ℝ :=
  Real.arcsin (Real.sin (long * degrd) * Real.sin (obl * degrd))

open Classical in
/-- Hour angle in degrees: equation of time and time of the day. sunang.py 314-316, 323-327. -/
noncomputable def hourAngle (p51 ascension rightAscension : ℝ) : ℝ :=
  let p46 := ascension - rightAscension
  let p46 := if p46 > 180 then p46 - 360 else p46
  let p48 := p51 + p46 - 180
  if p48 > 180 then p48 - 360 else if p48 < -180 then p48 + 360 else p48

/-- The part of `ephemeris` after the Kepler loop; `eccAnomaly` is `p12`. sunang.py 210-330. -/
noncomputable def afterKepler (p51 p22 p23 eccAnomaly : ℝ) : ℝ × ℝ × ℝ :=
  let e := p26 p23
  let p13 := eccAnomaly / degrd
  let r := radius e p13
  let long := p41 p22 p23 (p27 e p13) r
  let obl := p43 p23 + p35 p22 p23
  (declination long obl, -(hourAngle p51 (p45 p22 p23) (p44 long obl)) * degrd, r)

/-- `ephemeris`: declination, longitude of the sun, radius vector. sunang.py 144-330. -/
noncomputable def ephemeris (fuel : Nat) (t : DT) : Out (ℝ × ℝ × ℝ) :=
  match dayTerm t.year t.month t.day with
  | none => .assertion
  | some n =>
    let p51 : ℝ := (t.sec : ℝ) / 10.0 / 24.0
    let p22 : ℝ := (n : ℝ) - 0.5
    let p23 := (p51 / 360 + p22) / 36525
    let p22 := p23 * 36525
    let m := p25 p22 p23 * degrd
    match kepler m (p26 p23) fuel m with
    | .ok x => .ok (afterKepler p51 p22 p23 x)
    | .divZero => .divZero
    | .assertion => .assertion
    | .invalid => .invalid
    | .noFuel => .noFuel

open Classical in
/-- `rotate` for one position: cosine of the zenith angle and azimuth. `arctan2 y x` is the argument of `x + i y`.
sunang.py 351-397. -/
noncomputable def rotate (mu azm muR lamR : ℝ) : Out (ℝ × ℝ) :=
  if mu < -1 ∨ mu > 1 then .invalid
  else if muR < -1 ∨ muR > 1 then .invalid
  else if |azm| > 2 * Real.pi then .invalid
  else if |lamR| > 2 * Real.pi then .invalid
  else
    let omega := lamR - azm
    let sinTheta := Real.sqrt ((1 - mu) * (1 + mu))
    let sinThr := Real.sqrt ((1 - muR) * (1 + muR))
    let cosOmega := Real.cos omega
    .ok (sinTheta * sinThr * cosOmega + mu * muR,
      -(Complex.arg ⟨muR * sinTheta * cosOmega - mu * sinThr, sinTheta * Real.sin omega⟩))

/-- `M_PI_2`. sunang.py 11. -/
noncomputable def mPi2 : ℝ := 2 * Real.pi

open Classical in
/-- `sunpath` for one position, all angles in radians. sunang.py 97-128. -/
noncomputable def sunpath (latitude longitude declin omega : ℝ) : Out (ℝ × ℝ) :=
  if |latitude| > mPi2 then .invalid
  else if |longitude| > Real.pi then .invalid
  else if |declin| > Real.pi * 23.6 / 180 then .invalid
  else if |omega| > Real.pi then .invalid
  else rotate (Real.sin declin) omega (Real.sin latitude) longitude

/-- `sunang` with the position in degrees, before the digits are cut: cosine of the zenith angle, azimuth in degrees,
radius vector. sunang.py 37-44. -/
noncomputable def sunang (fuel : Nat) (t : DT) (latitude longitude : ℝ) : Out (ℝ × ℝ × ℝ) :=
  match ephemeris fuel t with
  | .ok (declin, omega, r) =>
    match sunpath (latitude * Real.pi / 180) (longitude * Real.pi / 180) declin omega with
    | .ok (mu, az) => .ok (mu, az * 180 / Real.pi, r)
    | .divZero => .divZero
    | .assertion => .assertion
    | .invalid => .invalid
    | .noFuel => .noFuel
  | .divZero => .divZero
  | .assertion => .assertion
  | .invalid => .invalid
  | .noFuel => .noFuel

/-- `float('{0:.6f}'.format(mu))`: rounded to six digits (ties as `round`). sunang.py 47. -/
noncomputable def sixDigits (mu : ℝ) : ℝ := (round (mu * 1000000) : ℝ) / 1000000

end Verif.Sun
