import Verif.Sun
import Verif.IdwFloatProps

/-!
The digits of the position of the sun that are kept: `sunang` prints its three results with six decimals or five significant digits and
reads the text back. Python prints the correctly rounded decimal number (ties to even) of the exact value of the `double`, sign first, and
`float` returns the `double` nearest to the text. The rounding of the `double` arithmetic before is not modelled.
-/

namespace Verif.SunDigits

open Classical in
/-- The integer nearest to a number that is not negative; the even one of two. Rounding of `format`. smrf/envphys/sunang.py 47-49. -/
noncomputable def nearestEven (x : ℝ) : ℤ :=
  if Int.fract x < 1 / 2 then ⌊x⌋ else if 1 / 2 < Int.fract x then ⌊x⌋ + 1 else if Even ⌊x⌋ then ⌊x⌋ else ⌊x⌋ + 1

/-- The digits of `'{0:.nf}'` of a number that is not negative. sunang.py 47. -/
noncomputable def fixed (n : ℕ) (x : ℝ) : ℝ := (nearestEven (x * 10 ^ n) : ℝ) / 10 ^ n

open Classical in
/-- The digits of `'{0:.ng}'` of a number that is not negative: `n` digits from the first one that is not zero. sunang.py 48-49. -/
noncomputable def general (n : ℕ) (x : ℝ) : ℝ :=
  if x = 0 then 0 else
    (nearestEven (x * (10 : ℝ) ^ ((n : ℤ) - 1 - Int.log 10 x)) : ℝ) * (10 : ℝ) ^ (Int.log 10 x - ((n : ℤ) - 1))

open Classical in
/-- `float('...'.format(x))`: the sign is printed first, then the digits of the absolute value; `float` takes the nearest `double`.
`-0.0` and `0.0` are one number here; every comparison in the code takes them for equal. sunang.py 47-49. -/
noncomputable def reread (digits : ℝ → ℝ) (x : ℝ) : ℝ :=
  IdwFloat.binary 53 (if x < 0 then -digits (-x) else digits x)

/-- `float('{0:.6f}'.format(mu))`. sunang.py 47. -/
noncomputable def cosine (mu : ℝ) : ℝ := reread (fixed 6) mu

/-- `float('{0:.5g}'.format(azimuth))`. sunang.py 48. -/
noncomputable def azimuth (az : ℝ) : ℝ := reread (general 5) az

/-- `float('{0:.5g}'.format(rad_vec))`. sunang.py 49. -/
noncomputable def radius (r : ℝ) : ℝ := reread (general 5) r

/-- `sunang` with its last statement; `array` says that the position is given by arrays. sunang.py 37-51. -/
noncomputable def sunang (truncate array : Bool) (fuel : Nat) (t : Calendar.DT) (latitude longitude : ℝ) : Sun.Out (ℝ × ℝ × ℝ) :=
  match Sun.sunang fuel t latitude longitude with
  | .ok (mu, az, r) => if truncate && !array then .ok (cosine mu, azimuth az, radius r) else .ok (mu, az, r)
  | .divZero => .divZero
  | .assertion => .assertion
  | .invalid => .invalid
  | .noFuel => .noFuel

end Verif.SunDigits
