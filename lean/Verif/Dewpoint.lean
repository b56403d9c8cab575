import Verif.Vapor

/-!
Model of the dew-point solver of `smrf/envphys/core/dewpt.c`. The root finder is written for an
arbitrary function `f`; the code uses `f t = e - sati(t)`. Real arithmetic: the conversion of the
result to `float` and the rounding of the iterates are not modelled.
-/

namespace Verif.Dewpoint
open Verif.Vapor

/-- `while (e < sati(a)) a *= .75;` with at most `fuel` rounds; `none` while the loop is still
running. `smrf/envphys/core/dewpt.c:79-82`. -/
noncomputable def lowerLoop (e : ℝ) : Nat → ℝ → Option ℝ
  | 0, a => if e < sat a then none else some a
  | n + 1, a => if e < sat a then lowerLoop e n (a * (3 / 4)) else some a

/-- `while (e > sati(b)) b *= 1.25;`. `smrf/envphys/core/dewpt.c:84-87`. -/
noncomputable def upperLoop (e : ℝ) : Nat → ℝ → Option ℝ
  | 0, b => if sat b < e then none else some b
  | n + 1, b => if sat b < e then upperLoop e n (b * (5 / 4)) else some b

/-- The variables of the loop of `zerobr`. `smrf/envphys/core/dewpt.c:103-118`. -/
structure St where
  a : ℝ
  b : ℝ
  c : ℝ
  d : ℝ
  e : ℝ
  fa : ℝ
  fb : ℝ
  fc : ℝ

/-- The two ends have a function value of the same sign, as the code tests it. -/
def same (x y : ℝ) : Prop := (0 < x ∧ 0 < y) ∨ (x ≤ 0 ∧ y ≤ 0)

open Classical in
/-- First `if`: take `a` as the other end of the bracket. `smrf/envphys/core/dewpt.c:151-155`. -/
noncomputable def rebracket (s : St) : St :=
  if same s.fb s.fc then { s with c := s.a, fc := s.fa, d := s.b - s.a, e := s.b - s.a } else s

/-- Second `if`: make `b` the end with the smaller value. `smrf/envphys/core/dewpt.c:157-164`. -/
noncomputable def order (s : St) : St :=
  if |s.fc| < |s.fb| then
    { s with a := s.b, b := s.c, c := s.b, fa := s.fb, fb := s.fc, fc := s.fb }
  else s

/-- `p` and `q` of the interpolation, before the sign is moved to `q`.
`smrf/envphys/core/dewpt.c:177-190`. -/
noncomputable def interp (s : St) (m : ℝ) : ℝ × ℝ :=
  let r := s.fb / s.fa
  if s.a = s.c then (2 * m * r, 1 - r)
  else
    let q := s.fa / s.fc
    let r' := s.fb / s.fc
    (r * (2 * m * q * (q - r') - (s.b - s.a) * (r' - 1)), (q - 1) * ((r' - 1) * (r - 1)))

/-- The step `d` and the remembered step `e`. `smrf/envphys/core/dewpt.c:172-203`. -/
noncomputable def choose (s : St) (tol m : ℝ) : ℝ × ℝ :=
  if |s.e| < tol ∨ |s.fa| ≤ |s.fb| then (m, m)
  else
    let pq := interp s m
    let p := if 0 < pq.1 then pq.1 else -pq.1
    let q := if 0 < pq.1 then -pq.2 else pq.2
    if 2 * p < 3 * m * q - |tol * q| ∧ p < |s.e * q / 2| then (p / q, s.d) else (m, m)

/-- Move `b`. `smrf/envphys/core/dewpt.c:205-213`. -/
noncomputable def advance (s : St) (tol m d : ℝ) : ℝ :=
  if tol < |d| then s.b + d else if 0 < m then s.b + tol else s.b - tol

/-- One round of the loop: the returned value, or the next state.
`smrf/envphys/core/dewpt.c:149-219`. -/
noncomputable def round (f : ℝ → ℝ) (meps t : ℝ) (s0 : St) : ℝ ⊕ St :=
  let s := order (rebracket s0)
  let tol := meps * |s.b| + t
  let m := (s.c - s.b) / 2
  if |m| < tol ∨ s.fb = 0 then .inl s.b
  else
    let de := choose s tol m
    let b' := advance s tol m de.1
    .inr ⟨s.b, b', s.c, de.1, de.2, s.fb, f b', s.fc⟩

/-- How `zerobr` ends. In the last two cases the C function prints a message and returns 0. -/
inductive Result where
  | root (x : ℝ)
  | notSpanned
  | noConvergence

/-- `while (maxfun--)`. -/
noncomputable def loop (f : ℝ → ℝ) (meps t : ℝ) : Nat → St → Result
  | 0, _ => .noConvergence
  | n + 1, s => match round f meps t s with
    | .inl x => .root x
    | .inr s' => loop f meps t n s'

/-- The first tolerance, also used (in pascal) on the function values.
`smrf/envphys/core/dewpt.c:129-130`. -/
noncomputable def tol0 (meps t a b : ℝ) : ℝ :=
  5 / 10 * t + 2 * meps * (if |a| ≤ |b| then |b| else |a|)

/-- `maxfun`. `smrf/envphys/core/dewpt.c:131-132`. -/
noncomputable def maxfun (meps t a b : ℝ) : Nat :=
  let s := Real.log (|b - a| / tol0 meps t a b) / Real.log 2
  ⌊s * s + 1⌋₊

/-- `zerobr`. `smrf/envphys/core/dewpt.c:97-228`. -/
noncomputable def zerobr (f : ℝ → ℝ) (meps t a b : ℝ) : Result :=
  if a = b then .root a
  else if |f b| ≤ tol0 meps t a b then .root b
  else if |f a| ≤ tol0 meps t a b then .root a
  else if 0 < f b * f a then .notSpanned
  else loop f meps t (maxfun meps t a b) ⟨a, b, 0, 0, 0, f a, f b, f b⟩

/-- `dew_pointp`, given that both bracketing loops end within `fuel` rounds (`none` otherwise). The
range check only prints a message. `smrf/envphys/core/dewpt.c:64-93`. -/
noncomputable def dewPoint (fuel : Nat) (e meps tol : ℝ) : Option Result :=
  match lowerLoop e fuel freeze with
  | none => none
  | some a =>
    match upperLoop e fuel (freeze + 15) with
    | none => none
    | some b => some (zerobr (fun t => e - sat t) meps tol a b)

end Verif.Dewpoint
