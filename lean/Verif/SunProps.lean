import Verif.SunLemmas
import Verif.CalendarProps
import Mathlib.Data.Int.NatPrime
import Mathlib.RingTheory.Int.Basic
import Mathlib.Algebra.Order.Round

/-!
Sun angle: the cosine of the zenith angle and the azimuth (C67), the checks of the position (C68), the Kepler loop
(C69), the day number (C93).
-/

namespace Verif.Sun

open Verif.Calendar (DT yearday ordinal)

/-! ### Specification: unit vectors of the sun and of the observer -/

/-- Scalar product. -/
def dot (a b : ℝ × ℝ × ℝ) : ℝ := a.1 * b.1 + a.2.1 * b.2.1 + a.2.2 * b.2.2

/-- The direction with the given elevation above the equator and the given longitude. -/
noncomputable def direction (elevation long : ℝ) : ℝ × ℝ × ℝ :=
  (Real.cos elevation * Real.cos long, Real.cos elevation * Real.sin long, Real.sin elevation)

/-- East at the given longitude. -/
noncomputable def east (long : ℝ) : ℝ × ℝ × ℝ := (-Real.sin long, Real.cos long, 0)

/-- South at the given place. -/
noncomputable def south (lat long : ℝ) : ℝ × ℝ × ℝ :=
  (Real.sin lat * Real.cos long, Real.sin lat * Real.sin long, -Real.cos lat)

/-- North pole, equator and longitude as usual: south is orthogonal to the zenith and to east. -/
example (lat long : ℝ) : dot (south lat long) (direction lat long) = 0 ∧ dot (south lat long) (east long) = 0 ∧
    dot (direction lat long) (east long) = 0 := by
  have h1 := Real.sin_sq_add_cos_sq long
  refine ⟨?_, ?_, ?_⟩ <;> simp only [dot, south, direction, east]
  · linear_combination (Real.sin lat * Real.cos lat) * h1
  · ring
  · ring

theorem sqrt_one_sub {x : ℝ} (h : -(Real.pi / 2) ≤ x ∧ x ≤ Real.pi / 2) :
    Real.sqrt ((1 - Real.sin x) * (1 + Real.sin x)) = Real.cos x := by
  have h1 : (1 - Real.sin x) * (1 + Real.sin x) = Real.cos x ^ 2 := by
    have := Real.sin_sq_add_cos_sq x
    nlinarith
  rw [h1, Real.sqrt_sq (Real.cos_nonneg_of_neg_pi_div_two_le_of_le h.1 h.2)]

theorem abs_pair {a b c d : ℝ} (h : a ^ 2 + b ^ 2 + c ^ 2 = 1 - d ^ 2) : |d| ≤ 1 := by
  rw [abs_le]
  constructor <;> nlinarith [sq_nonneg a, sq_nonneg b, sq_nonneg c, sq_nonneg (d - 1), sq_nonneg (d + 1)]

/-- C67: whenever `rotate` returns, the cosine is one: the square root and the arc cosine of later code are
defined. -/
theorem C67_cosine (mu azm muR lamR m a : ℝ) (h : rotate mu azm muR lamR = .ok (m, a)) : |m| ≤ 1 := by
  unfold rotate at h
  by_cases h1 : mu < -1 ∨ mu > 1
  · rw [if_pos h1] at h; cases h
  by_cases h2 : muR < -1 ∨ muR > 1
  · rw [if_neg h1, if_pos h2] at h; cases h
  rw [if_neg h1, if_neg h2] at h
  split at h
  · cases h
  split at h
  · cases h
  simp only [Out.ok.injEq, Prod.mk.injEq] at h
  rw [not_or, not_lt, not_lt] at h1 h2
  have s1 := Real.sq_sqrt (show 0 ≤ (1 - mu) * (1 + mu) by nlinarith)
  have s2 := Real.sq_sqrt (show 0 ≤ (1 - muR) * (1 + muR) by nlinarith)
  set p := Real.sqrt ((1 - mu) * (1 + mu))
  set q := Real.sqrt ((1 - muR) * (1 + muR))
  have s3 := Real.sin_sq_add_cos_sq (lamR - azm)
  set C := Real.cos (lamR - azm)
  set S := Real.sin (lamR - azm)
  rw [← h.1]
  apply abs_pair (a := p * S) (b := muR * p * C - mu * q) (c := 0)
  linear_combination (p ^ 2) * s3 + s1 + (mu ^ 2 + p ^ 2 * C ^ 2) * s2

/-- The sun 60 degrees from the zenith, from the west. -/
example : ∃ m a, rotate (1 / 2) 1 (1 / 2) (-1) = .ok (m, a) := by
  unfold rotate
  rw [if_neg (by norm_num), if_neg (by norm_num), if_neg (by have := Real.pi_gt_three; rw [abs_one]; linarith),
    if_neg (by have := Real.pi_gt_three; rw [abs_neg, abs_one]; linarith)]
  exact ⟨_, _, rfl⟩

/-- C67: the cosine stays within bounds when it is written with six digits. -/
theorem C67_digits (mu : ℝ) (h : |mu| ≤ 1) : |sixDigits mu| ≤ 1 ∧ |sixDigits mu - mu| ≤ 5e-7 := by
  rw [abs_le] at h
  unfold sixDigits
  have h1 : round (mu * 1000000) ≤ 1000000 := by
    have := Int.floor_lt (a := mu * 1000000 + 1 / 2) (z := 1000001)
    rw [round_eq]
    have := this.2 (by push_cast; nlinarith)
    omega
  have h2 : -1000000 ≤ round (mu * 1000000) := by
    rw [round_eq, Int.le_floor]
    push_cast; nlinarith
  have h1' : (round (mu * 1000000) : ℝ) ≤ 1000000 := by exact_mod_cast h1
  have h2' : (-1000000 : ℝ) ≤ round (mu * 1000000) := by exact_mod_cast h2
  have h3 := abs_le.1 (abs_sub_round (mu * 1000000))
  refine ⟨?_, ?_⟩
  · rw [abs_le]; constructor
    · rw [le_div_iff₀ (by norm_num)]; linarith
    · rw [div_le_iff₀ (by norm_num)]; linarith
  · rw [abs_le]; norm_num
    constructor <;> linarith [h3.1, h3.2]

/-- C67: for a place with a latitude between the poles `sunpath` returns the scalar product of the directions of the
sun and the zenith, and the azimuth of the sun counted from south towards east. -/
theorem C67_position (lat long declin omega m a : ℝ) (hl : -(Real.pi / 2) ≤ lat ∧ lat ≤ Real.pi / 2)
    (h : sunpath lat long declin omega = .ok (m, a)) :
    m = dot (direction declin omega) (direction lat long) ∧ |m| ≤ 1 ∧
      dot (direction declin omega) (south lat long) = Real.sqrt (1 - m ^ 2) * Real.cos a ∧
      dot (direction declin omega) (east long) = Real.sqrt (1 - m ^ 2) * Real.sin a ∧
      -Real.pi ≤ a ∧ a < Real.pi := by
  unfold sunpath at h
  by_cases hd : |declin| > Real.pi * 23.6 / 180
  · split at h
    · cases h
    · split at h
      · cases h
      · cases h
  rw [if_neg hd] at h
  have hpi := Real.pi_pos
  have hd' : -(Real.pi / 2) ≤ declin ∧ declin ≤ Real.pi / 2 := by
    rw [not_lt, abs_le] at hd
    constructor <;> norm_num at hd <;> linarith [hd.1, hd.2]
  split at h
  · cases h
  split at h
  · cases h
  split at h
  · cases h
  have hm := C67_cosine _ _ _ _ _ _ h
  unfold rotate at h
  split at h
  · cases h
  split at h
  · cases h
  split at h
  · cases h
  split at h
  · cases h
  simp only [Out.ok.injEq, Prod.mk.injEq, sqrt_one_sub hl, sqrt_one_sub hd'] at h
  obtain ⟨e1, e2⟩ := h
  have ec := Real.cos_sub long omega
  have es := Real.sin_sub long omega
  have em : m = dot (direction declin omega) (direction lat long) := by
    rw [← e1, ec]; simp only [dot, direction]; ring
  have p1 := Real.sin_sq_add_cos_sq (long - omega)
  have p2 := Real.sin_sq_add_cos_sq lat
  have p3 := Real.sin_sq_add_cos_sq declin
  set z : ℂ := ⟨Real.sin lat * Real.cos declin * Real.cos (long - omega) - Real.sin declin * Real.cos lat,
    Real.cos declin * Real.sin (long - omega)⟩ with hz
  have hn : ‖z‖ = Real.sqrt (1 - m ^ 2) := by
    rw [Complex.norm_def, Complex.normSq_apply]
    congr 1
    rw [← e1, hz]
    simp only
    linear_combination (Real.cos declin ^ 2) * p1 + p3 +
      (Real.sin declin ^ 2 + Real.cos declin ^ 2 * Real.cos (long - omega) ^ 2) * p2
  have hc := Complex.norm_mul_cos_arg z
  have hs := Complex.norm_mul_sin_arg z
  refine ⟨em, hm, ?_, ?_, ?_, ?_⟩
  · rw [← e2, Real.cos_neg, ← hn, hc, hz]
    simp only [dot, direction, south, ec]; ring
  · rw [← e2, Real.sin_neg, mul_neg, ← hn, hs, hz]
    simp only [dot, direction, east, es]; ring
  · rw [← e2]; have := Complex.arg_le_pi z; linarith
  · rw [← e2]; have := Complex.neg_pi_lt_arg z; linarith

/-! ### C68 -/

/-- All angles are within the ranges of the error messages. -/
def ValidPosition (lat long declin omega : ℝ) : Prop :=
  |lat| ≤ Real.pi / 2 ∧ |long| ≤ Real.pi ∧ |declin| ≤ 23.6 * Real.pi / 180 ∧ |omega| ≤ Real.pi

theorem sunpath_eq (lat long declin omega : ℝ) (h1 : |lat| ≤ 2 * Real.pi) (h2 : |long| ≤ Real.pi)
    (h3 : |declin| ≤ 23.6 * Real.pi / 180) (h4 : |omega| ≤ Real.pi) :
    ∃ m a, sunpath lat long declin omega = .ok (m, a) := by
  have hpi := Real.pi_pos
  unfold sunpath rotate mPi2
  rw [if_neg (not_lt.2 h1), if_neg (not_lt.2 h2), if_neg (not_lt.2 (by linarith)), if_neg (not_lt.2 h4)]
  rw [if_neg (by
    rw [not_or, not_lt, not_lt]; exact ⟨Real.neg_one_le_sin _, Real.sin_le_one _⟩)]
  rw [if_neg (by
    rw [not_or, not_lt, not_lt]; exact ⟨Real.neg_one_le_sin _, Real.sin_le_one _⟩)]
  rw [if_neg (not_lt.2 (by linarith)), if_neg (not_lt.2 (by linarith))]
  exact ⟨_, _, rfl⟩

/-- The claim of C68. -/
def C68_full : Prop := ∀ lat long declin omega, (ValidPosition lat long declin omega →
    ∃ m a, sunpath lat long declin omega = .ok (m, a)) ∧
  (¬ ValidPosition lat long declin omega → sunpath lat long declin omega = .invalid)

/-- C68: every valid position is accepted, and a longitude, declination or sun longitude out of range is rejected;
missing: latitudes between 90 and 360 degrees are not rejected. -/
theorem C68_partial (lat long declin omega : ℝ) : (ValidPosition lat long declin omega →
      ∃ m a, sunpath lat long declin omega = .ok (m, a)) ∧
    (¬ (|lat| ≤ 2 * Real.pi ∧ |long| ≤ Real.pi ∧ |declin| ≤ 23.6 * Real.pi / 180 ∧ |omega| ≤ Real.pi) ↔
      sunpath lat long declin omega = .invalid) := by
  have hpi := Real.pi_pos
  refine ⟨fun ⟨h1, h2, h3, h4⟩ => sunpath_eq _ _ _ _ (by linarith) h2 h3 h4, ?_, ?_⟩
  · intro h
    unfold sunpath mPi2
    by_cases h1 : |lat| > 2 * Real.pi
    · rw [if_pos h1]
    rw [if_neg h1]
    by_cases h2 : |long| > Real.pi
    · rw [if_pos h2]
    rw [if_neg h2]
    by_cases h3 : |declin| > Real.pi * 23.6 / 180
    · rw [if_pos h3]
    rw [if_neg h3]
    by_cases h4 : |omega| > Real.pi
    · rw [if_pos h4]
    exact absurd ⟨not_lt.1 h1, not_lt.1 h2, by rw [not_lt] at h3; linarith, not_lt.1 h4⟩ h
  · rintro h ⟨h1, h2, h3, h4⟩
    obtain ⟨m, a, e⟩ := sunpath_eq lat long declin omega h1 h2 h3 h4
    rw [e] at h; cases h

/-- C68 fails: a latitude of 135 degrees is accepted, since `M_PI_2` is two π instead of half of it. -/
theorem C68_fails : ¬ C68_full := by
  intro h
  have hpi := Real.pi_pos
  have h1 := (h (3 * Real.pi / 4) 0 0 0).2 (by
    intro h
    have := (abs_le.1 h.1).2
    linarith)
  obtain ⟨m, a, e⟩ := sunpath_eq (3 * Real.pi / 4) 0 0 0 (by rw [abs_le]; constructor <;> linarith)
    (by rw [abs_zero]; positivity) (by rw [abs_zero]; positivity) (by rw [abs_zero]; positivity)
  rw [e] at h1; cases h1

/-- C68: the consequence: a latitude beyond the pole is treated as its mirror image on the same meridian. -/
theorem C68_beyond_pole (lat long declin omega : ℝ) (h : Real.pi / 2 < lat) (h' : lat ≤ Real.pi) :
    sunpath lat long declin omega = sunpath (Real.pi - lat) long declin omega := by
  have hpi := Real.pi_pos
  unfold sunpath mPi2
  rw [if_neg (by rw [not_lt, abs_le]; constructor <;> linarith),
    if_neg (show ¬ |Real.pi - lat| > 2 * Real.pi by rw [not_lt, abs_le]; constructor <;> linarith),
    Real.sin_pi_sub]

/-! ### C69 -/

/-- Eccentric anomaly: the solution of Kepler's equation. -/
def Solves (m e x : ℝ) : Prop := x - e * Real.sin x = m

/-- C69: Kepler's equation has exactly one solution. -/
theorem C69_unique (m e : ℝ) (he : 0 ≤ e) (he1 : e < 1) : ∃! x, Solves m e x := by
  obtain ⟨x, hx⟩ := kepler_exists m e he
  refine ⟨x, ?_, fun y hy => ?_⟩
  · unfold Solves; linarith
  · unfold Solves at hy
    exact kepler_unique he he1 (by linarith) hx

/-- C69: one turn of the loop brings every value nearer to the solution, by the factor `e` at least. -/
theorem C69_contract (m e x y : ℝ) (he : 0 ≤ e) (hs : Solves m e x) :
    |(m + e * Real.sin y) - x| ≤ e * |y - x| := by
  have : m + e * Real.sin y - x = e * (Real.sin y - Real.sin x) := by
    unfold Solves at hs; linarith
  rw [this, abs_mul, abs_of_nonneg he]
  exact mul_le_mul_of_nonneg_left (sin_lip _ _) he

/-- C69: the loop ends, and with more turns allowed it gives the same value. -/
theorem C69_terminates (m e : ℝ) (he : 0 ≤ e) (he1 : e < 1) (hm : m ≠ 0) :
    ∃ turns r, ∀ fuel, turns ≤ fuel → kepler m e fuel m = .ok r := by
  classical
  have hex := exists_turn he he1 hm
  refine ⟨Nat.find hex + 1, iter m e (Nat.find hex + 1), fun fuel hf => ?_⟩
  exact kepler_iter he he1 hm (Nat.find hex) (Nat.find_spec hex) (fun n hn => Nat.find_min hex hn) 0 fuel
    (Nat.zero_le _) (by omega)

example : ∃ turns r, ∀ fuel, turns ≤ fuel → kepler 1 (1 / 2) fuel 1 = .ok r :=
  C69_terminates 1 (1 / 2) (by norm_num) (by norm_num) (by norm_num)

theorem kepler_last (m e : ℝ) (fuel : Nat) (p r : ℝ) (h : kepler m e fuel p = .ok r) :
    ∃ p, r = m + e * Real.sin p ∧ |(r - p) / r| < tolerance ∧ r ≠ 0 := by
  induction fuel generalizing p with
  | zero => cases h
  | succ n ih =>
    unfold kepler at h
    simp only at h
    by_cases h0 : m + e * Real.sin p = 0
    · rw [if_pos h0] at h; cases h
    rw [if_neg h0] at h
    by_cases h1 : |(m + e * Real.sin p - p) / (m + e * Real.sin p)| < tolerance
    · rw [if_pos h1] at h
      cases h
      exact ⟨p, rfl, h1, h0⟩
    · rw [if_neg h1] at h
      exact ih _ h

/-- C69: the result is within `e / (1 - e)` times the tolerance of the solution, relative to the result. -/
theorem C69_accuracy (m e x r p : ℝ) (fuel : Nat) (he : 0 ≤ e) (he1 : e < 1) (hs : Solves m e x)
    (h : kepler m e fuel p = .ok r) : |r - x| ≤ e / (1 - e) * (tolerance * |r|) := by
  obtain ⟨p, e1, h2, h0⟩ := kepler_last m e fuel p r h
  have hp : 0 < |r| := abs_pos.2 h0
  rw [abs_div, div_lt_iff₀ hp] at h2
  have h3 := C69_contract m e x p he hs
  rw [← e1] at h3
  have h4 : |p - x| ≤ |r - p| + |r - x| := by
    calc |p - x| = |(r - x) - (r - p)| := by congr 1; ring
      _ ≤ |r - x| + |r - p| := abs_sub _ _
      _ = _ := by ring
  have h5 : |r - x| * (1 - e) ≤ e * (tolerance * |r|) := by nlinarith [abs_nonneg (r - x)]
  rw [div_mul_eq_mul_div, le_div_iff₀ (by linarith)]
  exact h5

/-- C69: a mean anomaly of exactly zero makes the loop divide by zero in its first turn. -/
theorem C69_zero (e : ℝ) (fuel : Nat) : kepler 0 e (fuel + 1) 0 = .divZero := by
  unfold kepler
  simp

theorem three_dvd {x : Int} (hx : (3 : Int) ∣ 1000 * x ^ 3) : ∃ y, x = 3 * y := by
  rcases Int.prime_three.dvd_or_dvd hx with h | h
  · omega
  · obtain ⟨y, hy⟩ := Int.prime_three.dvd_of_dvd_pow h
    exact ⟨y, hy⟩

/-- Powers of three in the anomaly polynomial. -/
theorem three_adic (A B C E Q j : Int) (hA : ¬ 3 ∣ A) :
    A * 3 ^ 12 + B * 3 ^ 9 * Q - C * 3 ^ 5 * Q ^ 2 - 1000 * 3 * Q ^ 3 ≠ E * 3 ^ 14 * j := by
  intro h
  obtain ⟨a, rfl⟩ := three_dvd (x := Q) ⟨A * 3 ^ 10 + B * 3 ^ 7 * Q - C * 3 ^ 3 * Q ^ 2 - E * 3 ^ 12 * j,
    by linarith⟩
  obtain ⟨b, rfl⟩ := three_dvd (x := a) ⟨A * 3 ^ 7 + B * 3 ^ 5 * a - C * 3 ^ 2 * a ^ 2 - E * 3 ^ 9 * j, by nlinarith⟩
  obtain ⟨c, rfl⟩ := three_dvd (x := b) ⟨A * 3 ^ 4 + B * 3 ^ 3 * b - C * 3 * b ^ 2 - E * 3 ^ 6 * j, by nlinarith⟩
  obtain ⟨d, rfl⟩ := three_dvd (x := c) ⟨A * 3 + B * 3 * c - C * c ^ 2 - E * 3 ^ 3 * j, by nlinarith⟩
  exact hA ⟨E * 3 * j - B * d + C * d ^ 2 + 1000 * d ^ 3, by nlinarith⟩

/-- Seconds since the epoch of the ephemeris, 31 December 1899 at noon, as counted by the code. -/
def seconds (n : Int) (sec : Nat) : Int := 86400 * n - 43200 + sec

theorem p25_ne (n : Int) (sec : Nat) (p23 : ℝ) (hp : p23 = (((sec : ℝ) / 10.0 / 24.0) / 360 + ((n : ℝ) - 0.5)) / 36525) :
    p25 (p23 * 36525) p23 ≠ 0 := by
  intro h
  unfold p25 at h
  obtain ⟨k, hk⟩ := fmod_int (358.47583 + fmod (0.985600267 * (p23 * 36525)) 360 + p23 * p23 * (-1.5e-4 + -3.e-6 * p23)) 360
  obtain ⟨l, hl⟩ := fmod_int (0.985600267 * (p23 * 36525)) 360
  rw [hk, hl] at h
  have hq : p23 * 3155760000 = ((seconds n sec : Int) : ℝ) := by
    rw [hp]; unfold seconds; push_cast; norm_num; ring
  set Q := seconds n sec
  apply three_adic 21199065835011322880000000000000000 18214098412103664160000000000 1948000000000
    2365466685440000000000000000000000 Q (k + l) (by decide)
  have : ((21199065835011322880000000000000000 * 3 ^ 12 + 18214098412103664160000000000 * 3 ^ 9 * Q -
      1948000000000 * 3 ^ 5 * Q ^ 2 - 1000 * 3 * Q ^ 3 : Int) : ℝ) =
      ((2365466685440000000000000000000000 * 3 ^ 14 * (k + l) : Int) : ℝ) := by
    push_cast
    rw [← hq]
    norm_num at h ⊢
    linear_combination (31427649519422976000000000000000000000 : ℝ) * h
  exact_mod_cast this

theorem dayTerm_bounds {y m d : Nat} {n : Int} (h : dayTerm y m d = some n) (h1 : 1 ≤ y) (h2 : y ≤ 9999) :
    -694000 ≤ n ∧ n ≤ 2959000 ∧ (1900 ≤ y → 1 ≤ n) := by
  unfold dayTerm at h
  cases hyd : yearday y m d with
  | none => rw [hyd] at h; cases h
  | some k =>
    rw [hyd] at h
    have hk := Calendar.C18_range y m d k hyd
    have h : Int.tdiv (((y : Int) - 1900) * 36525 - 25) 100 + (k : Int) = n := Option.some.inj h
    by_cases h0 : 1901 ≤ y
    · rw [Int.tdiv_eq_ediv_of_nonneg (by omega)] at h
      omega
    · have hneg : (((y : Int) - 1900) * 36525 - 25).tdiv 100 = -((25 - ((y : Int) - 1900) * 36525) / 100) := by
        rw [show ((y : Int) - 1900) * 36525 - 25 = -(25 - ((y : Int) - 1900) * 36525) by ring, Int.neg_tdiv,
          Int.tdiv_eq_ediv_of_nonneg (by omega)]
      rw [hneg] at h
      omega

/-- Julian centuries of a date. -/
noncomputable def centuries (n : Int) (sec : Nat) : ℝ :=
  (((sec : ℝ) / 10.0 / 24.0) / 360 + ((n : ℝ) - 0.5)) / 36525

theorem centuries_bounds {n : Int} {sec : Nat} (h1 : -694000 ≤ n) (h2 : n ≤ 2959000) (hs : sec < 86400) :
    -20 ≤ centuries n sec ∧ centuries n sec ≤ 82 ∧ (1 ≤ n → 0 ≤ centuries n sec) := by
  have a1 : (-694000 : ℝ) ≤ n := by exact_mod_cast h1
  have a2 : (n : ℝ) ≤ 2959000 := by exact_mod_cast h2
  have a3 : (sec : ℝ) ≤ 86400 := by exact_mod_cast hs.le
  have a4 : (0 : ℝ) ≤ sec := Nat.cast_nonneg _
  unfold centuries
  refine ⟨?_, ?_, fun h => ?_⟩
  · rw [le_div_iff₀ (by norm_num)]; norm_num; linarith
  · rw [div_le_iff₀ (by norm_num)]; norm_num; linarith
  · have a5 : (1 : ℝ) ≤ n := by exact_mod_cast h
    apply div_nonneg _ (by norm_num)
    norm_num
    linarith

theorem p26_bounds {c : ℝ} (h1 : -20 ≤ c) (h2 : c ≤ 82) : 0.0124 ≤ p26 c ∧ p26 c ≤ 0.0176 := by
  unfold p26
  norm_num
  constructor <;> nlinarith

/-- C69: for every date of the calendar the anomaly is not zero and the loop ends, so the ephemeris has a value. -/
theorem C69_every_date (t : DT) (hv : t.Valid) (hy : t.year ≤ 9999) :
    ∃ turns r, ∀ fuel, turns ≤ fuel → ephemeris fuel t = .ok r := by
  obtain ⟨h1, hd, hs⟩ := hv
  obtain ⟨k, hk⟩ := (Calendar.C18_domain t.year t.month t.day).2 hd
  obtain ⟨n, hn⟩ : ∃ n, dayTerm t.year t.month t.day = some n := by
    unfold dayTerm; rw [hk]; exact ⟨_, rfl⟩
  obtain ⟨b1, b2, _⟩ := dayTerm_bounds hn h1 hy
  obtain ⟨c1, c2, _⟩ := centuries_bounds b1 b2 hs
  obtain ⟨e1, e2⟩ := p26_bounds c1 c2
  have hm : p25 (centuries n t.sec * 36525) (centuries n t.sec) * degrd ≠ 0 :=
    mul_ne_zero (p25_ne n t.sec _ rfl) degrd_pos.ne'
  obtain ⟨turns, x, hx⟩ := C69_terminates _ (p26 (centuries n t.sec)) (by norm_num at e1; linarith)
    (by norm_num at e2; linarith) hm
  refine ⟨turns, afterKepler ((t.sec : ℝ) / 10.0 / 24.0) (centuries n t.sec * 36525) (centuries n t.sec) x,
    fun fuel hf => ?_⟩
  unfold ephemeris
  rw [hn]
  simp only
  have := hx fuel hf
  unfold centuries at this ⊢
  rw [this]

/-- A leap day. -/
example : (⟨2024, 2, 29, 3600⟩ : DT).Valid ∧ (⟨2024, 2, 29, 3600⟩ : DT).year ≤ 9999 := by
  refine ⟨⟨by decide, ?_, by decide⟩, by decide⟩
  exact (Calendar.C18_domain 2024 2 29).1 ⟨60, by decide⟩

/-! ### C93 -/

/-- The claim of C93: the day number counts the days since 31 December 1899. -/
def C93_full : Prop := ∀ y m d, Calendar.Valid y m d → dayTerm y m d = some (ordinal y m d - ordinal 1899 12 31)

/-- C93: the day number counts the days since 31 December 1899, for the years 1900 to 2100. -/
theorem C93_partial (y m d : Nat) (hv : Calendar.Valid y m d) (h1 : 1900 ≤ y) (h2 : y ≤ 2100) :
    dayTerm y m d = some (ordinal y m d - ordinal 1899 12 31) := by
  obtain ⟨n, hm, hd1, hd2⟩ := hv
  unfold dayTerm
  rw [Calendar.yearday_eq hm d hd1 hd2, show ordinal 1899 12 31 = 693595 by decide]
  simp only [Option.map_some, ordinal, Option.some.injEq]
  have key : (((y : Int) - 1900) * 36525 - 25).tdiv 100 =
      ((y : Int) - 1) * 365 + ((y : Int) - 1) / 4 - ((y : Int) - 1) / 100 + ((y : Int) - 1) / 400 - 693595 := by
    by_cases h : y = 1900
    · subst h; decide
    · rw [Int.tdiv_eq_ediv_of_nonneg (by omega)]
      have hc : ((y : Int) - 1) / 100 - ((y : Int) - 1) / 400 = 15 := by omega
      have h4 : (((y : Int) - 1900) * 36525 - 25) / 100 = 365 * ((y : Int) - 1900) + ((y : Int) - 1901) / 4 := by
        omega
      have h5 : ((y : Int) - 1901) / 4 = ((y : Int) - 1) / 4 - 475 := by omega
      omega
  rw [key]
  push_cast
  ring

example : dayTerm 1998 2 15 = some 35840 := by decide

/-- C93 fails: 1 January 2101 has the number of the day after it. -/
theorem C93_fails : ¬ C93_full := by
  intro h
  have := h 2101 1 1 ((Calendar.C18_domain 2101 1 1).1 ⟨1, by decide⟩)
  revert this
  decide

/-- C93: from 2101 to 2200 the number is one day ahead: the year 2100 is taken for a leap year. -/
theorem C93_after_2100 (y m d : Nat) (hv : Calendar.Valid y m d) (h1 : 2101 ≤ y) (h2 : y ≤ 2200) :
    dayTerm y m d = some (ordinal y m d - ordinal 1899 12 31 + 1) := by
  obtain ⟨n, hm, hd1, hd2⟩ := hv
  unfold dayTerm
  rw [Calendar.yearday_eq hm d hd1 hd2, show ordinal 1899 12 31 = 693595 by decide]
  simp only [Option.map_some, ordinal, Option.some.injEq]
  have key : (((y : Int) - 1900) * 36525 - 25).tdiv 100 =
      ((y : Int) - 1) * 365 + ((y : Int) - 1) / 4 - ((y : Int) - 1) / 100 + ((y : Int) - 1) / 400 - 693595 + 1 := by
    rw [Int.tdiv_eq_ediv_of_nonneg (by omega)]
    have hc : ((y : Int) - 1) / 100 - ((y : Int) - 1) / 400 = 16 := by omega
    have h4 : (((y : Int) - 1900) * 36525 - 25) / 100 = 365 * ((y : Int) - 1900) + ((y : Int) - 1901) / 4 := by
      omega
    have h5 : ((y : Int) - 1901) / 4 = ((y : Int) - 1) / 4 - 475 := by omega
    omega
  rw [key]
  push_cast
  ring

/-- C93: before 1898 the number can be one too small: the whole year 1897 is counted a day early. -/
theorem C93_before_1898 (m d : Nat) (hv : Calendar.Valid 1897 m d) :
    dayTerm 1897 m d = some (ordinal 1897 m d - ordinal 1899 12 31 - 1) := by
  obtain ⟨n, hm, hd1, hd2⟩ := hv
  unfold dayTerm
  rw [Calendar.yearday_eq hm d hd1 hd2, show ordinal 1899 12 31 = 693595 by decide]
  simp only [Option.map_some, ordinal, Option.some.injEq]
  norm_num
  push_cast
  ring

end Verif.Sun
