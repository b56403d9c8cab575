import Verif.DewpointBrent
import Verif.VaporSlope

/-!
C43, the convergence part: the number of rounds that `zerobr` allows itself is enough for every function, and with it the dew point of every
vapor pressure of the accepted range is found.
-/

namespace Verif.Dewpoint
open Verif.Vapor

theorem budget_log (x : ℝ) (h : 1 ≤ x) : budget x = Real.logb 2 (2 * x) ^ 2 - 1 := by
  unfold budget
  rw [max_eq_right h, Real.logb_mul (by norm_num) (by linarith), Real.logb_self_eq_one (by norm_num)]
  ring

/-- The allowance is less than the number of rounds of the code, if the machine precision is small against the tolerance. -/
theorem budget_lt (meps t a b : ℝ) (hm : 0 ≤ meps) (ht : 0 < t) (hs : 24 * meps * |b - a| * max |a| |b| ≤ t ^ 2) :
    budget (|b - a| / t) < maxfun meps t a b := by
  have hM : (if |a| ≤ |b| then |b| else |a|) = max |a| |b| := by
    split
    · rename_i h; exact (max_eq_right h).symm
    · rename_i h; exact (max_eq_left (not_le.1 h).le).symm
  have hM0 : 0 ≤ max |a| |b| := le_max_of_le_left (abs_nonneg a)
  have htol := tol0_pos meps t a b hm ht
  have key : budget (|b - a| / t) ≤ (Real.log (|b - a| / tol0 meps t a b) / Real.log 2) ^ 2 := by
    rcases lt_or_ge (|b - a| / t) 1 with h1 | h1
    · have : budget (|b - a| / t) = 0 := by
        unfold budget; rw [max_eq_left h1.le, Real.logb_one]; ring
      rw [this]; positivity
    · rw [budget_log _ h1]
      have hL : t ≤ |b - a| := by rwa [le_div_iff₀ ht, one_mul] at h1
      have hL0 : 0 < |b - a| := by linarith
      -- the logarithm of the code is the one of the allowance less a small one
      have e1 : 2 * (|b - a| / t) = |b - a| / tol0 meps t a b * (1 + 4 * meps * max |a| |b| / t) := by
        have : tol0 meps t a b = t / 2 * (1 + 4 * meps * max |a| |b| / t) := by
          unfold tol0; rw [hM]; field_simp; ring
        have h0 : 0 < 1 + 4 * meps * max |a| |b| / t := by positivity
        rw [this]
        field_simp
      have hε : 0 ≤ 4 * meps * max |a| |b| / t := by positivity
      have e2 : Real.logb 2 (2 * (|b - a| / t)) =
          Real.log (|b - a| / tol0 meps t a b) / Real.log 2 + Real.logb 2 (1 + 4 * meps * max |a| |b| / t) := by
        rw [e1, Real.logb_mul (by positivity) (by positivity)]
        rfl
      have hl2 : 0.69 < Real.log 2 := by have := Real.log_two_gt_d9; linarith
      have e3 : Real.logb 2 (1 + 4 * meps * max |a| |b| / t) ≤ 4 * meps * max |a| |b| / t / 0.69 := by
        unfold Real.logb
        have h3 : Real.log (1 + 4 * meps * max |a| |b| / t) ≤ 4 * meps * max |a| |b| / t := by
          have := Real.log_le_sub_one_of_pos (show (0 : ℝ) < 1 + 4 * meps * max |a| |b| / t by positivity)
          linarith
        exact div_le_div₀ hε h3 (by norm_num) hl2.le
      have e4 : Real.logb 2 (2 * (|b - a| / t)) ≤ 2 * (|b - a| / t) := by
        unfold Real.logb
        rw [div_le_iff₀ (by linarith)]
        have h3 := Real.log_le_sub_one_of_pos (show (0 : ℝ) < |b - a| / t by positivity)
        rw [Real.log_mul (by norm_num) (by positivity)]
        have h4 : Real.log 2 < 0.6931471808 := Real.log_two_lt_d9
        nlinarith
      have e5 : 0 ≤ Real.logb 2 (1 + 4 * meps * max |a| |b| / t) := Real.logb_nonneg (by norm_num) (by linarith)
      have e6 : 0 ≤ Real.logb 2 (2 * (|b - a| / t)) := Real.logb_nonneg (by norm_num) (by linarith)
      have e7 : 2 * (2 * (|b - a| / t)) * (4 * meps * max |a| |b| / t / 0.69) ≤ 1 := by
        have : 2 * (2 * (|b - a| / t)) * (4 * meps * max |a| |b| / t / 0.69) =
            16 / 0.69 * (meps * |b - a| * max |a| |b|) / t ^ 2 := by field_simp; ring
        rw [this, div_le_one (by positivity)]
        have h0 : 0 ≤ meps * |b - a| * max |a| |b| := by positivity
        norm_num
        nlinarith
      generalize Real.log (|b - a| / tol0 meps t a b) / Real.log 2 = S at *
      generalize Real.logb 2 (1 + 4 * meps * max |a| |b| / t) = E at *
      generalize 4 * meps * max |a| |b| / t / 0.69 = E' at *
      have e8 : Real.logb 2 (2 * (|b - a| / t)) * E ≤ 2 * (|b - a| / t) * E' := mul_le_mul e4 e3 e5 (by positivity)
      rw [e2] at e8 ⊢
      nlinarith
  unfold maxfun
  simp only
  generalize Real.log (|b - a| / tol0 meps t a b) / Real.log 2 = S at *
  have := Nat.lt_floor_add_one (S * S + 1)
  nlinarith

/-- C43, for any function and any two different starting points the loop ends within the rounds it is allowed: with the machine precision small
against the tolerance, `zerobr` never gives up. -/
theorem C43_converges (f : ℝ → ℝ) (meps t a b : ℝ) (hm : 0 ≤ meps) (ht : 0 < t)
    (hs : 24 * meps * |b - a| * max |a| |b| ≤ t ^ 2) : zerobr f meps t a b ≠ .noConvergence := by
  unfold zerobr
  split
  · exact fun h => by cases h
  split
  · exact fun h => by cases h
  split
  · exact fun h => by cases h
  split
  · exact fun h => by cases h
  intro h
  have hsame : same (f b) (f b) := by
    rcases lt_or_ge 0 (f b) with h' | h'
    · exact .inl ⟨h', h'⟩
    · exact .inr ⟨h', h'⟩
  have hr : rebracket ⟨a, b, 0, 0, 0, f a, f b, f b⟩ = ⟨a, b, a, b - a, b - a, f a, f b, f a⟩ := by
    unfold rebracket; rw [if_pos hsame]
  have hl : len ⟨a, b, 0, 0, 0, f a, f b, f b⟩ = |b - a| := by unfold len; rw [hr]; exact abs_sub_comm _ _
  have := stuck f meps t hm ht _ _ (show Start _ from ⟨by rw [hr, hl], by rw [hr, hl]⟩) h
  rw [hl] at this
  linarith [budget_lt meps t a b hm ht hs]

/-- C43, the dew point of every vapor pressure of the accepted range is found, with the machine precision of the code and a tolerance of a
ten-thousandth of a degree or more; it lies in the first interval, above absolute zero. -/
theorem C43_found (e t : ℝ) (he : 0 < e) (he2 : e ≤ 3 / 2 * seaLevel) (ht : 1 / 10000 ≤ t) :
    ∃ N a b x, 0 < a ∧ a ≤ x ∧ x ≤ b ∧ b ≤ 1000 ∧ sat a ≤ e ∧ e ≤ sat b ∧
      ∀ n, N ≤ n → lowerLoop e n freeze = some a ∧ upperLoop e n (freeze + 15) = some b ∧
        dewPoint n e (22204460492503131 / 10 ^ 32) t = some (.root x) := by
  obtain ⟨n, a, b, ha, hb, h0, hab, hb2, h1, h2, hd, hns⟩ :=
    C43_bracket_found_partial e (22204460492503131 / 10 ^ 32) t he he2
  have hconv := C43_converges (fun x => e - sat x) (22204460492503131 / 10 ^ 32) t a b (by norm_num) (by linarith) (by
    rw [abs_of_pos (by linarith), abs_of_pos h0, abs_of_pos (by linarith), max_eq_right hab.le]
    have h3 : (b - a) * b ≤ 1000 * 1000 := mul_le_mul (by linarith) hb2 (by linarith) (by norm_num)
    have h4 : (1 / 10000) ^ 2 ≤ t ^ 2 := pow_le_pow_left₀ (by norm_num) ht 2
    nlinarith)
  cases hz : zerobr (fun x => e - sat x) (22204460492503131 / 10 ^ 32) t a b with
  | notSpanned => exact absurd hz hns
  | noConvergence => exact absurd hz hconv
  | root x =>
    have hx := (C43_zerobr _ _ t a b (by norm_num) (by linarith) hab.ne x hz).1
    rw [Set.uIcc_of_le hab.le] at hx
    refine ⟨n, a, b, x, h0, hx.1, hx.2, hb2, h1, h2, fun k hk => ?_⟩
    obtain ⟨j, rfl⟩ := Nat.exists_eq_add_of_le hk
    have ha' := lowerLoop_mono e n j freeze a ha
    have hb' := upperLoop_mono e n j (freeze + 15) b hb
    refine ⟨ha', hb', ?_⟩
    unfold dewPoint
    rw [ha', hb']
    simp only
    rw [hz]

/-- C43, with the convergence: the solver returns the temperature of which the given pressure is the saturation pressure, to within twice the
tolerance, unless it stops at one of its first guesses because the pressure there is within the tolerance. -/
theorem C43_dew_point_partial (T t : ℝ) (hT : 0 < T) (hT2 : T ≤ 1000) (hs : sat T ≤ 3 / 2 * seaLevel) (ht : 1 / 10000 ≤ t) :
    ∃ N x, (∀ n, N ≤ n → dewPoint n (sat T) (22204460492503131 / 10 ^ 32) t = some (.root x)) ∧
      (|x - T| < 2 * (22204460492503131 / 10 ^ 32 * |x| + t) ∨
        |sat T - sat x| ≤ t / 2 + 1 / 10 ^ 12) := by
  obtain ⟨N, a, b, x, h0, h1, h2, h3, -, -, h⟩ := C43_found (sat T) t (C41_positive T) hs ht
  refine ⟨N, x, fun n hn => (h n hn).2.2, ?_⟩
  obtain ⟨q1, q2, q3⟩ := h N le_rfl
  rcases C43_solution_partial T (22204460492503131 / 10 ^ 32) t hT hT2 (by norm_num) (by linarith) N a b x q1 q2 h3 q3 with h4 | ⟨-, h4⟩
  · exact .inl h4
  · right
    refine h4.trans ?_
    unfold tol0
    have : (if |a| ≤ |b| then |b| else |a|) ≤ 1000 := by
      split
      · rw [abs_of_pos (by linarith)]; exact h3
      · rw [abs_of_pos h0]; linarith
    generalize (if |a| ≤ |b| then |b| else |a|) = M at this
    norm_num
    linarith

/-- C43, the full claim for every vapor pressure from 20 Pa up, the range that the default limits of the configuration leave: the solver returns the
temperature of which the given pressure is the saturation pressure, to within twice the tolerance. Below that range the early acceptance makes it
false (`C43_early_fails`). -/
theorem C43_range_partial (T t : ℝ) (hT : 0 < T) (hT2 : T ≤ 1000) (h20 : 20 ≤ sat T) (hs : sat T ≤ 3 / 2 * seaLevel) (ht : 1 / 10000 ≤ t)
    (ht2 : t ≤ 10) :
    ∃ N x, (∀ n, N ≤ n → dewPoint n (sat T) (22204460492503131 / 10 ^ 32) t = some (.root x)) ∧
      |x - T| < 2 * (22204460492503131 / 10 ^ 32 * |x| + t) := by
  obtain ⟨N, a, b, x, h0, h1, h2, h3, -, -, h⟩ := C43_found (sat T) t (C41_positive T) hs ht
  refine ⟨N, x, fun n hn => (h n hn).2.2, ?_⟩
  obtain ⟨N', x', q1, q2⟩ := C43_dew_point_partial T t hT hT2 hs ht
  have e : x' = x := by
    have e1 := q1 (max N N') (le_max_right _ _)
    rw [(h (max N N') (le_max_left _ _)).2.2] at e1
    cases e1; rfl
  subst e
  rcases q2 with q2 | q2
  · exact q2
  have hx0 : 0 < x' := by linarith
  have hm : 0 ≤ 22204460492503131 / 10 ^ 32 * |x'| := by positivity
  obtain ⟨q3, q4⟩ := abs_le.1 q2
  have hbound : |x' - T| ≤ 5 / 4 * t + 25 / 10 ^ 13 := by
    rcases le_total x' T with hle | hle
    · have := sat_slope x' T hx0 hle hT2 (by linarith)
      rw [abs_of_nonpos (by linarith)]
      linarith
    · have := sat_slope T x' hT hle (by linarith) (by linarith)
      rw [abs_of_nonneg (by linarith)]
      linarith
  linarith

/-- The freezing point, with the default tolerance. -/
example : ∃ N x, (∀ n, N ≤ n → dewPoint n (sat freeze) (22204460492503131 / 10 ^ 32) (1 / 100) = some (.root x)) ∧
    |x - freeze| < 2 * (22204460492503131 / 10 ^ 32 * |x| + 1 / 100) := by
  have h : sat freeze = 61071 / 100 := by unfold sat; rw [if_neg (lt_irrefl _), satIce_freeze]
  exact C43_range_partial freeze (1 / 100) freeze_pos (by norm_num [freeze]) (by rw [h]; norm_num) (by rw [h]; norm_num [seaLevel]) (by norm_num)
    (by norm_num)

/-- A pressure of 600 Pa and the default tolerance. -/
example : ∃ N a b x, 0 < a ∧ a ≤ x ∧ x ≤ b ∧ b ≤ 1000 ∧ sat a ≤ 600 ∧ 600 ≤ sat b ∧
    ∀ n, N ≤ n → lowerLoop 600 n freeze = some a ∧ upperLoop 600 n (freeze + 15) = some b ∧
      dewPoint n 600 (22204460492503131 / 10 ^ 32) (1 / 100) = some (.root x) :=
  C43_found 600 (1 / 100) (by norm_num) (by norm_num [seaLevel]) (by norm_num)

/-- The rounds suffice for the whole range of the solver even with the tolerance of the example. -/
example (f : ℝ → ℝ) : zerobr f (22204460492503131 / 10 ^ 32) (1 / 100) 200 300 ≠ .noConvergence :=
  C43_converges f _ _ _ _ (by norm_num) (by norm_num) (by norm_num)

/-- Of the two ends of the last bracket the one with the smaller function value is returned. -/
theorem C43_better_end (f : ℝ → ℝ) (meps t : ℝ) (s : St) (hb : Bracketing f s) (x : ℝ) (h : round f meps t s = .inl x) :
    |f x| ≤ |f (ends s).1| ∧ |f x| ≤ |f (ends s).2| := by
  obtain ⟨r1, r2, r3, r4, re⟩ := rebracket_good hb
  unfold round at h
  simp only at h
  split at h
  · simp only [Sum.inl.injEq] at h
    rw [re, ← h]
    simp only
    rw [← r2, ← r3]
    generalize rebracket s = w at *
    unfold order
    split
    · rename_i hlt
      simp only
      rw [← r3]
      exact ⟨hlt.le, le_refl _⟩
    · rename_i hlt
      rw [← r2]
      exact ⟨le_refl _, not_lt.1 hlt⟩
  · cases h

/-- A step that is not a bisection goes to the root of the line through the last two points, or to the
value at 0 of the parabola through the three points with the roles of the axes exchanged. -/
theorem C43_interpolation (s : St) (tol d e : ℝ) (hc : s.fc ≠ 0) (h : choose s tol ((s.c - s.b) / 2) = (d, e)) :
    d = (s.c - s.b) / 2 ∨
    (s.a = s.c ∧ s.fb + (s.fa - s.fb) / (s.a - s.b) * d = 0) ∨
    (s.a ≠ s.c ∧ s.b + d = s.a * (s.fb * s.fc) / ((s.fa - s.fb) * (s.fa - s.fc)) +
      s.b * (s.fa * s.fc) / ((s.fb - s.fa) * (s.fb - s.fc)) + s.c * (s.fa * s.fb) / ((s.fc - s.fa) * (s.fc - s.fb))) := by
  unfold choose at h
  split at h
  · simp only [Prod.mk.injEq] at h
    exact .inl h.1.symm
  · rename_i hcond
    rw [not_or, not_lt, not_le] at hcond
    have hfa : s.fa ≠ 0 := by
      intro h0
      have := hcond.2
      rw [h0, abs_zero] at this
      exact absurd this (not_lt.2 (abs_nonneg _))
    simp only at h
    generalize hP : (if 0 < (interp s ((s.c - s.b) / 2)).1 then (interp s ((s.c - s.b) / 2)).1
      else -(interp s ((s.c - s.b) / 2)).1) = P at h
    generalize hQ : (if 0 < (interp s ((s.c - s.b) / 2)).1 then -(interp s ((s.c - s.b) / 2)).2
      else (interp s ((s.c - s.b) / 2)).2) = Q at h
    have hP0 : 0 ≤ P := by rw [← hP]; split <;> linarith
    have hPQ : P / Q = -((interp s ((s.c - s.b) / 2)).1 / (interp s ((s.c - s.b) / 2)).2) := by
      rw [← hP, ← hQ]
      split
      · rw [div_neg]
      · rw [neg_div]
    have hQ0 : (interp s ((s.c - s.b) / 2)).2 = 0 → Q = 0 := by
      intro h0
      rw [← hQ, h0]
      split <;> simp
    clear hP hQ
    split at h
    · rename_i hacc
      right
      simp only [Prod.mk.injEq] at h
      have hq : (interp s ((s.c - s.b) / 2)).2 ≠ 0 := by
        intro h0
        have h1 := hacc.1
        rw [hQ0 h0, mul_zero, mul_zero, abs_zero] at h1
        linarith
      have hd : d = -((interp s ((s.c - s.b) / 2)).1 / (interp s ((s.c - s.b) / 2)).2) := by
        rw [← h.1, hPQ]
      by_cases hac : s.a = s.c
      · left
        refine ⟨hac, ?_⟩
        unfold interp at hd hq
        simp only [if_pos hac] at hd hq
        have h1 : s.fa - s.fb ≠ 0 := by
          intro h0
          apply hq
          rw [show s.fb = s.fa by linarith, div_self hfa, sub_self]
        by_cases hab : s.a - s.b = 0
        · exfalso
          have hm : (s.c - s.b) / 2 = 0 := by rw [← hac, hab, zero_div]
          have h3 := hacc.1
          rw [hm, mul_zero, zero_mul] at h3
          have := abs_nonneg (tol * Q)
          linarith
        · rw [hd, ← hac]
          have h4 : 1 - s.fb / s.fa = (s.fa - s.fb) / s.fa := by field_simp
          rw [h4]
          field_simp
          ring
      · right
        refine ⟨hac, ?_⟩
        unfold interp at hd hq
        simp only [if_neg hac] at hd hq
        have e1 : s.fa / s.fc - 1 = (s.fa - s.fc) / s.fc := by field_simp
        have e2 : s.fb / s.fc - 1 = (s.fb - s.fc) / s.fc := by field_simp
        have e3 : s.fb / s.fa - 1 = (s.fb - s.fa) / s.fa := by field_simp
        rw [e1, e2, e3] at hd hq
        have h1 : s.fa - s.fc ≠ 0 := by rintro h0; rw [h0] at hq; simp at hq
        have h2 : s.fb - s.fc ≠ 0 := by rintro h0; rw [h0] at hq; simp at hq
        have h3 : s.fb - s.fa ≠ 0 := by rintro h0; rw [h0] at hq; simp at hq
        rw [hd]
        have n1 : s.fa - s.fb ≠ 0 := by intro h0; apply h3; linarith
        have n2 : s.fc - s.fa ≠ 0 := by intro h0; apply h1; linarith
        have n3 : s.fc - s.fb ≠ 0 := by intro h0; apply h2; linarith
        rw [show s.fb - s.fa = -(s.fa - s.fb) by ring, show s.fb - s.fc = -(s.fc - s.fb) by ring,
          show s.fa - s.fc = -(s.fc - s.fa) by ring]
        field_simp
        ring
    · simp only [Prod.mk.injEq] at h
      exact .inl h.1.symm

/-- From 0 and 3 with values -1 and 1/2 (the end 0 being kept twice) the secant step is taken. -/
example : choose ⟨0, 3, 0, 3, 3, -1, 1 / 2, -1⟩ (1 / 100) ((0 - 3) / 2) = (-1, 3) := by
  unfold choose interp
  norm_num [abs_of_pos, abs_of_neg]

end Verif.Dewpoint
