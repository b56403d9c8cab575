import Verif.DewpointProps
import Mathlib.Analysis.SpecialFunctions.Log.Base

/-!
How many rounds the root finder of `smrf/envphys/core/dewpt.c` can take, for any function: lemmas for the convergence part of C43.

A round either halves the bracket (bisection) or moves one end by a step that is less than half the step before last. Rounds of the second kind
without a change of the bracketing end cannot go on: `p` of them in a row move the end by at least `travel p` tolerances, which is at least
`2 ^ (p / 2)`.
-/

namespace Verif.Dewpoint

/-! ### The allowance -/

/-- Bound for the rounds with a bracket of `x` tolerances. -/
noncomputable def budget (x : ℝ) : ℝ := Real.logb 2 (max 1 x) ^ 2 + 2 * Real.logb 2 (max 1 x)

theorem logb_nonneg' (x : ℝ) : 0 ≤ Real.logb 2 (max 1 x) :=
  Real.logb_nonneg (by norm_num) (le_max_left _ _)

theorem budget_nonneg (x : ℝ) : 0 ≤ budget x := by
  have := logb_nonneg' x
  unfold budget
  positivity

theorem budget_mono {x y : ℝ} (h : x ≤ y) : budget x ≤ budget y := by
  have h0 := logb_nonneg' x
  have h1 : Real.logb 2 (max 1 x) ≤ Real.logb 2 (max 1 y) :=
    Real.logb_le_logb_of_le (by norm_num) (lt_of_lt_of_le one_pos (le_max_left _ _)) (max_le_max_left _ h)
  unfold budget
  nlinarith

theorem budget_half (x : ℝ) (h : 2 ≤ x) : budget x = budget (x / 2) + 2 * Real.logb 2 x + 1 := by
  unfold budget
  rw [max_eq_right (by linarith), max_eq_right (by linarith), Real.logb_div (by linarith) (by norm_num),
    Real.logb_self_eq_one (by norm_num)]
  ring

/-! ### The way of several steps -/

/-- Tolerances moved by `p` interpolation steps in a row. -/
noncomputable def travel : Nat → ℝ
  | 0 => 0
  | n + 1 => travel n + max 1 (2 ^ (n / 2) / 2)

theorem travel_even (m : Nat) : travel (2 * (m + 1)) = 2 ^ (m + 1) ∧ travel (2 * (m + 1) + 1) = 3 / 2 * 2 ^ (m + 1) := by
  have hp : ∀ m : Nat, max (1 : ℝ) (2 ^ (m + 1) / 2) = 2 ^ m := by
    intro m
    rw [pow_succ, mul_div_assoc, div_self (by norm_num), mul_one]
    exact max_eq_right (one_le_pow₀ (by norm_num))
  induction m with
  | zero =>
    constructor
    · simp only [travel]; norm_num
    · simp only [travel]; norm_num
  | succ m ih =>
    have e1 : travel (2 * (m + 1 + 1)) = 2 ^ (m + 1 + 1) := by
      have : 2 * (m + 1 + 1) = 2 * (m + 1) + 1 + 1 := by ring
      rw [this, travel, ih.2]
      have : (2 * (m + 1) + 1) / 2 = m + 1 := by omega
      rw [this, hp]
      ring
    refine ⟨e1, ?_⟩
    rw [travel, e1]
    have : 2 * (m + 1 + 1) / 2 = m + 1 + 1 := by omega
    rw [this, hp]
    ring

theorem travel_ge (p : Nat) (hp : 2 ≤ p) : (2 : ℝ) ^ p ≤ travel p ^ 2 ∧ 0 ≤ travel p := by
  obtain ⟨m, hm | hm⟩ : ∃ m, p = 2 * (m + 1) ∨ p = 2 * (m + 1) + 1 := ⟨p / 2 - 1, by omega⟩
  · rw [hm, (travel_even m).1]
    refine ⟨?_, by positivity⟩
    rw [← pow_mul, mul_comm]
  · rw [hm, (travel_even m).2]
    refine ⟨?_, by positivity⟩
    rw [pow_succ, mul_pow, ← pow_mul, mul_comm (m + 1) 2]
    have : (0 : ℝ) < 2 ^ (2 * (m + 1)) := by positivity
    nlinarith

/-- Few steps fit into a bracket. -/
theorem steps_le (p : Nat) (x : ℝ) (hx : 2 ≤ x) (h : travel p ≤ x) : (p : ℝ) ≤ 2 * Real.logb 2 x := by
  have h1 : (1 : ℝ) ≤ Real.logb 2 x := by
    rw [← Real.logb_self_eq_one (b := 2) (by norm_num)]
    exact Real.logb_le_logb_of_le (by norm_num) (by norm_num) hx
  rcases Nat.lt_or_ge p 2 with hp | hp
  · have : (p : ℝ) ≤ 1 := by exact_mod_cast (by omega : p ≤ 1)
    linarith
  · obtain ⟨h2, h3⟩ := travel_ge p hp
    have h4 : (2 : ℝ) ^ p ≤ x ^ 2 := h2.trans (pow_le_pow_left₀ h3 h 2)
    have h5 := Real.logb_le_logb_of_le (b := 2) (by norm_num) (by positivity) h4
    rw [Real.logb_pow, Real.logb_pow, Real.logb_self_eq_one (by norm_num)] at h5
    push_cast at h5
    linarith

/-! ### One round -/

theorem choose_cases (s : St) (tol m : ℝ) :
    choose s tol m = (m, m) ∨
      (tol ≤ |s.e| ∧ (choose s tol m).2 = s.d ∧ |(choose s tol m).1| < |s.e| / 2 ∧
        0 ≤ (choose s tol m).1 * m ∧ |(choose s tol m).1| < 3 / 2 * |m|) := by
  unfold choose
  by_cases h1 : |s.e| < tol ∨ |s.fa| ≤ |s.fb|
  · rw [if_pos h1]; exact .inl rfl
  · rw [if_neg h1]
    simp only
    generalize hp : (if 0 < (interp s m).1 then (interp s m).1 else -(interp s m).1) = p
    generalize (if 0 < (interp s m).1 then -(interp s m).2 else (interp s m).2) = q
    have hp0 : 0 ≤ p := by
      rw [← hp]; split <;> linarith
    rw [not_or, not_lt] at h1
    by_cases h2 : 2 * p < 3 * m * q - |tol * q| ∧ p < |s.e * q / 2|
    · rw [if_pos h2]
      right
      simp only
      have habs := abs_nonneg (tol * q)
      have hmq : 0 < m * q := by nlinarith [h2.1]
      have hq : q ≠ 0 := by rintro rfl; simp at hmq
      refine ⟨h1.1, trivial, ?_, ?_, ?_⟩
      · rw [abs_div, abs_of_nonneg hp0, div_lt_iff₀ (abs_pos.2 hq)]
        have : |s.e * q / 2| = |s.e| / 2 * |q| := by rw [abs_div, abs_mul, abs_two]; ring
        rw [← this]
        exact h2.2
      · have : p / q * m = p * (m * q) / (q * q) := by field_simp
        rw [this]
        apply div_nonneg (mul_nonneg hp0 hmq.le) (mul_self_nonneg q)
      · rw [abs_div, abs_of_nonneg hp0, div_lt_iff₀ (abs_pos.2 hq)]
        have : |m| * |q| = m * q := by rw [← abs_mul, abs_of_pos hmq]
        rw [mul_assoc, this]
        linarith [h2.1]
    · rw [if_neg h2]; exact .inl rfl

/-- The end moves toward the other one by the step, or by the tolerance if the step is shorter. -/
theorem advance_step (s : St) (tol d : ℝ) (ht : 0 < tol) (hm : tol ≤ |(s.c - s.b) / 2|)
    (h0 : 0 ≤ d * ((s.c - s.b) / 2)) (h1 : |d| < 3 / 2 * |(s.c - s.b) / 2|) :
    |advance s tol ((s.c - s.b) / 2) d - s.b| = max tol |d| ∧
    |s.c - advance s tol ((s.c - s.b) / 2) d| = |s.c - s.b| - max tol |d| := by
  have hL : |s.c - s.b| = 2 * |(s.c - s.b) / 2| := by rw [abs_div, abs_two]; ring
  unfold advance
  rcases lt_trichotomy 0 ((s.c - s.b) / 2) with h | h | h
  · rw [abs_of_pos h] at hm h1 hL
    have hd : 0 ≤ d := by
      rcases lt_or_ge d 0 with h' | h'
      · exact absurd h0 (not_le.2 (mul_neg_of_neg_of_pos h' h))
      · exact h'
    rw [abs_of_nonneg hd] at h1 ⊢
    rw [hL]
    split
    · rename_i hc
      rw [max_eq_right hc.le, abs_of_nonneg (by linarith), abs_of_nonneg (by linarith)]
      constructor <;> ring
    · rename_i hc
      rw [max_eq_left (not_lt.1 hc), abs_of_nonneg (by linarith), abs_of_nonneg (by linarith)]
      constructor <;> ring
  · rw [← h, abs_zero] at hm; linarith
  · rw [abs_of_neg h] at hm h1 hL
    have hd : d ≤ 0 := by
      rcases lt_or_ge 0 d with h' | h'
      · exact absurd h0 (not_le.2 (mul_neg_of_pos_of_neg h' h))
      · exact h'
    rw [abs_of_nonpos hd] at h1 ⊢
    rw [hL]
    split
    · rename_i hc
      rw [max_eq_right hc.le, abs_of_nonpos (by linarith), abs_of_nonpos (by linarith)]
      constructor <;> ring
    · rename_i hc
      rw [if_neg (by linarith), max_eq_left (not_lt.1 hc), abs_of_nonpos (by linarith), abs_of_nonpos (by linarith)]
      constructor <;> ring

theorem order_same (s : St) : |(order s).c - (order s).b| = |s.c - s.b| ∧ (order s).d = s.d ∧ (order s).e = s.e := by
  unfold order
  split
  · exact ⟨abs_sub_comm _ _, rfl, rfl⟩
  · exact ⟨rfl, rfl, rfl⟩

/-- Length of the bracket of a state. -/
noncomputable def len (s : St) : ℝ := |(rebracket s).c - (rebracket s).b|

/-- A state after a bisection, after a change of the other end, or at the start. -/
def Start (s : St) : Prop := |(rebracket s).d| = len s ∧ |(rebracket s).e| = len s

/-- What a round that does not return can do. -/
theorem round_cases (f : ℝ → ℝ) (meps t : ℝ) (hm : 0 ≤ meps) (ht : 0 < t) (s s' : St) (h : round f meps t s = .inr s') :
    2 * t ≤ len s ∧
    ((Start s' ∧ len s' ≤ len s / 2) ∨
     (Start s' ∧ len s' ≤ max (len s / 2) (|(rebracket s).e| / 2)) ∨
     (t ≤ |(rebracket s).e| ∧ |(rebracket s').d| < |(rebracket s).e| / 2 ∧ (rebracket s').e = (rebracket s).d ∧
       len s' + max t |(rebracket s').d| ≤ len s)) := by
  obtain ⟨o1, o2, o3⟩ := order_same (rebracket s)
  have hlen : len s = |(order (rebracket s)).c - (order (rebracket s)).b| := o1.symm
  rw [← o3, ← o2, hlen]
  unfold round at h
  simp only at h
  generalize order (rebracket s) = w at h
  clear o1 o2 o3 hlen
  split at h
  · cases h
  rename_i hc
  rw [not_or, not_lt] at hc
  simp only [Sum.inr.injEq] at h
  have htol : t ≤ meps * |w.b| + t := by
    have := mul_nonneg hm (abs_nonneg w.b); linarith
  generalize meps * |w.b| + t = tol at h hc htol
  have hL : |w.c - w.b| = 2 * |(w.c - w.b) / 2| := by rw [abs_div, abs_two]; ring
  have hst : ∀ x : St, same x.fb x.fc → len x = |x.b - x.a| ∧ Start x := by
    intro x hx
    have hr : rebracket x = { x with c := x.a, fc := x.fa, d := x.b - x.a, e := x.b - x.a } := by
      unfold rebracket; rw [if_pos hx]
    have hl : len x = |x.b - x.a| := by unfold len; rw [hr]; exact abs_sub_comm _ _
    refine ⟨hl, ?_, ?_⟩ <;> rw [hl, hr]
  have hns : ∀ x : St, ¬ same x.fb x.fc → rebracket x = x ∧ len x = |x.c - x.b| := by
    intro x hx
    have hr : rebracket x = x := by unfold rebracket; rw [if_neg hx]
    exact ⟨hr, by unfold len; rw [hr]⟩
  refine ⟨by linarith [hc.1], ?_⟩
  rcases choose_cases w tol ((w.c - w.b) / 2) with hb | ⟨h1, h2, h3, h4, h5⟩
  · -- bisection
    left
    rw [hb] at h
    simp only at h
    obtain ⟨a1, a2⟩ := advance_step w tol ((w.c - w.b) / 2) (by linarith) hc.1 (mul_self_nonneg _)
      (by have : 0 < |(w.c - w.b) / 2| := by linarith [hc.1]
          linarith)
    rw [max_eq_right hc.1] at a1 a2
    by_cases hs : same s'.fb s'.fc
    · obtain ⟨b1, b2⟩ := hst s' hs
      refine ⟨b2, ?_⟩
      rw [b1]
      subst h
      simp only
      rw [a1, hL]; linarith
    · obtain ⟨b1, b2⟩ := hns s' hs
      have hl : len s' = |(w.c - w.b) / 2| := by
        rw [b2]; subst h; simp only; rw [a2, hL]; ring
      refine ⟨⟨?_, ?_⟩, by rw [hl, hL]; linarith⟩
      · rw [b1, hl]; subst h; rfl
      · rw [b1, hl]; subst h; rfl
  · right
    obtain ⟨a1, a2⟩ := advance_step w tol _ (by linarith) hc.1 h4 h5
    by_cases hs : same s'.fb s'.fc
    · left
      obtain ⟨b1, b2⟩ := hst s' hs
      refine ⟨b2, ?_⟩
      rw [b1]
      subst h
      simp only
      rw [a1]
      exact max_le_max (by linarith [hc.1]) h3.le
    · right
      obtain ⟨b1, b2⟩ := hns s' hs
      rw [b1, b2]
      subst h
      simp only
      refine ⟨by linarith, h3, h2, ?_⟩
      rw [a2]
      have := max_le_max htol (le_refl |(choose w tol ((w.c - w.b) / 2)).1|)
      linarith

/-! ### Many rounds -/

/-- Rounds within one phase: `p` of them are interpolation steps in a row. -/
theorem phase (f : ℝ → ℝ) (meps t : ℝ) (hm : 0 ≤ meps) (ht : 0 < t) (N : Nat)
    (H : ∀ k < N, ∀ s, Start s → loop f meps t k s = .noConvergence → (k : ℝ) ≤ budget (len s / t))
    (n : Nat) (hn : n ≤ N) (s : St) (A : ℝ) (hL : len s ≤ A) (hE : |(rebracket s).e| ≤ A) (hD : |(rebracket s).d| ≤ A)
    (h : loop f meps t n s = .noConvergence) :
    ∃ p : Nat, (1 ≤ p → 2 ^ ((p - 1) / 2) * t ≤ |(rebracket s).e|) ∧ (2 ≤ p → 2 ^ (p / 2) / 2 * t ≤ |(rebracket s).d|) ∧
      travel p * t ≤ len s ∧ (n : ℝ) ≤ p + 1 + budget (A / 2 / t) := by
  induction n generalizing s with
  | zero =>
    refine ⟨0, by omega, by omega, ?_, ?_⟩
    · simp only [travel, zero_mul]; unfold len; exact abs_nonneg _
    · have := budget_nonneg (A / 2 / t)
      push_cast; linarith
  | succ n ih =>
    rw [loop] at h
    cases hr : round f meps t s with
    | inl x => rw [hr] at h; cases h
    | inr s' =>
      rw [hr] at h
      simp only at h
      obtain ⟨-, hc⟩ := round_cases f meps t hm ht s s' hr
      have hz : 0 ≤ len s := by unfold len; exact abs_nonneg _
      have done : Start s' → len s' ≤ A / 2 → ∃ p : Nat, (1 ≤ p → 2 ^ ((p - 1) / 2) * t ≤ |(rebracket s).e|) ∧
          (2 ≤ p → 2 ^ (p / 2) / 2 * t ≤ |(rebracket s).d|) ∧
          travel p * t ≤ len s ∧ ((n + 1 : Nat) : ℝ) ≤ p + 1 + budget (A / 2 / t) := by
        intro h1 h2
        refine ⟨0, by omega, by omega, by simp only [travel, zero_mul]; exact hz, ?_⟩
        have h3 := H n (by omega) s' h1 h
        have h4 : budget (len s' / t) ≤ budget (A / 2 / t) := budget_mono (div_le_div_of_nonneg_right h2 ht.le)
        push_cast
        linarith
      rcases hc with ⟨h1, h2⟩ | ⟨h1, h2⟩ | ⟨h1, h2, h3, h4⟩
      · exact done h1 (by linarith)
      · exact done h1 (h2.trans (max_le (by linarith) (by linarith)))
      · have hmax := le_max_left t |(rebracket s').d|
        obtain ⟨p, e1, e2, e3, e4⟩ := ih (by omega) s' (by linarith) (by rw [h3]; exact hD)
          (by have := abs_nonneg (rebracket s).e; linarith) h
        refine ⟨p + 1, fun _ => ?_, fun hp => ?_, ?_, by push_cast; linarith⟩
        · rw [Nat.add_sub_cancel]
          rcases Nat.lt_or_ge p 2 with hp | hp
          · rw [show p / 2 = 0 by omega, pow_zero, one_mul]; exact h1
          · have := e2 hp
            nlinarith
        · have := e1 (by omega)
          rw [h3] at this
          rw [show (p + 1) / 2 = (p - 1) / 2 + 1 by omega, pow_succ, mul_div_assoc, div_self (by norm_num), mul_one]
          exact this
        · rw [travel, add_mul]
          have : max 1 (2 ^ (p / 2) / 2) * t ≤ max t |(rebracket s').d| := by
            rw [max_mul_of_nonneg _ _ ht.le, one_mul]
            rcases Nat.lt_or_ge p 2 with hp | hp
            · rw [show p / 2 = 0 by omega, pow_zero]
              exact max_le (le_max_left _ _) (by linarith)
            · exact max_le_max le_rfl (e2 hp)
          linarith

/-- The rounds from a start are at most the allowance of the bracket. -/
theorem stuck (f : ℝ → ℝ) (meps t : ℝ) (hm : 0 ≤ meps) (ht : 0 < t) (n : Nat) (s : St) (hs : Start s)
    (h : loop f meps t n s = .noConvergence) : (n : ℝ) ≤ budget (len s / t) := by
  induction n using Nat.strong_induction_on generalizing s with
  | _ n ih =>
    cases n with
    | zero => have := budget_nonneg (len s / t); push_cast; linarith
    | succ n =>
      have h2 : 2 * t ≤ len s := by
        rw [loop] at h
        cases hr : round f meps t s with
        | inl x => rw [hr] at h; cases h
        | inr s' => exact (round_cases f meps t hm ht s s' hr).1
      obtain ⟨p, -, -, h3, h4⟩ := phase f meps t hm ht (n + 1) (fun k hk s hs h => ih k hk s hs h) (n + 1) le_rfl s (len s)
        le_rfl hs.2.le hs.1.le h
      have hx : 2 ≤ len s / t := by rw [le_div_iff₀ ht]; exact h2
      have h5 := steps_le p (len s / t) hx (by rw [le_div_iff₀ ht]; exact h3)
      rw [budget_half _ hx]
      have : len s / 2 / t = len s / t / 2 := by ring
      rw [this] at h4
      linarith

end Verif.Dewpoint
