import Verif.Dewpoint
import Verif.VaporProps
import Mathlib.Order.Interval.Set.UnorderedInterval
import Mathlib.Algebra.Order.Archimedean.Basic

/-! C43: the dew-point solver. -/

namespace Verif.Dewpoint
open Verif.Vapor

/-- The function values at two points have opposite signs (zero counts as negative). -/
def Opposite (f : ℝ → ℝ) (x y : ℝ) : Prop := (0 < f x ∧ f y ≤ 0) ∨ (f x ≤ 0 ∧ 0 < f y)

theorem not_same_iff (f : ℝ → ℝ) (x y : ℝ) : ¬ same (f x) (f y) ↔ Opposite f x y := by
  unfold same Opposite
  rcases lt_or_ge 0 (f x) with h | h <;> rcases lt_or_ge 0 (f y) with h' | h' <;>
    simp [h, h', not_le.2, not_lt.2]

theorem Opposite.symm {f : ℝ → ℝ} {x y : ℝ} (h : Opposite f x y) : Opposite f y x := by
  rcases h with ⟨a, b⟩ | ⟨a, b⟩
  · exact .inr ⟨b, a⟩
  · exact .inl ⟨b, a⟩

open Classical in
/-- The two ends of the interval a state holds. -/
noncomputable def ends (s : St) : ℝ × ℝ := if same s.fb s.fc then (s.b, s.a) else (s.b, s.c)

/-- The stored values are those of the function and the interval brackets a sign change. -/
def Bracketing (f : ℝ → ℝ) (s : St) : Prop :=
  s.fa = f s.a ∧ s.fb = f s.b ∧ (¬ same s.fb s.fc → s.fc = f s.c) ∧ Opposite f (ends s).1 (ends s).2

theorem rebracket_good {f : ℝ → ℝ} {s : St} (h : Bracketing f s) :
    (rebracket s).fa = f (rebracket s).a ∧ (rebracket s).fb = f (rebracket s).b ∧
    (rebracket s).fc = f (rebracket s).c ∧ Opposite f (rebracket s).b (rebracket s).c ∧
    ends s = ((rebracket s).b, (rebracket s).c) := by
  obtain ⟨h1, h2, h3, h4⟩ := h
  unfold rebracket
  unfold ends at h4 ⊢
  by_cases hs : same s.fb s.fc
  · simp only [if_pos hs] at h4 ⊢
    exact ⟨h1, h2, h1, h4, trivial⟩
  · simp only [if_neg hs] at h4 ⊢
    exact ⟨h1, h2, h3 hs, h4, trivial⟩

theorem order_good {f : ℝ → ℝ} {s : St} (h1 : s.fa = f s.a) (h2 : s.fb = f s.b) (h3 : s.fc = f s.c)
    (h4 : Opposite f s.b s.c) :
    (order s).fa = f (order s).a ∧ (order s).fb = f (order s).b ∧ (order s).fc = f (order s).c ∧
    Opposite f (order s).b (order s).c ∧ Set.uIcc (order s).b (order s).c = Set.uIcc s.b s.c := by
  unfold order
  split
  · exact ⟨h2, h3, h2, h4.symm, Set.uIcc_comm _ _⟩
  · exact ⟨h1, h2, h3, h4, rfl⟩

theorem choose_spec (s : St) (tol m : ℝ) :
    (choose s tol m).1 = m ∨
      (0 ≤ (choose s tol m).1 * m ∧ |(choose s tol m).1| < 3 / 2 * |m|) := by
  unfold choose
  by_cases h1 : |s.e| < tol ∨ |s.fa| ≤ |s.fb|
  · rw [if_pos h1]; exact .inl rfl
  · rw [if_neg h1]
    simp only
    generalize hp : (if 0 < (interp s m).1 then (interp s m).1 else -(interp s m).1) = p
    generalize (if 0 < (interp s m).1 then -(interp s m).2 else (interp s m).2) = q
    have hp0 : 0 ≤ p := by
      rw [← hp]; split <;> linarith
    by_cases h2 : 2 * p < 3 * m * q - |tol * q| ∧ p < |s.e * q / 2|
    · rw [if_pos h2]
      right
      simp only
      have habs := abs_nonneg (tol * q)
      have hmq : 0 < m * q := by nlinarith [h2.1]
      have hq : q ≠ 0 := by rintro rfl; simp at hmq
      constructor
      · have : p / q * m = p * (m * q) / (q * q) := by field_simp
        rw [this]
        apply div_nonneg (mul_nonneg hp0 hmq.le) (mul_self_nonneg q)
      · rw [abs_div, abs_of_nonneg hp0, div_lt_iff₀ (abs_pos.2 hq)]
        have : |m| * |q| = m * q := by rw [← abs_mul, abs_of_pos hmq]
        rw [mul_assoc, this]
        linarith [h2.1]
    · rw [if_neg h2]; exact .inl rfl

theorem advance_inside (s : St) (tol d : ℝ) (ht : 0 < tol)
    (hm : tol ≤ |(s.c - s.b) / 2|)
    (hd : d = (s.c - s.b) / 2 ∨ (0 ≤ d * ((s.c - s.b) / 2) ∧ |d| < 3 / 2 * |(s.c - s.b) / 2|)) :
    advance s tol ((s.c - s.b) / 2) d ∈ Set.uIcc s.b s.c := by
  have hbound : |d| < 3 / 2 * |(s.c - s.b) / 2| := by
    rcases hd with h | h
    · rw [h]
      have : 0 < |(s.c - s.b) / 2| := lt_of_lt_of_le ht hm
      linarith
    · exact h.2
  have hsign : 0 ≤ d * ((s.c - s.b) / 2) := by
    rcases hd with h | h
    · rw [h]; exact mul_self_nonneg _
    · exact h.1
  unfold advance
  rcases lt_trichotomy 0 ((s.c - s.b) / 2) with h0 | h0 | h0
  · rw [abs_of_pos h0] at hm hbound
    rw [Set.uIcc_of_le (by linarith)]
    have hd0 : 0 ≤ d := by
      rcases lt_or_ge d 0 with h | h
      · exact absurd hsign (not_le.2 (mul_neg_of_neg_of_pos h h0))
      · exact h
    rw [abs_of_nonneg hd0] at hbound
    split
    · constructor <;> linarith
    · constructor <;> linarith
  · rw [← h0, abs_zero] at hm; linarith
  · rw [abs_of_neg h0] at hm hbound
    rw [Set.uIcc_of_ge (by linarith)]
    have hd0 : d ≤ 0 := by
      rcases lt_or_ge 0 d with h | h
      · exact absurd hsign (not_le.2 (mul_neg_of_pos_of_neg h h0))
      · exact h
    rw [abs_of_nonpos hd0] at hbound
    split
    · constructor <;> linarith
    · rw [if_neg (by linarith)]; constructor <;> linarith

/-- Every round keeps a bracketing interval inside the previous one, for any function. -/
theorem C43_bracket_kept (f : ℝ → ℝ) (meps t : ℝ) (hm : 0 ≤ meps) (ht : 0 < t) (s s' : St)
    (hb : Bracketing f s) (h : round f meps t s = .inr s') :
    Bracketing f s' ∧ Set.uIcc (ends s').1 (ends s').2 ⊆ Set.uIcc (ends s).1 (ends s).2 := by
  obtain ⟨r1, r2, r3, r4, re⟩ := rebracket_good hb
  obtain ⟨o1, o2, o3, o4, oe⟩ := order_good r1 r2 r3 r4
  unfold round at h
  simp only at h
  generalize order (rebracket s) = w at h o1 o2 o3 o4 oe
  split at h
  · cases h
  · rename_i hc
    rw [not_or, not_lt] at hc
    simp only [Sum.inr.injEq] at h
    have htol : 0 < meps * |w.b| + t := by
      have := mul_nonneg hm (abs_nonneg w.b); linarith
    have hin := advance_inside w _ _ htol hc.1 (choose_spec w (meps * |w.b| + t) ((w.c - w.b) / 2))
    generalize hb' : advance w (meps * |w.b| + t) ((w.c - w.b) / 2)
      (choose w (meps * |w.b| + t) ((w.c - w.b) / 2)).1 = b' at h hin
    subst h
    rw [re]
    simp only
    rw [← oe]
    by_cases hs : same (f b') w.fc
    · have he : ends ⟨w.b, b', w.c, (choose w (meps * |w.b| + t) ((w.c - w.b) / 2)).1,
          (choose w (meps * |w.b| + t) ((w.c - w.b) / 2)).2, w.fb, f b', w.fc⟩ = (b', w.b) := by
        unfold ends; simp only [if_pos hs]
      refine ⟨⟨o2, rfl, fun _ => o3, ?_⟩, ?_⟩
      · rw [he]
        simp only
        rw [o3] at hs
        rcases o4 with ⟨p, q⟩ | ⟨p, q⟩
        · right
          rcases hs with ⟨-, q'⟩ | ⟨p', -⟩
          · linarith
          · exact ⟨p', p⟩
        · left
          rcases hs with ⟨p', -⟩ | ⟨-, q'⟩
          · exact ⟨p', p⟩
          · linarith
      · rw [he]
        exact Set.uIcc_subset_uIcc hin Set.left_mem_uIcc
    · have he : ends ⟨w.b, b', w.c, (choose w (meps * |w.b| + t) ((w.c - w.b) / 2)).1,
          (choose w (meps * |w.b| + t) ((w.c - w.b) / 2)).2, w.fb, f b', w.fc⟩ = (b', w.c) := by
        unfold ends; simp only [if_neg hs]
      refine ⟨⟨o2, rfl, fun _ => o3, ?_⟩, ?_⟩
      · rw [he]
        simp only
        rw [o3] at hs
        exact (not_same_iff f _ _).1 hs
      · rw [he]
        exact Set.uIcc_subset_uIcc hin Set.right_mem_uIcc

/-- A round that returns does so at a zero, or at an end of a bracket shorter than twice the
tolerance. -/
theorem C43_returns_at_bracket (f : ℝ → ℝ) (meps t : ℝ) (s : St) (hb : Bracketing f s) (x : ℝ)
    (h : round f meps t s = .inl x) :
    x ∈ Set.uIcc (ends s).1 (ends s).2 ∧ (f x = 0 ∨ ∃ y ∈ Set.uIcc (ends s).1 (ends s).2,
      Opposite f x y ∧ |y - x| < 2 * (meps * |x| + t)) := by
  obtain ⟨r1, r2, r3, r4, re⟩ := rebracket_good hb
  obtain ⟨o1, o2, o3, o4, oe⟩ := order_good r1 r2 r3 r4
  unfold round at h
  simp only at h
  generalize order (rebracket s) = w at h o1 o2 o3 o4 oe
  rw [re]
  simp only
  rw [← oe]
  split at h
  · rename_i hc
    simp only [Sum.inl.injEq] at h
    subst h
    refine ⟨Set.left_mem_uIcc, ?_⟩
    rcases hc with hc | hc
    · right
      refine ⟨w.c, Set.right_mem_uIcc, o4, ?_⟩
      rw [abs_div, abs_two, div_lt_iff₀ (by norm_num)] at hc
      linarith
    · left; rw [← o2]; exact hc
  · cases h

/-- The loop, however many rounds it is allowed. -/
theorem loop_root (f : ℝ → ℝ) (meps t : ℝ) (hm : 0 ≤ meps) (ht : 0 < t) (n : Nat) (s : St)
    (hb : Bracketing f s) (x : ℝ) (h : loop f meps t n s = .root x) :
    x ∈ Set.uIcc (ends s).1 (ends s).2 ∧ (f x = 0 ∨ ∃ y ∈ Set.uIcc (ends s).1 (ends s).2,
      Opposite f x y ∧ |y - x| < 2 * (meps * |x| + t)) := by
  induction n generalizing s with
  | zero => cases h
  | succ n ih =>
    unfold loop at h
    cases hr : round f meps t s with
    | inl z =>
      rw [hr] at h
      simp only [Result.root.injEq] at h
      subst h
      exact C43_returns_at_bracket f meps t s hb z hr
    | inr s' =>
      rw [hr] at h
      obtain ⟨hb', hsub⟩ := C43_bracket_kept f meps t hm ht s s' hb hr
      obtain ⟨h1, h2⟩ := ih s' hb' h
      refine ⟨hsub h1, ?_⟩
      rcases h2 with h2 | ⟨y, hy, h2⟩
      · exact .inl h2
      · exact .inr ⟨y, hsub hy, h2⟩

theorem tol0_pos (meps t a b : ℝ) (hm : 0 ≤ meps) (ht : 0 < t) : 0 < tol0 meps t a b := by
  unfold tol0
  have : 0 ≤ meps * (if |a| ≤ |b| then |b| else |a|) := by
    apply mul_nonneg hm; split <;> exact abs_nonneg _
  nlinarith

/-- What `zerobr` returns: one of the first guesses if the function value there is below the
tolerance, or a zero, or an end of a short bracket. -/
theorem C43_zerobr (f : ℝ → ℝ) (meps t a b : ℝ) (hm : 0 ≤ meps) (ht : 0 < t) (hab : a ≠ b) (x : ℝ)
    (h : zerobr f meps t a b = .root x) :
    x ∈ Set.uIcc a b ∧ (|f x| ≤ tol0 meps t a b ∧ (x = a ∨ x = b) ∨ f x = 0 ∨
      ∃ y ∈ Set.uIcc a b, Opposite f x y ∧ |y - x| < 2 * (meps * |x| + t)) := by
  have htol := tol0_pos meps t a b hm ht
  unfold zerobr at h
  rw [if_neg hab] at h
  split at h
  · rename_i hfb
    simp only [Result.root.injEq] at h
    subst h
    exact ⟨Set.right_mem_uIcc, .inl ⟨hfb, .inr rfl⟩⟩
  · rename_i hfb
    split at h
    · rename_i hfa
      simp only [Result.root.injEq] at h
      subst h
      exact ⟨Set.left_mem_uIcc, .inl ⟨hfa, .inl rfl⟩⟩
    · rename_i hfa
      split at h
      · cases h
      · rename_i hsp
        have hs : same (f b) (f b) := by
          rcases lt_or_ge 0 (f b) with h' | h'
          · exact .inl ⟨h', h'⟩
          · exact .inr ⟨h', h'⟩
        have he : ends ⟨a, b, 0, 0, 0, f a, f b, f b⟩ = (b, a) := by
          unfold ends; simp only [if_pos hs]
        have hopp : Opposite f b a := by
          rcases lt_or_ge 0 (f b) with h1 | h1
          · rcases lt_or_ge 0 (f a) with h2 | h2
            · exact absurd (mul_pos h1 h2) hsp
            · exact .inl ⟨h1, h2⟩
          · rcases lt_or_ge 0 (f a) with h2 | h2
            · exact .inr ⟨h1, h2⟩
            · exfalso
              have h1' : f b < 0 := lt_of_le_of_ne h1 (fun e => hfb (by rw [e, abs_zero]; exact htol.le))
              have h2' : f a < 0 := lt_of_le_of_ne h2 (fun e => hfa (by rw [e, abs_zero]; exact htol.le))
              exact hsp (mul_pos_of_neg_of_neg h1' h2')
        have hb : Bracketing f ⟨a, b, 0, 0, 0, f a, f b, f b⟩ :=
          ⟨rfl, rfl, fun hn => absurd hs hn, by rw [he]; exact hopp⟩
        have := loop_root f meps t hm ht _ _ hb x h
        rw [he] at this
        simp only at this
        rw [Set.uIcc_comm] at this
        exact ⟨this.1, .inr this.2⟩

/-! ### The first interval -/

theorem lowerLoop_spec (e : ℝ) (n : Nat) (a0 a : ℝ) (h0 : 0 < a0) (h : lowerLoop e n a0 = some a) :
    0 < a ∧ a ≤ a0 ∧ sat a ≤ e := by
  induction n generalizing a0 with
  | zero =>
    unfold lowerLoop at h
    split at h
    · cases h
    · cases h; exact ⟨h0, le_refl _, not_lt.1 ‹_›⟩
  | succ n ih =>
    unfold lowerLoop at h
    split at h
    · obtain ⟨h1, h2, h3⟩ := ih (a0 * (3 / 4)) (by linarith) h
      exact ⟨h1, by linarith, h3⟩
    · cases h; exact ⟨h0, le_refl _, not_lt.1 ‹_›⟩

theorem upperLoop_spec (e : ℝ) (n : Nat) (b0 b : ℝ) (h0 : 0 < b0) (h : upperLoop e n b0 = some b) :
    b0 ≤ b ∧ e ≤ sat b := by
  induction n generalizing b0 with
  | zero =>
    unfold upperLoop at h
    split at h
    · cases h
    · cases h; exact ⟨le_refl _, not_lt.1 ‹_›⟩
  | succ n ih =>
    unfold upperLoop at h
    split at h
    · obtain ⟨h1, h3⟩ := ih (b0 * (5 / 4)) (by linarith) h
      exact ⟨by linarith, h3⟩
    · cases h; exact ⟨le_refl _, not_lt.1 ‹_›⟩

theorem lowerLoop_mono (e : ℝ) (n k : Nat) (a0 a : ℝ) (h : lowerLoop e n a0 = some a) :
    lowerLoop e (n + k) a0 = some a := by
  induction n generalizing a0 with
  | zero =>
    rw [Nat.zero_add]
    unfold lowerLoop at h
    split at h
    · cases h
    · rename_i hc
      cases k <;> (unfold lowerLoop; rw [if_neg hc]; exact h)
  | succ n ih =>
    rw [Nat.add_right_comm]
    unfold lowerLoop at h ⊢
    split at h
    · rename_i hc; rw [if_pos hc]; exact ih _ h
    · rename_i hc; rw [if_neg hc]; exact h

theorem upperLoop_mono (e : ℝ) (n k : Nat) (a0 a : ℝ) (h : upperLoop e n a0 = some a) :
    upperLoop e (n + k) a0 = some a := by
  induction n generalizing a0 with
  | zero =>
    rw [Nat.zero_add]
    unfold upperLoop at h
    split at h
    · cases h
    · rename_i hc
      cases k <;> (unfold upperLoop; rw [if_neg hc]; exact h)
  | succ n ih =>
    rw [Nat.add_right_comm]
    unfold upperLoop at h ⊢
    split at h
    · rename_i hc; rw [if_pos hc]; exact ih _ h
    · rename_i hc; rw [if_neg hc]; exact h

theorem ten_rpow_ge (x : ℝ) (hx : 0 ≤ x) : 1 + x ≤ (10 : ℝ) ^ x := by
  rw [Real.rpow_def_of_pos (by norm_num)]
  have h1 := Real.add_one_le_exp (Real.log 10 * x)
  have h2 : (1 : ℝ) ≤ Real.log 10 := by
    rw [Real.le_log_iff_exp_le (by norm_num)]
    have := Real.exp_one_lt_d9
    linarith
  nlinarith

/-- Far below freezing the saturation pressure is small. -/
theorem sat_small (s : ℝ) (hs : 0 < s) (hf : s ≤ freeze) :
    sat s ≤ 61071 / 100 / (1 + 8 * (freeze / s - 1)) := by
  have hF := freeze_pos
  have hu : 1 ≤ freeze / s := (one_le_div hs).2 hf
  have hu0 : 0 ≤ freeze / s - 1 := by linarith
  have hinv : 1 - s / freeze ≤ freeze / s - 1 := by
    have e : s / freeze = 1 / (freeze / s) := by rw [one_div_div]
    rw [e]
    have : 2 - freeze / s ≤ 1 / (freeze / s) := by
      rw [le_div_iff₀ (by linarith)]
      nlinarith [sq_nonneg (freeze / s - 1)]
    linarith
  have hlog : 0 ≤ Real.log (freeze / s) / Real.log 10 :=
    div_nonneg (Real.log_nonneg hu) log_ten_pos.le
  have hexp : iceExp s ≤ -(8 * (freeze / s - 1)) + Real.log (61071 / 10000) / Real.log 10 := by
    unfold iceExp
    simp only
    rw [mul_div_assoc]
    nlinarith
  have h1 : (10 : ℝ) ^ iceExp s ≤
      (10 : ℝ) ^ (-(8 * (freeze / s - 1)) + Real.log (61071 / 10000) / Real.log 10) :=
    Real.rpow_le_rpow_of_exponent_le (by norm_num) hexp
  rw [Real.rpow_add (by norm_num)] at h1
  have h2 : (10 : ℝ) ^ (Real.log (61071 / 10000) / Real.log 10) = 61071 / 10000 := by
    rw [Real.rpow_def_of_pos (by norm_num), mul_div_cancel₀ _ log_ten_pos.ne',
      Real.exp_log (by norm_num)]
  rw [h2, Real.rpow_neg (by norm_num)] at h1
  have h3 := ten_rpow_ge (8 * (freeze / s - 1)) (by linarith)
  have h4 : ((10 : ℝ) ^ (8 * (freeze / s - 1)))⁻¹ ≤ (1 + 8 * (freeze / s - 1))⁻¹ :=
    inv_anti₀ (by linarith) h3
  unfold sat
  rw [if_neg (not_lt.2 hf)]
  unfold satIce
  generalize (10 : ℝ) ^ iceExp s = X at h1 ⊢
  generalize ((10 : ℝ) ^ (8 * (freeze / s - 1)))⁻¹ = Y at h1 h4
  rw [div_eq_mul_inv]
  nlinarith

/-- The lower loop ends for every positive vapor pressure. -/
theorem C43_lower_found (e : ℝ) (he : 0 < e) : ∃ n a, lowerLoop e n freeze = some a := by
  have hF := freeze_pos
  have key : ∀ n (a0 : ℝ), lowerLoop e n a0 = none → e < sat (a0 * (3 / 4) ^ n) := by
    intro n
    induction n with
    | zero =>
      intro a0 h
      unfold lowerLoop at h
      split at h
      · simpa using ‹e < sat a0›
      · cases h
    | succ n ih =>
      intro a0 h
      unfold lowerLoop at h
      split at h
      · have := ih _ h
        rw [pow_succ', ← mul_assoc]; exact this
      · cases h
  obtain ⟨n, hn⟩ := exists_nat_gt (61071 / 100 / e)
  cases h : lowerLoop e n freeze with
  | some a => exact ⟨n, a, h⟩
  | none =>
    exfalso
    have h1 := key n freeze h
    have hp : 0 < freeze * (3 / 4 : ℝ) ^ n := mul_pos hF (by positivity)
    have hle : freeze * (3 / 4 : ℝ) ^ n ≤ freeze := by
      have : (3 / 4 : ℝ) ^ n ≤ 1 := pow_le_one₀ (by norm_num) (by norm_num)
      nlinarith
    have h2 := sat_small _ hp hle
    have hr : freeze / (freeze * (3 / 4 : ℝ) ^ n) = (4 / 3) ^ n := by
      rw [div_mul_eq_div_div, div_self hF.ne', one_div, ← inv_pow]; norm_num
    rw [hr] at h2
    have hb : 1 + (n : ℝ) * (1 / 3) ≤ (4 / 3 : ℝ) ^ n := by
      have := one_add_mul_le_pow (show (-2 : ℝ) ≤ 1 / 3 by norm_num) n
      norm_num at this ⊢
      linarith
    have h3 : e < 61071 / 100 / (1 + 8 * ((4 / 3 : ℝ) ^ n - 1)) := lt_of_lt_of_le h1 h2
    rw [lt_div_iff₀ (by have : (0 : ℝ) ≤ n := Nat.cast_nonneg n; linarith)] at h3
    rw [div_lt_iff₀ he] at hn
    have hn0 : (0 : ℝ) ≤ n := Nat.cast_nonneg n
    nlinarith

theorem log_ten_ge : (2 : ℝ) ≤ Real.log 10 := by
  rw [Real.le_log_iff_exp_le (by norm_num)]
  have h1 : Real.exp 2 = Real.exp 1 * Real.exp 1 := by rw [← Real.exp_add]; norm_num
  have h2 := Real.exp_one_lt_d9
  rw [h1]
  nlinarith [Real.exp_pos 1]

/-- At 450 K the saturation pressure is above 1.5 atmospheres. -/
theorem sat_450 : 3 / 2 * seaLevel ≤ sat ((freeze + 15) * (5 / 4) * (5 / 4)) := by
  have hgt : freeze < (freeze + 15) * (5 / 4) * (5 / 4) := by norm_num [freeze]
  unfold sat
  rw [if_pos hgt]
  generalize hT : (freeze + 15) * (5 / 4) * (5 / 4) = T
  have hTv : T = 45025 / 100 := by rw [← hT]; norm_num [freeze]
  have hL := log_ten_ge
  have hL0 := log_ten_pos
  have hu : boil / T = 37315 / 45025 := by rw [hTv]; norm_num [boil]
  have hlog1 : -(771 / 3731 : ℝ) ≤ Real.log (boil / T) := by
    have := Real.one_sub_inv_le_log_of_pos (show 0 < boil / T by rw [hu]; norm_num)
    rw [hu] at this ⊢
    norm_num at this ⊢
    linarith
  have hlog2 : -(771 / 3731 : ℝ) / 2 ≤ Real.log (boil / T) / Real.log 10 := by
    rw [div_le_div_iff₀ (by norm_num) hL0]
    nlinarith
  have h15 : Real.log (3 / 2) / Real.log 10 ≤ 1 / 4 := by
    rw [div_le_iff₀ hL0]
    have := Real.log_le_sub_one_of_pos (show (0 : ℝ) < 3 / 2 by norm_num)
    linarith
  have h3 : (10 : ℝ) ^ (11344 / 1000 * (1 - T / boil)) ≤ 1 := by
    apply Real.rpow_le_one_of_one_le_of_nonpos (by norm_num)
    rw [hTv]; norm_num [boil]
  have h4 : (1 : ℝ) ≤ (10 : ℝ) ^ (-(349149 / 100000) * (boil / T - 1)) := by
    apply Real.one_le_rpow (by norm_num)
    rw [hu]; norm_num
  have hexp : Real.log (3 / 2 * seaLevel) / Real.log 10 ≤ waterExp T := by
    rw [Real.log_mul (by norm_num) (by norm_num [seaLevel]), add_div]
    unfold waterExp
    simp only
    generalize (10 : ℝ) ^ (11344 / 1000 * (1 - T / boil)) = A at h3 ⊢
    generalize (10 : ℝ) ^ (-(349149 / 100000) * (boil / T - 1)) = B at h4 ⊢
    rw [mul_div_assoc]
    generalize Real.log (boil / T) / Real.log 10 = C at hlog2 ⊢
    generalize Real.log seaLevel / Real.log 10 = D
    generalize Real.log (3 / 2) / Real.log 10 = E at h15 ⊢
    rw [hu]
    linarith
  have h5 := Real.rpow_le_rpow_of_exponent_le (show (1 : ℝ) ≤ 10 by norm_num) hexp
  have h6 : (10 : ℝ) ^ (Real.log (3 / 2 * seaLevel) / Real.log 10) = 3 / 2 * seaLevel := by
    rw [Real.rpow_def_of_pos (by norm_num), mul_div_cancel₀ _ hL0.ne',
      Real.exp_log (by norm_num [seaLevel])]
  rw [h6] at h5
  exact h5

/-- For every vapor pressure in the documented range the search finds an interval that brackets the
solution, and the root finder never reports an interval that does not. -/
theorem C43_bracket_found_partial (e meps t : ℝ) (he : 0 < e) (he2 : e ≤ 3 / 2 * seaLevel) :
    ∃ n a b, lowerLoop e n freeze = some a ∧ upperLoop e n (freeze + 15) = some b ∧
      0 < a ∧ a < b ∧ b ≤ 1000 ∧ sat a ≤ e ∧ e ≤ sat b ∧
      dewPoint n e meps t = some (zerobr (fun x => e - sat x) meps t a b) ∧
      zerobr (fun x => e - sat x) meps t a b ≠ .notSpanned := by
  obtain ⟨n, a, ha⟩ := C43_lower_found e he
  have hup : ∃ b, upperLoop e 2 (freeze + 15) = some b ∧ b ≤ 1000 := by
    unfold upperLoop
    split
    · unfold upperLoop
      split
      · unfold upperLoop
        rw [if_neg (not_lt.2 (le_trans he2 sat_450))]
        exact ⟨_, rfl, by norm_num [freeze]⟩
      · exact ⟨_, rfl, by norm_num [freeze]⟩
    · exact ⟨_, rfl, by norm_num [freeze]⟩
  obtain ⟨b, hb, hb1⟩ := hup
  have ha' := lowerLoop_mono e n 2 freeze a ha
  have hb' : upperLoop e (n + 2) (freeze + 15) = some b := by
    rw [Nat.add_comm]; exact upperLoop_mono e 2 n _ b hb
  obtain ⟨h1, h2, h3⟩ := lowerLoop_spec e n freeze a freeze_pos ha
  obtain ⟨h4, h5⟩ := upperLoop_spec e 2 (freeze + 15) b (by linarith [freeze_pos]) hb
  have hab : a < b := by linarith
  refine ⟨n + 2, a, b, ha', hb', h1, hab, hb1, h3, h5, ?_, ?_⟩
  · unfold dewPoint; rw [ha', hb']
  · unfold zerobr
    rw [if_neg hab.ne]
    have hl : ∀ n s, loop (fun x => e - sat x) meps t n s ≠ .notSpanned := by
      intro n
      induction n with
      | zero => intro s; simp [loop]
      | succ n ih =>
        intro s
        unfold loop
        split
        · simp
        · exact ih _
    split
    · simp
    · split
      · simp
      · rw [if_neg]
        · exact hl _ _
        · apply not_lt.2
          exact mul_nonpos_of_nonpos_of_nonneg (by linarith) (by linarith)

/-- A dew point returned for the saturation pressure of temperature `T` is within twice the
tolerance of `T`, or is one of the two first guesses accepted because the pressures differ by less
than `tol0`. Missing: this early acceptance compares pressures with a temperature tolerance
(`C43_early_fails`), and convergence within `maxfun` rounds. -/
theorem C43_solution_partial (T meps t : ℝ) (hT : 0 < T) (hT2 : T ≤ 1000) (hm : 0 ≤ meps) (ht : 0 < t)
    (n : Nat) (a b x : ℝ) (ha : lowerLoop (sat T) n freeze = some a)
    (hb : upperLoop (sat T) n (freeze + 15) = some b) (hb2 : b ≤ 1000)
    (h : dewPoint n (sat T) meps t = some (.root x)) :
    |x - T| < 2 * (meps * |x| + t) ∨
      ((x = a ∨ x = b) ∧ |sat T - sat x| ≤ tol0 meps t a b) := by
  obtain ⟨h1, h2, h3⟩ := lowerLoop_spec _ n freeze a freeze_pos ha
  obtain ⟨h4, h5⟩ := upperLoop_spec _ n (freeze + 15) b (by linarith [freeze_pos]) hb
  have hab : a < b := by linarith
  unfold dewPoint at h
  rw [ha, hb] at h
  simp only [Option.some.injEq] at h
  obtain ⟨hx, hcase⟩ := C43_zerobr _ meps t a b hm ht hab.ne x h
  have htol : 0 < 2 * (meps * |x| + t) := by
    have := mul_nonneg hm (abs_nonneg x); linarith
  have mono : ∀ {s u : ℝ}, 0 < s → s < u → u ≤ 1000 → sat s < sat u := fun p q r =>
    C41_increasing _ _ p q r
  rw [Set.uIcc_of_le hab.le] at hx
  have hx0 : 0 < x := lt_of_lt_of_le h1 hx.1
  have hx1 : x ≤ 1000 := le_trans hx.2 hb2
  rcases hcase with ⟨hc, hxx⟩ | hc | ⟨y, hy, hopp, hlt⟩
  · exact .inr ⟨hxx, hc⟩
  · left
    have hxT : x = T := by
      rcases lt_trichotomy x T with h' | h' | h'
      · have := mono hx0 h' hT2; linarith
      · exact h'
      · have := mono hT h' hx1; linarith
    rw [hxT, sub_self, abs_zero]
    rw [hxT] at htol
    exact htol
  · left
    rw [Set.uIcc_of_le hab.le] at hy
    have hy0 : 0 < y := lt_of_lt_of_le h1 hy.1
    have hy1 : y ≤ 1000 := le_trans hy.2 hb2
    refine lt_of_le_of_lt ?_ hlt
    rcases hopp with ⟨p, q⟩ | ⟨p, q⟩
    · have hxT : x < T := by
        by_contra hn
        rcases eq_or_lt_of_le (not_lt.1 hn) with e | e
        · rw [e] at p; linarith
        · have := mono hT e hx1; linarith
      have hTy : T ≤ y := by
        by_contra hn
        have := mono hy0 (not_le.1 hn) hT2; linarith
      rw [abs_of_neg (by linarith), abs_of_nonneg (by linarith)]
      linarith
    · have hyT : y < T := by
        by_contra hn
        rcases eq_or_lt_of_le (not_lt.1 hn) with e | e
        · rw [e] at q; linarith
        · have := mono hT e hy1; linarith
      have hTx : T ≤ x := by
        by_contra hn
        have := mono hx0 (not_le.1 hn) hT2; linarith
      rw [abs_of_nonneg (by linarith), abs_of_neg (by linarith)]
      linarith

/-! ### Where the claim fails -/

/-- C43 as stated: for every positive vapor pressure a temperature is returned, within the tolerance
(twice over) of the temperature with that saturation pressure. -/
def C43_full : Prop :=
  ∀ (meps t T : ℝ), 0 ≤ meps → 0 < t → 0 < T → T ≤ 1000 →
    ∃ n x, dewPoint n (sat T) meps t = some (.root x) ∧ |x - T| < 2 * (meps * |x| + t)

theorem lowerLoop_unique {e : ℝ} {n k : Nat} {a0 a a' : ℝ} (h : lowerLoop e n a0 = some a)
    (h' : lowerLoop e k a0 = some a') : a = a' := by
  have h1 := lowerLoop_mono e n k a0 a h
  have h2 := lowerLoop_mono e k n a0 a' h'
  rw [Nat.add_comm, h1] at h2
  exact Option.some.inj h2

/-- At 150 K, with a tolerance of 0.01, the returned dew point is 115.2 K. -/
theorem C43_early_fails (n : Nat) (x : ℝ)
    (h : dewPoint n (sat 150) 0 (1 / 100) = some (.root x)) : x < 116 := by
  have hF : freeze = 27316 / 100 := rfl
  have mono : ∀ {s u : ℝ}, 0 < s → s < u → u ≤ 1000 → sat s < sat u := fun p q r =>
    C41_increasing _ _ p q r
  have hlow : lowerLoop (sat 150) 3 freeze = some (freeze * (3 / 4) * (3 / 4) * (3 / 4)) := by
    unfold lowerLoop
    rw [if_pos (mono (by norm_num) (by rw [hF]; norm_num) (by rw [hF]; norm_num))]
    unfold lowerLoop
    rw [if_pos (mono (by norm_num) (by rw [hF]; norm_num) (by rw [hF]; norm_num))]
    unfold lowerLoop
    rw [if_pos (mono (by norm_num) (by rw [hF]; norm_num) (by rw [hF]; norm_num))]
    unfold lowerLoop
    rw [if_neg (not_lt.2 (mono (by rw [hF]; norm_num) (by rw [hF]; norm_num) (by norm_num)).le)]
  have hsmall : sat 150 ≤ 1 / 200 := by
    have hexp : iceExp 150 ≤ -5 := by
      have hu : freeze / 150 = 27316 / 15000 := by rw [hF]; norm_num
      have hlog : 0 ≤ Real.log (freeze / 150) / Real.log 10 :=
        div_nonneg (Real.log_nonneg (by rw [hu]; norm_num)) log_ten_pos.le
      have h6 : Real.log (61071 / 10000) / Real.log 10 ≤ 1 := by
        rw [div_le_one log_ten_pos]
        exact Real.log_le_log (by norm_num) (by norm_num)
      unfold iceExp
      simp only
      rw [mul_div_assoc]
      generalize Real.log (freeze / 150) / Real.log 10 = A at hlog ⊢
      generalize Real.log (61071 / 10000) / Real.log 10 = B at h6 ⊢
      rw [hu, hF]
      linarith
    have h1 := Real.rpow_le_rpow_of_exponent_le (show (1 : ℝ) ≤ 10 by norm_num) hexp
    have h2 : (10 : ℝ) ^ (-5 : ℝ) = 1 / 100000 := by
      rw [Real.rpow_neg (by norm_num), show (5 : ℝ) = ((5 : ℕ) : ℝ) by norm_num, Real.rpow_natCast]
      norm_num
    rw [h2] at h1
    unfold sat
    rw [if_neg (by rw [hF]; norm_num)]
    unfold satIce
    linarith
  have hice : sat freeze = 61071 / 100 := by
    unfold sat
    rw [if_neg (lt_irrefl _)]
    unfold satIce iceExp
    simp only [div_self freeze_pos.ne', sub_self, mul_zero, Real.log_one, zero_div, zero_add]
    rw [Real.rpow_def_of_pos (by norm_num), mul_div_cancel₀ _ log_ten_pos.ne',
      Real.exp_log (by norm_num)]
    norm_num
  have hbig : 61071 / 100 < sat (freeze + 15) := by
    rw [← hice]
    exact mono freeze_pos (by linarith) (by rw [hF]; norm_num)
  unfold dewPoint at h
  cases ha : lowerLoop (sat 150) n freeze with
  | none => rw [ha] at h; cases h
  | some a =>
    rw [ha] at h
    have hup : upperLoop (sat 150) n (freeze + 15) = some (freeze + 15) := by
      cases n <;> (unfold upperLoop; rw [if_neg (by linarith)])
    rw [hup] at h
    simp only [Option.some.injEq] at h
    have hav := lowerLoop_unique ha hlow
    have hav' : a < 116 := by rw [hav, hF]; norm_num
    obtain ⟨ha0, -, ha1⟩ := lowerLoop_spec _ n freeze a freeze_pos ha
    have hap := C41_positive a
    have htol : tol0 0 (1 / 100) a (freeze + 15) = 1 / 200 := by unfold tol0; norm_num
    unfold zerobr at h
    rw [htol, if_neg (by rw [hF]; linarith), if_neg, if_pos] at h
    · simp only [Result.root.injEq] at h
      rw [← h]; exact hav'
    · rw [abs_of_nonneg (by linarith)]; linarith
    · rw [abs_of_nonpos (by linarith)]; linarith

theorem C43_fails : ¬ C43_full := by
  intro h
  obtain ⟨n, x, h1, h2⟩ := h 0 (1 / 100) 150 (le_refl _) (by norm_num) (by norm_num) (by norm_num)
  have h3 := C43_early_fails n x h1
  rw [zero_mul, zero_add, abs_of_neg (by linarith)] at h2
  linarith

/-- A vapor pressure of zero passes the range check and keeps the lower loop running for ever. -/
theorem C43_zero_never_ends_fails (n : Nat) (a0 : ℝ) : lowerLoop 0 n a0 = none := by
  induction n generalizing a0 with
  | zero => unfold lowerLoop; rw [if_pos (C41_positive _)]
  | succ n ih => unfold lowerLoop; rw [if_pos (C41_positive _)]; exact ih _

example : ∃ n a b, lowerLoop 600 n freeze = some a ∧ upperLoop 600 n (freeze + 15) = some b ∧ a < b := by
  obtain ⟨n, a, b, h1, h2, -, h3, -⟩ := C43_bracket_found_partial 600 0 1 (by norm_num)
    (by norm_num [seaLevel])
  exact ⟨n, a, b, h1, h2, h3⟩

end Verif.Dewpoint
