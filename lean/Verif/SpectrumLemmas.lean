import Verif.Spectrum
import Mathlib.Analysis.SpecialFunctions.Integrals.Basic
import Mathlib.MeasureTheory.Integral.IntervalIntegral.FundThmCalculus
import Mathlib.Tactic.LinearCombination
import Mathlib.Tactic.FieldSimp
import Mathlib.Tactic.Positivity

/-! Lemmas on piecewise cubics. -/

namespace Verif.Spectrum

open MeasureTheory

/-- The wavelengths increase. -/
def Inc : List Knot → Prop
  | a :: b :: l => a.x < b.x ∧ Inc (b :: l)
  | _ => True

instance decInc : (l : List Knot) → Decidable (Inc l)
  | [] => isTrue trivial
  | [_] => isTrue trivial
  | a :: b :: l => by
    have := decInc (b :: l)
    unfold Inc
    infer_instance

theorem cubic_left (a b : Knot) : cubic a b a.x = a.y := by
  simp [cubic]

theorem cubic_right (a b : Knot) (h : a.x < b.x) : cubic a b b.x = b.y := by
  have : (a.x : ℝ) < b.x := by exact_mod_cast h
  have : (b.x : ℝ) - a.x ≠ 0 := by linarith
  simp only [cubic]
  field_simp
  ring

theorem continuous_cubic (a b : Knot) : Continuous (cubic a b) := by
  unfold cubic
  fun_prop

theorem eval_first (a b : Knot) (l : List Knot) (h : Inc (a :: b :: l)) : eval (a :: b :: l) a.x = a.y := by
  have : (a.x : ℝ) ≤ b.x := by exact_mod_cast h.1.le
  rw [eval, if_pos (Or.inl this), cubic_left]

theorem eval_step (a b c : Knot) (l : List Knot) (x : ℝ) :
    eval (a :: b :: c :: l) x = if x ≤ b.x then cubic a b x else eval (b :: c :: l) x := by
  rw [eval]
  simp

theorem eval_two (a b : Knot) : eval [a, b] = cubic a b := by
  funext x
  rw [eval]
  simp

/-- From the second point on, the first one does not matter. -/
theorem eval_tail (a b c : Knot) (l : List Knot) (h : Inc (a :: b :: c :: l)) (x : ℝ) (hx : b.x ≤ x) :
    eval (a :: b :: c :: l) x = eval (b :: c :: l) x := by
  rw [eval_step]
  split
  · rename_i h1
    have : x = b.x := le_antisymm h1 hx
    rw [this, cubic_right _ _ h.1, eval_first _ _ _ h.2]
  · rfl

theorem eval_continuous : (l : List Knot) → (a b : Knot) → Inc (a :: b :: l) → Continuous (eval (a :: b :: l))
  | [], a, b, _ => by rw [eval_two]; exact continuous_cubic a b
  | c :: l, a, b, h => by
    have ih := eval_continuous l b c h.2
    have e : eval (a :: b :: c :: l) = fun x : ℝ => if x ≤ (b.x : ℝ) then cubic a b x else eval (b :: c :: l) x := by
      funext x; exact eval_step a b c l x
    rw [e]
    refine Continuous.if_le (continuous_cubic a b) ih continuous_id continuous_const ?_
    rintro x rfl
    rw [cubic_right _ _ h.1, eval_first _ _ _ h.2]

theorem eval_knot : (l : List Knot) → (a b : Knot) → Inc (a :: b :: l) → ∀ k ∈ a :: b :: l, eval (a :: b :: l) k.x = k.y
  | [], a, b, h, k, hk => by
    rw [eval_two]
    simp only [List.mem_cons, List.not_mem_nil, or_false] at hk
    rcases hk with rfl | rfl
    · exact cubic_left _ _
    · exact cubic_right _ _ h.1
  | c :: l, a, b, h, k, hk => by
    rcases List.mem_cons.1 hk with rfl | hk
    · exact eval_first _ _ _ h
    · rw [eval_tail a b c l h _ ?_]
      · exact eval_knot l b c h.2 k hk
      · have : ∀ (m : List Knot) (p : Knot), Inc (p :: m) → ∀ q ∈ p :: m, p.x ≤ q.x := by
          intro m
          induction m with
          | nil => intro p _ q hq; simp at hq; rw [hq]
          | cons r m ih =>
            intro p hp q hq
            rcases List.mem_cons.1 hq with rfl | hq
            · exact le_rfl
            · exact hp.1.le.trans (ih r hp.2 q hq)
        exact_mod_cast this _ _ h.2 k hk

/-! ### Area -/

/-- The integral between two neighbouring points. -/
def cell (a b : Knot) : ℚ := (b.x - a.x) * (a.y + b.y) / 2 + (b.x - a.x) ^ 2 * (a.t - b.t) / 12

/-- The integral from the first point to `X`. -/
def area : List Knot → ℚ → ℚ
  | a :: b :: l, X => if b.x ≤ X then cell a b + area (b :: l) X else 0
  | _, _ => 0

theorem integral_cubic (a b : Knot) (h : a.x < b.x) : ∫ x in (a.x : ℝ)..b.x, cubic a b x = cell a b := by
  have h0 : (a.x : ℝ) < b.x := by exact_mod_cast h
  have h1 : (b.x : ℝ) - a.x ≠ 0 := by linarith
  set H : ℝ := b.x - a.x with hH
  set c2 : ℝ := (3 * ((b.y - a.y) / H) - 2 * a.t - b.t) / H with hc2
  set c3 : ℝ := (a.t + b.t - 2 * ((b.y - a.y) / H)) / H ^ 2 with hc3
  have d : ∀ x : ℝ, HasDerivAt (fun x : ℝ => (a.y : ℝ) * (x - a.x) + a.t * ((x - a.x) ^ 2 / 2) + c2 * ((x - a.x) ^ 3 / 3) +
      c3 * ((x - a.x) ^ 4 / 4)) (cubic a b x) x := by
    intro x
    have e : HasDerivAt (fun x : ℝ => x - (a.x : ℝ)) 1 x := (hasDerivAt_id x).sub_const _
    have := ((((e.const_mul (a.y : ℝ)).add (((e.pow 2).div_const 2).const_mul (a.t : ℝ))).add
      (((e.pow 3).div_const 3).const_mul c2))).add (((e.pow 4).div_const 4).const_mul c3)
    refine HasDerivAt.congr_deriv this ?_
    show _ = (a.y : ℝ) + a.t * (x - a.x) + c2 * (x - a.x) ^ 2 + c3 * (x - a.x) ^ 3
    push_cast
    ring
  rw [intervalIntegral.integral_eq_sub_of_hasDerivAt (fun x _ => d x) ((continuous_cubic a b).intervalIntegrable _ _)]
  rw [← hH]
  unfold cell
  push_cast
  rw [← hH, hc2, hc3]
  field_simp
  ring

theorem first_le : (m : List Knot) → (p : Knot) → Inc (p :: m) → ∀ q ∈ p :: m, p.x ≤ q.x
  | [], p, _, q, hq => by simp at hq; rw [hq]
  | r :: m, p, hp, q, hq => by
    rcases List.mem_cons.1 hq with rfl | hq
    · exact le_rfl
    · exact hp.1.le.trans (first_le m r hp.2 q hq)

theorem area_first (a : Knot) (l : List Knot) (h : Inc (a :: l)) : area (a :: l) a.x = 0 := by
  cases l with
  | nil => rfl
  | cons b l => rw [area, if_neg (not_le.2 h.1)]

theorem integral_eval : (l : List Knot) → (a b : Knot) → Inc (a :: b :: l) → ∀ k ∈ a :: b :: l,
    ∫ x in (a.x : ℝ)..k.x, eval (a :: b :: l) x = area (a :: b :: l) k.x := by
  intro l
  induction l with
  | nil =>
    intro a b h k hk
    simp only [List.mem_cons, List.not_mem_nil, or_false] at hk
    rcases hk with rfl | rfl
    · rw [area_first _ _ h]; simp
    · rw [eval_two, integral_cubic _ _ h.1, area, if_pos le_rfl]
      simp [area]
  | cons c l ih =>
    intro a b h k hk
    rcases List.mem_cons.1 hk with rfl | hk
    · rw [area_first _ _ h]; simp
    · have hb : b.x ≤ k.x := first_le _ _ h.2 k hk
      have hb' : (b.x : ℝ) ≤ k.x := by exact_mod_cast hb
      have hab : (a.x : ℝ) ≤ b.x := by exact_mod_cast h.1.le
      have cont := eval_continuous (c :: l) a b h
      rw [area, if_pos hb, ← intervalIntegral.integral_add_adjacent_intervals (b := (b.x : ℝ)) (cont.intervalIntegrable _ _)
        (cont.intervalIntegrable _ _)]
      have e1 : ∫ x in (a.x : ℝ)..b.x, eval (a :: b :: c :: l) x = ∫ x in (a.x : ℝ)..b.x, cubic a b x := by
        apply intervalIntegral.integral_congr
        intro x hx
        rw [Set.uIcc_of_le hab] at hx
        simp only [eval_step, if_pos hx.2]
      have e2 : ∫ x in (b.x : ℝ)..k.x, eval (a :: b :: c :: l) x = ∫ x in (b.x : ℝ)..k.x, eval (b :: c :: l) x := by
        apply intervalIntegral.integral_congr
        intro x hx
        rw [Set.uIcc_of_le hb'] at hx
        exact eval_tail a b c l h x hx.1
      rw [e1, e2, integral_cubic _ _ h.1, ih b c h.2 k hk]
      push_cast
      rfl

/-! ### Sign -/

/-- No coefficient of Bernstein of the cubic is negative, and the value on the right is positive. -/
def Good (a b : Knot) : Prop := 0 ≤ a.y ∧ 0 ≤ 3 * a.y + (b.x - a.x) * a.t ∧ 0 ≤ 3 * b.y - (b.x - a.x) * b.t ∧ 0 < b.y

instance (a b : Knot) : Decidable (Good a b) := by unfold Good; infer_instance

theorem cubic_pos (a b : Knot) (h : a.x < b.x) (g : Good a b) (x : ℝ) (h1 : a.x < x) (h2 : x ≤ b.x) : 0 < cubic a b x := by
  obtain ⟨g0, g1, g2, g3⟩ := g
  have h0 : (a.x : ℝ) < b.x := by exact_mod_cast h
  have hH : (0 : ℝ) < b.x - a.x := by linarith
  have k0 : (0 : ℝ) ≤ a.y := by exact_mod_cast g0
  have k1 : (0 : ℝ) ≤ 3 * a.y + (b.x - a.x) * a.t := by exact_mod_cast g1
  have k2 : (0 : ℝ) ≤ 3 * b.y - (b.x - a.x) * b.t := by exact_mod_cast g2
  have k3 : (0 : ℝ) < b.y := by exact_mod_cast g3
  have e : cubic a b x = (a.y * (b.x - x) ^ 3 + (3 * a.y + (b.x - a.x) * a.t) * ((x - a.x) * (b.x - x) ^ 2) +
      (3 * b.y - (b.x - a.x) * b.t) * ((x - a.x) ^ 2 * (b.x - x)) + b.y * (x - a.x) ^ 3) / (b.x - a.x) ^ 3 := by
    have := hH.ne'
    simp only [cubic]
    field_simp
    ring
  rw [e]
  have p : 0 < x - a.x := by linarith
  have q : 0 ≤ b.x - x := by linarith
  apply div_pos _ (by positivity)
  have := mul_pos k3 (pow_pos p 3)
  have := mul_nonneg k0 (pow_nonneg q 3)
  have := mul_nonneg k1 (mul_nonneg p.le (pow_nonneg q 2))
  have := mul_nonneg k2 (mul_nonneg (pow_nonneg p.le 2) q)
  linarith

/-- All pairs of neighbours up to `X` are good. -/
def GoodTo (X : ℚ) : List Knot → Prop
  | a :: b :: l => (a.x < X → Good a b) ∧ GoodTo X (b :: l)
  | _ => True

instance decGoodTo (X : ℚ) : (l : List Knot) → Decidable (GoodTo X l)
  | [] => isTrue trivial
  | [_] => isTrue trivial
  | a :: b :: l => by
    have := decGoodTo X (b :: l)
    unfold GoodTo
    infer_instance

theorem eval_pos (X : ℚ) : (l : List Knot) → (a b : Knot) → Inc (a :: b :: l) → GoodTo X (a :: b :: l) →
    (∃ k ∈ b :: l, X ≤ k.x) → ∀ x : ℝ, a.x < x → x ≤ X → 0 < eval (a :: b :: l) x
  | [], a, b, h, g, ⟨k, hk, hX⟩, x, h1, h2 => by
    have : k = b := by simpa using hk
    subst this
    have : (X : ℝ) ≤ k.x := by exact_mod_cast hX
    have aX : a.x < X := by have : (a.x : ℝ) < X := by linarith
                            exact_mod_cast this
    rw [eval_two]
    exact cubic_pos a k h.1 (g.1 aX) x h1 (by linarith)
  | c :: l, a, b, h, g, ⟨k, hk, hX⟩, x, h1, h2 => by
    have aX : a.x < X := by have : (a.x : ℝ) < X := by linarith
                            exact_mod_cast this
    rw [eval_step]
    split
    · rename_i hb
      exact cubic_pos a b h.1 (g.1 aX) x h1 hb
    · rename_i hb
      have hb := not_le.1 hb
      refine eval_pos X l b c h.2 g.2 ⟨k, ?_, hX⟩ x hb h2
      rcases List.mem_cons.1 hk with rfl | hk
      · have : (X : ℝ) ≤ k.x := by exact_mod_cast hX
        linarith
      · exact hk

end Verif.Spectrum
