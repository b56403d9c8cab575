import Verif.LuLemmas
import Mathlib.LinearAlgebra.Matrix.ToLinearEquiv
import Mathlib.LinearAlgebra.Matrix.Determinant.Basic
import Mathlib.Tactic.NormNum

/-! C57: the linear solver. -/

namespace Verif.Lu

open Finset

variable {K : Type} [Field K] [LinearOrder K] [IsStrictOrderedRing K]

/-- The equations: `A x = b` with `b` in column `n`. -/
def Solves (n : Nat) (A : Nat → Nat → K) (b x : Nat → K) : Prop :=
  ∀ r < n, ∑ c ∈ range n, A r c * x c = b r

/-- The matrix without its right-hand side. -/
def mat (n : Nat) (A : Nat → Nat → K) : Matrix (Fin n) (Fin n) K := fun i j => A i j

theorem singular_iff_det (n : Nat) (A : Nat → Nat → K) : Singular n A ↔ (mat n A).det = 0 := by
  rw [← Matrix.exists_mulVec_eq_zero_iff]
  constructor
  · rintro ⟨v, ⟨c, hc, hv⟩, h⟩
    refine ⟨fun i => v i, fun e => hv (congrFun e ⟨c, hc⟩), ?_⟩
    funext i
    have := h i i.2
    rw [← Fin.sum_univ_eq_sum_range (fun c => A i c * v c)] at this
    exact this
  · rintro ⟨v, hv, h⟩
    obtain ⟨i, hi⟩ := Function.ne_iff.1 hv
    refine ⟨fun c => if hc : c < n then v ⟨c, hc⟩ else 0, ⟨i, i.2, by simpa using hi⟩, fun r hr => ?_⟩
    have := congrFun h ⟨r, hr⟩
    rw [← Fin.sum_univ_eq_sum_range (fun c => A r c * (if hc : c < n then v ⟨c, hc⟩ else 0))]
    simp only [Fin.is_lt, dif_pos, Fin.eta]
    exact this

/-- Claimed: the solution of every nonsingular system. -/
def C57_full : Prop :=
  ∀ (junk : Junk ℚ) (n : Nat) (a : Nat → Nat → ℚ), (mat n a).det ≠ 0 →
    ∃ x, lusolv junk n a = some x ∧ Solves n a (fun r => a r n) x

/-- The solver gives up exactly on singular matrices, whatever was in the uninitialised memory. -/
theorem C57_singular (junk : Junk K) (n : Nat) (a : Nat → Nat → K) :
    lusolv junk n a = none ↔ (mat n a).det = 0 := by
  have h := ludcmp_spec n a junk.vv junk.indx junk.imax
  unfold lusolv
  cases e : ludcmp n a junk.vv junk.indx junk.imax with
  | none =>
    rw [e] at h
    simp only [true_iff]
    rcases h with ⟨r, hr, h⟩ | h
    · apply Matrix.det_eq_zero_of_row_eq_zero ⟨r, hr⟩
      intro j
      exact h j j.2
    · exact (singular_iff_det n a).1 h
  | some s =>
    rw [e] at h
    simp only [reduceCtorEq, false_iff]
    rw [← singular_iff_det]
    rintro ⟨v, ⟨c, hc, hv⟩, h'⟩
    exact hv (h.injective v h' c hc)

/-- On a nonsingular matrix with no negative right-hand side (the kriging systems: distances and one)
the result solves the system. Missing: right-hand sides with negative entries, where the substitution
can skip terms (`C57_negative_fails`). -/
theorem C57_solves_partial (junk : Junk K) (n : Nat) (a : Nat → Nat → K) (hd : (mat n a).det ≠ 0)
    (hb : ∀ r < n, 0 ≤ a r n) :
    ∃ x, lusolv junk n a = some x ∧ Solves n a (fun r => a r n) x ∧
      ∀ y, Solves n a (fun r => a r n) y → ∀ c < n, y c = x c := by
  have hne := fun e => hd ((C57_singular junk n a).1 e)
  have h := ludcmp_spec n a junk.vv junk.indx junk.imax
  unfold lusolv at hne ⊢
  cases e : ludcmp n a junk.vv junk.indx junk.imax with
  | none => rw [e] at hne; exact absurd rfl hne
  | some s =>
    rw [e] at h
    have hs := lubksb_solves h hb
    refine ⟨_, rfl, hs, fun y hy c hc => ?_⟩
    have := h.injective (fun c => y c - lubksb n s.a s.indx c n) (fun r hr => ?_) c hc
    · exact sub_eq_zero.1 this
    · simp only [mul_sub, sum_sub_distrib]
      rw [hs r hr, hy r hr, sub_self]

/-- The result of such a system does not depend on the uninitialised memory. -/
theorem C57_determined_partial (junk junk' : Junk K) (n : Nat) (a : Nat → Nat → K) (hb : ∀ r < n, 0 ≤ a r n)
    (x x' : Nat → K) (h : lusolv junk n a = some x) (h' : lusolv junk' n a = some x') (c : Nat) (hc : c < n) :
    x c = x' c := by
  have hd : (mat n a).det ≠ 0 := fun e => by rw [(C57_singular junk n a).2 e] at h; cases h
  obtain ⟨y, e1, s1, -⟩ := C57_solves_partial junk n a hd hb
  obtain ⟨y', e2, -, u2⟩ := C57_solves_partial junk' n a hd hb
  rw [h] at e1
  rw [h'] at e2
  cases e1
  cases e2
  exact u2 x s1 c hc

/-- A sample system: `x + y = 5`, `x = 2`. -/
def sample (r c : Nat) : ℚ :=
  match r, c with
  | 0, 0 => 1 | 0, 1 => 1 | 0, 2 => 5
  | 1, 0 => 1 | 1, 1 => 0 | 1, 2 => 2
  | _, _ => 0

example : (mat 2 sample).det ≠ 0 ∧ ∀ r < 2, 0 ≤ sample r 2 := by
  refine ⟨?_, ?_⟩
  · rw [Matrix.det_fin_two]; simp [mat, sample]
  · intro r hr
    interval_cases r <;> simp [sample]

/-- `x = 0`, `x + y = -1`. -/
def badSystem (r c : Nat) : ℚ :=
  match r, c with
  | 0, 0 => 1
  | 1, 0 => 1 | 1, 1 => 1 | 1, 2 => -1
  | _, _ => 0

/-- The test `sum > 0.0` should be for a nonzero value: here the answer `(-1, 0)` is returned where
`(0, -1)` is correct. -/
theorem C57_negative_fails (junk : Junk ℚ) :
    (mat 2 badSystem).det ≠ 0 ∧ ∃ x, lusolv junk 2 badSystem = some x ∧ x 0 = -1 ∧ x 1 = 0 ∧
      ¬ Solves 2 badSystem (fun r => badSystem r 2) x := by
  refine ⟨by rw [Matrix.det_fin_two]; simp [mat, badSystem], ?_⟩
  have hn : ¬ (1 : ℚ) < 0 := by norm_num
  have hs : scaling 2 badSystem junk.vv = some (put (put junk.vv 0 1) 1 1) := by
    simp [scaling, rowBig, badSystem, List.range_succ, hn]
  have hx : (lusolv junk 2 badSystem).map (fun x => (x 0, x 1)) = some (-1, 0) := by
    simp [hn, lusolv, ludcmp, hs, List.range_succ, column, search, span, searchRow, upper, reduced, set, put, swapRows,
      badSystem, lubksb, forwardRow, backRow]
  obtain ⟨x, hx, e⟩ := Option.map_eq_some_iff.1 hx
  obtain ⟨e0, e1⟩ := Prod.mk.inj e
  refine ⟨x, hx, e0, e1, fun h => ?_⟩
  have := h 0 (by norm_num)
  rw [sum_range_succ, sum_range_one, e0, e1] at this
  norm_num [badSystem] at this

theorem C57_fails : ¬ C57_full := by
  intro h
  obtain ⟨hd, x, hx, -, -, hn⟩ := C57_negative_fails ⟨fun _ => 0, fun _ => 0, 0⟩
  obtain ⟨y, hy, hs⟩ := h ⟨fun _ => 0, fun _ => 0, 0⟩ 2 badSystem hd
  rw [hx] at hy
  cases hy
  exact hn hs

end Verif.Lu
