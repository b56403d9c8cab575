import Verif.LuFloatSolve
import Verif.LuProps
import Verif.IdwFloatProps

/-!
C152: the linear solver with rounding. Its result solves exactly a system whose matrix is near the given one, and it gives up
only when a matrix near the given one is singular.
-/

namespace Verif.LuFloat

open Finset
open Verif.Lu (Junk Solves mat)

/-- Rounding with relative error at most `u`. -/
structure Error (u : ℝ) (rnd : ℝ → ℝ) : Prop where
  nonneg : 0 ≤ u
  half : u < 1 / 2
  err : ∀ x, |rnd x - x| ≤ u * |x|

/-- `M r` bounds the entries of row `r`, without the right-hand side. -/
def Bounded (n : Nat) (A : Nat → Nat → ℝ) (M : Nat → ℝ) : Prop := ∀ r < n, ∀ c < n, |A r c| ≤ M r

/-- The bound on the change of the matrix, relative to the entries of the row: about `(3 n + 1) 2 ^ n u`. -/
noncomputable def gamma (u : ℝ) (n : Nat) : ℝ :=
  ((1 / (1 - u)) ^ (3 * n + 1) - 1) * ((1 / (1 - u)) ^ 5 * (1 + (1 / (1 - u)) ^ (n + 5)) ^ n)

/-- Claimed: every result solves a nearby system. -/
def C152_full : Prop :=
  ∀ (u : ℝ) (rnd : ℝ → ℝ), Error u rnd → ∀ (junk : Junk ℝ) (n : Nat) (A : Nat → Nat → ℝ) (M x : Nat → ℝ), Bounded n A M →
    lusolv rnd junk n A = some x →
    ∃ E : Nat → Nat → ℝ, (∀ r < n, ∀ c < n, |E r c| ≤ gamma u n * M r) ∧
      Solves n (fun r c => A r c + E r c) (fun r => A r n) x

theorem ratio {u : ℝ} {rnd : ℝ → ℝ} (h : Error u rnd) : Good (1 / (1 - u)) rnd ∧ 1 / (1 - u) < 2 := by
  have := h.half
  have := h.nonneg
  refine ⟨Good.of_error h.nonneg (by linarith) h.err, ?_⟩
  rw [div_lt_iff₀ (by linarith)]; linarith

theorem rowBig_le (n : Nat) (A : Nat → Nat → ℝ) (r : Nat) (m : ℝ) (h0 : 0 ≤ m) (h : ∀ c < n, |A r c| ≤ m) :
    Lu.rowBig n A r ≤ m := by
  unfold Lu.rowBig
  have key : ∀ k ≤ n, (List.range k).foldl (fun big j => if big < |A r j| then |A r j| else big) 0 ≤ m := by
    intro k
    induction k with
    | zero => intro _; simpa using h0
    | succ k ih =>
      intro hk
      rw [List.range_succ, List.foldl_append]
      simp only [List.foldl]
      split
      · exact h k (by omega)
      · exact ih (by omega)
  exact key n (le_refl _)

theorem gamma_nonneg {u : ℝ} {rnd : ℝ → ℝ} (h : Error u rnd) (n : Nat) : 0 ≤ gamma u n :=
  mul_nonneg (sub_nonneg.2 (one_le_pow₀ (ratio h).1.one)) (size_nonneg (ratio h).1.one n)

/-- The result of a system without negative right-hand sides (such as those of kriging) solves exactly a system whose matrix differs
from the given one, in every entry, by a small part of the largest entry of the row. The unknown memory does not matter. Missing:
negative right-hand sides, where the exact solver is wrong as well. -/
theorem C152_backward_partial {u : ℝ} {rnd : ℝ → ℝ} (h : Error u rnd) (junk : Junk ℝ) (n : Nat) (A : Nat → Nat → ℝ)
    (M x : Nat → ℝ) (hM : Bounded n A M) (hb : ∀ r < n, 0 ≤ A r n) (hx : lusolv rnd junk n A = some x) :
    ∃ E : Nat → Nat → ℝ, (∀ r < n, ∀ c < n, |E r c| ≤ gamma u n * M r) ∧
      Solves n (fun r c => A r c + E r c) (fun r => A r n) x := by
  obtain ⟨hg, hlt⟩ := ratio h
  unfold gamma
  generalize 1 / (1 - u) = ρ at hg hlt
  unfold lusolv ludcmp at hx
  have hs := scaling_spec (rnd := rnd) n A junk.vv
  cases e : scaling rnd n A junk.vv with
  | none => rw [e] at hx; cases hx
  | some w =>
    rw [e] at hx hs
    simp only at hx hs
    have hsc := fun r hr => scaleOf_spec hg hlt (hs r hr).2
    have hloop := ludcmp_loop hg hlt n A (scaleOf rnd n A) (fun r hr => ⟨(hsc r hr).1, (hsc r hr).2.1⟩) ⟨A, w, junk.indx, junk.imax⟩
      (Inv.zero fun r hr => ⟨(hs r hr).1, (hsc r hr).1⟩) n (le_refl _)
    cases e2 : (List.range n).foldlM (column rnd n) (⟨A, w, junk.indx, junk.imax⟩ : Lu.State ℝ) with
    | none => rw [e2] at hx; cases hx
    | some s =>
      rw [e2] at hloop hx
      simp only [Option.some.injEq] at hx
      have hnear := lubksb_near hg hloop hb
      choose! ε hε eε using hnear
      have hsw := fun i hi => (hloop.swaps i hi).2
      refine ⟨fun r c => ε ((Lu.sig s.indx n).symm r) c, fun r hr c hc => ?_, fun r hr => ?_⟩
      · obtain ⟨r', hr', rfl⟩ := Lu.sig_onto s.indx n n (le_refl _) hsw r hr
        beta_reduce
        rw [Equiv.symm_apply_apply]
        have hp : (0 : ℝ) ≤ ρ ^ (3 * n + 1) - 1 := sub_nonneg.2 (one_le_pow₀ hg.one)
        have hbig : Lu.rowBig n A (Lu.sig s.indx n r') ≤ M (Lu.sig s.indx n r') :=
          rowBig_le n A _ _ ((abs_nonneg _).trans (hM _ hr c hc)) (hM _ hr)
        have hS := unscale (n := n) (D := scaleOf rnd n A (Lu.sig s.indx n r')) (by linarith [hg.one])
          (sum_nonneg fun k _ => mul_nonneg (abs_nonneg _) (abs_nonneg _)) (Lu.rowBig_pos n A _).1 (hsc _ hr).2.2
          (hloop.product hg.one (fun r hr => (hsc r hr).1) (le_refl _) r' hr' c hc)
        calc |ε r' c| ≤ _ := hε r' hr' c hc
          _ ≤ (ρ ^ (3 * n + 1) - 1) * (size ρ n * M (Lu.sig s.indx n r')) :=
              mul_le_mul_of_nonneg_left (hS.trans (mul_le_mul_of_nonneg_left hbig (size_nonneg hg.one n))) hp
          _ = _ := by unfold size; ring
      · obtain ⟨r', hr', rfl⟩ := Lu.sig_onto s.indx n n (le_refl _) hsw r hr
        beta_reduce
        rw [Equiv.symm_apply_apply, ← hx]
        exact eε r' hr'

/-- When the solver gives up, a matrix near the given one is singular. -/
theorem C152_none {u : ℝ} {rnd : ℝ → ℝ} (h : Error u rnd) (junk : Junk ℝ) (n : Nat) (A : Nat → Nat → ℝ)
    (M : Nat → ℝ) (hM : Bounded n A M) (hx : lusolv rnd junk n A = none) :
    ∃ E : Nat → Nat → ℝ, (∀ r < n, ∀ c < n, |E r c| ≤ gamma u n * M r) ∧ (mat n fun r c => A r c + E r c).det = 0 := by
  have hgam := gamma_nonneg h n
  obtain ⟨hg, hlt⟩ := ratio h
  unfold gamma at hgam ⊢
  generalize 1 / (1 - u) = ρ at hg hlt hgam
  unfold lusolv ludcmp at hx
  have hs := scaling_spec (rnd := rnd) n A junk.vv
  cases e : scaling rnd n A junk.vv with
  | none =>
    rw [e] at hs
    obtain ⟨r, hr, hz⟩ := hs
    refine ⟨fun _ _ => 0, fun r hr c hc => ?_, ?_⟩
    · rw [abs_zero]
      exact mul_nonneg hgam ((abs_nonneg _).trans (hM r hr c hc))
    · apply Matrix.det_eq_zero_of_row_eq_zero ⟨r, hr⟩
      intro j
      simp only [mat, add_zero]
      exact hz j j.2
  | some w =>
    rw [e] at hx hs
    simp only at hx hs
    have hsc := fun r hr => scaleOf_spec hg hlt (hs r hr).2
    have hD : ∀ r < n, 0 < scaleOf rnd n A r ∧ ∀ c < n, scaleOf rnd n A r * |A r c| ≤ ρ := fun r hr =>
      ⟨(hsc r hr).1, (hsc r hr).2.1⟩
    have hloop := ludcmp_loop hg hlt n A (scaleOf rnd n A) hD ⟨A, w, junk.indx, junk.imax⟩
      (Inv.zero fun r hr => ⟨(hs r hr).1, (hsc r hr).1⟩) n (le_refl _)
    cases e2 : (List.range n).foldlM (column rnd n) (⟨A, w, junk.indx, junk.imax⟩ : Lu.State ℝ) with
    | some s => rw [e2] at hx; cases hx
    | none =>
      rw [e2] at hloop
      obtain ⟨j, hj, s, I, hc⟩ := hloop
      obtain ⟨E, hE, hsing⟩ := column_none hg hlt hD I hj hc
      refine ⟨E, fun r hr c hcn => ?_, (Lu.singular_iff_det n _).1 hsing⟩
      obtain ⟨S, hS0, hS1, hS2⟩ := hE r hr c hcn
      have hbig : Lu.rowBig n A r ≤ M r := rowBig_le n A _ _ ((abs_nonneg _).trans (hM _ hr c hcn)) (hM _ hr)
      have hS := unscale (n := n) (by linarith [hg.one]) hS0 (Lu.rowBig_pos n A _).1 (hsc _ hr).2.2 hS2
      have hp : (0 : ℝ) ≤ ρ ^ (n + 1) - 1 := sub_nonneg.2 (one_le_pow₀ hg.one)
      have hm0 : 0 ≤ M r := (abs_nonneg _).trans (hM r hr c hcn)
      calc |E r c| ≤ (ρ ^ (n + 1) - 1) * S := hS1
        _ ≤ (ρ ^ (n + 1) - 1) * (size ρ n * M r) :=
            mul_le_mul_of_nonneg_left (hS.trans (mul_le_mul_of_nonneg_left hbig (size_nonneg hg.one n))) hp
        _ ≤ (ρ ^ (3 * n + 1) - 1) * (size ρ n * M r) :=
            mul_le_mul_of_nonneg_right (sub_le_sub_right (pow_le_pow_right₀ hg.one (by omega)) 1)
              (mul_nonneg (size_nonneg hg.one n) hm0)
        _ = _ := by unfold size; ring

/-- How far the result is from satisfying the equations. Missing: negative right-hand sides. -/
theorem C152_residual_partial {u : ℝ} {rnd : ℝ → ℝ} (h : Error u rnd) (junk : Junk ℝ) (n : Nat) (A : Nat → Nat → ℝ)
    (M x : Nat → ℝ) (hM : Bounded n A M) (hb : ∀ r < n, 0 ≤ A r n) (hx : lusolv rnd junk n A = some x) (r : Nat) (hr : r < n) :
    |∑ c ∈ range n, A r c * x c - A r n| ≤ gamma u n * M r * ∑ c ∈ range n, |x c| := by
  obtain ⟨E, hE, hs⟩ := C152_backward_partial h junk n A M x hM hb hx
  have := hs r hr
  simp only [add_mul, sum_add_distrib] at this
  have e : ∑ c ∈ range n, A r c * x c - A r n = -∑ c ∈ range n, E r c * x c := by linarith
  rw [e, abs_neg, mul_sum]
  refine (abs_sum_le_sum_abs _ _).trans (sum_le_sum fun c hc => ?_)
  rw [mem_range] at hc
  rw [abs_mul]
  exact mul_le_mul_of_nonneg_right (hE r hr c hc) (abs_nonneg _)

/-- How far the result is from the solution `y`, with `B` an inverse of the matrix. Missing: negative right-hand sides. -/
theorem C152_forward_partial {u : ℝ} {rnd : ℝ → ℝ} (h : Error u rnd) (junk : Junk ℝ) (n : Nat) (A B : Nat → Nat → ℝ)
    (M x y : Nat → ℝ) (hM : Bounded n A M) (hb : ∀ r < n, 0 ≤ A r n) (hx : lusolv rnd junk n A = some x)
    (hB : ∀ i < n, ∀ c < n, ∑ r ∈ range n, B i r * A r c = if i = c then 1 else 0) (hy : Solves n A (fun r => A r n) y)
    (i : Nat) (hi : i < n) :
    |x i - y i| ≤ gamma u n * (∑ r ∈ range n, |B i r| * M r) * ∑ c ∈ range n, |x c| := by
  have key : ∀ z : Nat → ℝ, z i = ∑ r ∈ range n, B i r * ∑ c ∈ range n, A r c * z c := by
    intro z
    have : ∑ r ∈ range n, B i r * ∑ c ∈ range n, A r c * z c = ∑ c ∈ range n, (∑ r ∈ range n, B i r * A r c) * z c := by
      simp only [mul_sum, sum_mul]
      rw [sum_comm]
      exact sum_congr rfl fun _ _ => sum_congr rfl fun _ _ => by ring
    rw [this, sum_congr rfl fun c hc => by rw [hB i hi c (mem_range.1 hc)]]
    simp [hi]
  rw [key x, key y, ← sum_sub_distrib]
  rw [mul_assoc, sum_mul, mul_sum]
  refine (abs_sum_le_sum_abs _ _).trans (sum_le_sum fun r hr => ?_)
  rw [mem_range] at hr
  rw [hy r hr, ← mul_sub, abs_mul]
  calc |B i r| * |∑ c ∈ range n, A r c * x c - A r n| ≤ |B i r| * (gamma u n * M r * ∑ c ∈ range n, |x c|) :=
        mul_le_mul_of_nonneg_left (C152_residual_partial h junk n A M x hM hb hx r hr) (abs_nonneg _)
    _ = _ := by ring

/-- Without rounding the bound is zero. -/
theorem C152_exact (n : Nat) : gamma 0 n = 0 := by unfold gamma; simp

theorem error_id : Error 0 id := ⟨le_refl _, by norm_num, fun x => by simp⟩

/-- Rounding to double precision. -/
theorem error_double : Error ((1 / 2) ^ 53) (IdwFloat.binary 53) :=
  ⟨by positivity, by norm_num, IdwFloat.C144_nearest 52⟩

theorem gamma_mono {u : ℝ} {rnd : ℝ → ℝ} (h : Error u rnd) {m n : Nat} (hmn : m ≤ n) : gamma u m ≤ gamma u n := by
  have h1 := (ratio h).1.one
  unfold gamma
  generalize 1 / (1 - u) = ρ at h1
  have h0 : 0 ≤ ρ := by linarith
  apply mul_le_mul
  · exact sub_le_sub_right (pow_le_pow_right₀ h1 (by omega)) 1
  · apply mul_le_mul_of_nonneg_left _ (by positivity)
    calc (1 + ρ ^ (m + 5)) ^ m ≤ (1 + ρ ^ (n + 5)) ^ m :=
          pow_le_pow_left₀ (by positivity) (by linarith [pow_le_pow_right₀ h1 (show m + 5 ≤ n + 5 by omega)]) m
      _ ≤ _ := pow_le_pow_right₀ (by have : 0 ≤ ρ ^ (n + 5) := by positivity
                                     linarith) hmn
  · positivity
  · exact sub_nonneg.2 (one_le_pow₀ h1)

/-- In double precision with at most 11 unknowns the matrix solved differs by less than `10 ^ (-11)` of the entries of the row, with at
most 21 by less than `2 * 10 ^ (-8)`. -/
theorem C152_double (n : Nat) :
    (n ≤ 11 → gamma ((1 / 2) ^ 53) n ≤ 1 / 10 ^ 11) ∧ (n ≤ 21 → gamma ((1 / 2) ^ 53) n ≤ 2 / 10 ^ 8) := by
  refine ⟨fun hn => (gamma_mono error_double hn).trans ?_, fun hn => (gamma_mono error_double hn).trans ?_⟩
  · unfold gamma; norm_num
  · unfold gamma; norm_num

/-- With exact arithmetic it is the solver of `Lu`. -/
theorem solver_id (junk : Junk ℝ) (n : Nat) (a : Nat → Nat → ℝ) : lusolv id junk n a = Lu.lusolv junk n a := by
  have hr : ∀ a i j ks, reduced id a i j ks = Lu.reduced a i j ks := fun _ _ _ _ => rfl
  have hu : ∀ j a, upper id j a = Lu.upper j a := fun _ _ => rfl
  have hsr : ∀ j vv s i, searchRow id j vv s i = Lu.searchRow j vv s i := fun _ _ _ _ => rfl
  have hs : ∀ n j vv a im, search id n j vv a im = Lu.search n j vv a im := fun _ _ _ _ _ => rfl
  have hc : ∀ n, column id n = Lu.column n := fun n => by
    funext s j
    unfold column Lu.column
    simp only [hu, hs, id]
  have hd : ∀ n a vv ix im, ludcmp id n a vv ix im = Lu.ludcmp n a vv ix im := fun n a vv ix im => by
    unfold ludcmp Lu.ludcmp
    rw [hc]
    have : scaling id n a vv = Lu.scaling n a vv := rfl
    rw [this]
    cases Lu.scaling n a vv <;> rfl
  have hf : ∀ n ix, forwardRow id n ix = Lu.forwardRow n ix := fun n ix => by
    funext s i
    unfold forwardRow Lu.forwardRow
    rcases s with ⟨a, _ | ii⟩ <;> rfl
  have hb : ∀ n, backRow id n = Lu.backRow n := fun n => rfl
  have hl : ∀ n a ix, lubksb id n a ix = Lu.lubksb n a ix := fun n a ix => by
    unfold lubksb Lu.lubksb
    rw [hf, hb]
  unfold lusolv Lu.lusolv
  rw [hd]
  cases Lu.ludcmp n a junk.vv junk.indx junk.imax with
  | none => rfl
  | some s => simp only [hl]

/-- `x = 0`, `x + y = -1`. -/
def badSystem (r c : Nat) : ℝ :=
  match r, c with
  | 0, 0 => 1
  | 1, 0 => 1 | 1, 1 => 1 | 1, 2 => -1
  | _, _ => 0

/-- With a negative right-hand side the answer `(-1, 0)` is returned for a system solved by `(0, -1)`, even without rounding. -/
theorem C152_fails : ¬ C152_full := by
  intro h
  have hn : ¬ (1 : ℝ) < 0 := by norm_num
  let junk : Junk ℝ := ⟨fun _ => 0, fun _ => 0, 0⟩
  have hs : Lu.scaling 2 badSystem junk.vv = some (Lu.put (Lu.put junk.vv 0 1) 1 1) := by
    simp [Lu.scaling, Lu.rowBig, badSystem, List.range_succ, hn]
  have hx : (Lu.lusolv junk 2 badSystem).map (fun x => (x 0, x 1)) = some (-1, 0) := by
    simp [hn, Lu.lusolv, Lu.ludcmp, hs, List.range_succ, Lu.column, Lu.search, Lu.span, Lu.searchRow, Lu.upper, Lu.reduced, Lu.set, Lu.put,
      Lu.swapRows, badSystem, Lu.lubksb, Lu.forwardRow, Lu.backRow]
  rw [← solver_id] at hx
  obtain ⟨x, hx, e⟩ := Option.map_eq_some_iff.1 hx
  obtain ⟨e0, e1⟩ := Prod.mk.inj e
  obtain ⟨E, hE, hs⟩ := h 0 id error_id junk 2 badSystem (fun _ => 1) x (by
    intro r hr c hc
    interval_cases r <;> interval_cases c <;> simp [badSystem]) hx
  have h00 := hE 0 (by norm_num) 0 (by norm_num)
  have h01 := hE 0 (by norm_num) 1 (by norm_num)
  rw [C152_exact, zero_mul] at h00 h01
  have := hs 0 (by norm_num)
  beta_reduce at this
  rw [sum_range_succ, sum_range_one, e0, e1, abs_nonpos_iff.1 h00, abs_nonpos_iff.1 h01] at this
  norm_num [badSystem] at this

/-- The hypotheses can be met: a kriging system of two stations at distance 3 and a cell at distances 1 and 2, in double precision. -/
def two (r c : Nat) : ℝ :=
  match r, c with
  | 0, 1 => 3 | 1, 0 => 3 | 0, 2 => 1 | 1, 2 => 1 | 2, 0 => 1 | 2, 1 => 1
  | 0, 3 => 1 | 1, 3 => 2 | 2, 3 => 1
  | _, _ => 0

theorem two_bounded : Bounded 3 two (fun r => if r = 2 then 1 else 3) := by
  intro r hr c hc
  interval_cases r <;> interval_cases c <;> simp [two]

theorem two_rhs : ∀ r < 3, 0 ≤ two r 3 := by
  intro r hr
  interval_cases r <;> simp [two]

/-- An inverse. -/
noncomputable def twoInv (i r : Nat) : ℝ :=
  match i, r with
  | 0, 0 => -1 / 6 | 0, 1 => 1 / 6 | 0, 2 => 1 / 2
  | 1, 0 => 1 / 6 | 1, 1 => -1 / 6 | 1, 2 => 1 / 2
  | 2, 0 => 1 / 2 | 2, 1 => 1 / 2 | 2, 2 => -3 / 2
  | _, _ => 0

theorem two_inverse : ∀ i < 3, ∀ c < 3, ∑ r ∈ range 3, twoInv i r * two r c = if i = c then 1 else 0 := by
  intro i hi c hc
  interval_cases i <;> interval_cases c <;> norm_num [sum_range_succ, twoInv, two]

/-- Its solution, and that rounding leaves it nonsingular: no matrix within the bound of `two` is singular, so a result is returned. -/
theorem two_solved (junk : Junk ℝ) : ∃ x, lusolv (IdwFloat.binary 53) junk 3 two = some x := by
  cases e : lusolv (IdwFloat.binary 53) junk 3 two with
  | some x => exact ⟨x, rfl⟩
  | none =>
    exfalso
    obtain ⟨E, hE, hdet⟩ := C152_none error_double junk 3 two _ two_bounded e
    have hg := (C152_double 3).1 (by norm_num)
    have h0 := gamma_nonneg error_double 3
    have hb : ∀ r < 3, ∀ c < 3, |E r c| ≤ 1 / 10 ^ 3 := fun r hr c hc => by
      refine (hE r hr c hc).trans ?_
      calc gamma ((1 / 2) ^ 53) 3 * (if r = 2 then 1 else 3) ≤ gamma ((1 / 2) ^ 53) 3 * 3 :=
            mul_le_mul_of_nonneg_left (by split <;> norm_num) h0
        _ ≤ _ := by
          have : gamma ((1 / 2) ^ 53) 3 * 3 ≤ 1 / 10 ^ 11 * 3 := mul_le_mul_of_nonneg_right hg (by norm_num)
          refine this.trans ?_
          norm_num
    rw [← Lu.singular_iff_det] at hdet
    obtain ⟨v, ⟨k, hk, hv⟩, hz⟩ := hdet
    -- the largest entry of v
    have z0 := hz 0 (by norm_num)
    have z1 := hz 1 (by norm_num)
    have z2 := hz 2 (by norm_num)
    simp only [sum_range_succ, sum_range_zero, zero_add, two] at z0 z1 z2
    have term : ∀ r < 3, ∀ c < 3, |E r c * v c| ≤ 1 / 10 ^ 3 * |v c| := fun r hr c hc => by
      rw [abs_mul]; exact mul_le_mul_of_nonneg_right (hb r hr c hc) (abs_nonneg _)
    have row : ∀ r < 3, |E r 0 * v 0 + E r 1 * v 1 + E r 2 * v 2| ≤ 1 / 10 ^ 3 * (|v 0| + |v 1| + |v 2|) := fun r hr => by
      have t0 := term r hr 0 (by norm_num)
      have t1 := term r hr 1 (by norm_num)
      have t2 := term r hr 2 (by norm_num)
      have := abs_add_le (E r 0 * v 0 + E r 1 * v 1) (E r 2 * v 2)
      have := abs_add_le (E r 0 * v 0) (E r 1 * v 1)
      linarith
    have r0 := row 0 (by norm_num)
    have r1 := row 1 (by norm_num)
    have r2 := row 2 (by norm_num)
    set f0 := E 0 0 * v 0 + E 0 1 * v 1 + E 0 2 * v 2 with hf0
    set f1 := E 1 0 * v 0 + E 1 1 * v 1 + E 1 2 * v 2 with hf1
    set f2 := E 2 0 * v 0 + E 2 1 * v 1 + E 2 2 * v 2 with hf2
    have v0 : v 0 = f0 / 6 - f1 / 6 - f2 / 2 := by linarith
    have v1 : v 1 = -f0 / 6 + f1 / 6 - f2 / 2 := by linarith
    have v2 : v 2 = -f0 / 2 - f1 / 2 + 3 / 2 * f2 := by linarith
    have ab : ∀ a b c : ℝ, |a * f0 + b * f1 + c * f2| ≤ |a| * |f0| + |b| * |f1| + |c| * |f2| := fun a b c => by
      have := abs_add_le (a * f0 + b * f1) (c * f2)
      have := abs_add_le (a * f0) (b * f1)
      rw [abs_mul a, abs_mul b] at this
      rw [abs_mul c] at *
      linarith
    have a0 := ab (1 / 6) (-1 / 6) (-1 / 2)
    have a1 := ab (-1 / 6) (1 / 6) (-1 / 2)
    have a2 := ab (-1 / 2) (-1 / 2) (3 / 2)
    have w0 : |v 0| ≤ |f0| + |f1| + |f2| := by
      rw [v0]
      have e : f0 / 6 - f1 / 6 - f2 / 2 = 1 / 6 * f0 + -1 / 6 * f1 + -1 / 2 * f2 := by ring
      rw [e]
      norm_num at a0 ⊢
      linarith [abs_nonneg f0, abs_nonneg f1, abs_nonneg f2]
    have w1 : |v 1| ≤ |f0| + |f1| + |f2| := by
      rw [v1]
      have e : -f0 / 6 + f1 / 6 - f2 / 2 = -1 / 6 * f0 + 1 / 6 * f1 + -1 / 2 * f2 := by ring
      rw [e]
      norm_num at a1 ⊢
      linarith [abs_nonneg f0, abs_nonneg f1, abs_nonneg f2]
    have w2 : |v 2| ≤ 2 * (|f0| + |f1| + |f2|) := by
      rw [v2]
      have e : -f0 / 2 - f1 / 2 + 3 / 2 * f2 = -1 / 2 * f0 + -1 / 2 * f1 + 3 / 2 * f2 := by ring
      rw [e]
      norm_num at a2 ⊢
      linarith [abs_nonneg f0, abs_nonneg f1, abs_nonneg f2]
    have hsum : |v 0| + |v 1| + |v 2| ≤ 0 := by linarith
    have := abs_nonneg (v 0)
    have := abs_nonneg (v 1)
    have := abs_nonneg (v 2)
    apply hv
    apply abs_eq_zero.1
    interval_cases k <;> linarith

example (junk : Junk ℝ) : ∃ x, lusolv (IdwFloat.binary 53) junk 3 two = some x ∧
    |x 0 + x 1 - 1| ≤ 1 / 10 ^ 11 * (|x 0| + |x 1| + |x 2|) := by
  obtain ⟨x, hx⟩ := two_solved junk
  refine ⟨x, hx, ?_⟩
  have := C152_residual_partial error_double junk 3 two _ x two_bounded two_rhs hx 2 (by norm_num)
  simp only [sum_range_succ, sum_range_zero, zero_add, two] at this
  have hg := (C152_double 3).1 (by norm_num)
  norm_num at this hg ⊢
  refine this.trans (mul_le_mul_of_nonneg_right hg (by positivity))

end Verif.LuFloat
