import Verif.KrigeFloat
import Verif.KrigeLemmas
import Verif.LuFloatProps

/-! Helper lemmas for `KrigeFloatProps`. -/

namespace Verif.KrigeFloat

open Finset
open Verif.Krige (Mem Outcome load drop scatter useFlags cnt)
open Verif.Lu (put Junk)
open Verif.LuFloat (gamma Error Bounded)

/-- The equations up to the error `g` relative to `R` and one. -/
structure Near (g R : ℝ) (nsta : Nat) (ad : Nat → Nat → ℝ) (rhs : Nat → ℝ) (one : ℝ) (used : Nat → Prop) (w : Nat → ℝ) (mu : ℝ) : Prop where
  rows : ∀ m < nsta, used m → |∑ n ∈ range nsta, ad m n * w n + mu - rhs m| ≤ g * R * (∑ n ∈ range nsta, |w n| + |mu|)
  sum : |∑ n ∈ range nsta, w n - one| ≤ g * (∑ n ∈ range nsta, |w n| + |mu|)
  off : ∀ n < nsta, ¬ used n → w n = 0

/-- What is assumed of the distances. -/
structure Input (R : ℝ) (nsta : Nat) (ad : Nat → Nat → ℝ) (dgrid : Nat → ℝ) : Prop where
  one : 1 ≤ R
  ad : ∀ m < nsta, ∀ n < nsta, |ad m n| ≤ R
  grid : ∀ m < nsta, 0 ≤ dgrid m ∧ dgrid m ≤ R

theorem Near.mono {g g' R : ℝ} {nsta : Nat} {ad : Nat → Nat → ℝ} {rhs : Nat → ℝ} {one : ℝ} {used : Nat → Prop} {w : Nat → ℝ} {mu : ℝ}
    (h : Near g R nsta ad rhs one used w mu) (hR : 0 ≤ R) (hg : g ≤ g') : Near g' R nsta ad rhs one used w mu := by
  have h0 : 0 ≤ ∑ n ∈ range nsta, |w n| + |mu| := add_nonneg (sum_nonneg fun _ _ => abs_nonneg _) (abs_nonneg _)
  exact ⟨fun m hm hf => (h.rows m hm hf).trans (mul_le_mul_of_nonneg_right (mul_le_mul_of_nonneg_right hg hR) h0),
    h.sum.trans (mul_le_mul_of_nonneg_right hg h0), h.off⟩

theorem load_bounded {R : ℝ} {nsta : Nat} {ad : Nat → Nat → ℝ} {dgrid : Nat → ℝ} (hi : Input R nsta ad dgrid) (flag : Nat → Bool)
    (a : Nat → Nat → ℝ) : Bounded (cnt flag nsta + 1) (load nsta (cnt flag nsta) ad dgrid flag a)
      (fun r => if r = cnt flag nsta then 1 else R) := by
  obtain ⟨h1, h2, h3⟩ := Krige.load_spec nsta ad dgrid flag a
  intro r hr c hc
  beta_reduce
  by_cases er : r = cnt flag nsta
  · rw [if_pos er, er]
    by_cases ec : c = cnt flag nsta
    · rw [ec, h2, abs_zero]; exact zero_le_one
    · obtain ⟨n, hn, hf, rfl⟩ := Krige.cnt_onto flag (show c < cnt flag nsta by omega)
      rw [(h1 n hn hf).2.2.1, abs_one]
  · rw [if_neg er]
    obtain ⟨m, hm, hf, rfl⟩ := Krige.cnt_onto flag (show r < cnt flag nsta by omega)
    by_cases ec : c = cnt flag nsta
    · rw [ec, (h1 m hm hf).2.1, abs_one]; exact hi.one
    · obtain ⟨n, hn, hf', rfl⟩ := Krige.cnt_onto flag (show c < cnt flag nsta by omega)
      rw [(h1 m hm hf).1 n hn hf']; exact hi.ad m hm n hn

theorem load_nonneg {R : ℝ} {nsta : Nat} {ad : Nat → Nat → ℝ} {dgrid : Nat → ℝ} (hi : Input R nsta ad dgrid) (flag : Nat → Bool)
    (a : Nat → Nat → ℝ) : ∀ r < cnt flag nsta + 1, 0 ≤ load nsta (cnt flag nsta) ad dgrid flag a r (cnt flag nsta + 1) := by
  intro r hr
  rcases Krige.load_rhs nsta ad dgrid flag a r hr with ⟨-, e⟩ | ⟨m, hm, -, -, e⟩
  · rw [e]; exact zero_le_one
  · rw [e]; exact (hi.grid m hm).1

/-- Rows of the loaded matrix and sums over the stations. -/
theorem transfer {g R : ℝ} {nsta : Nat} {ad : Nat → Nat → ℝ} (dgrid : Nat → ℝ) (flag : Nat → Bool) (a : Nat → Nat → ℝ)
    (x rhs : Nat → ℝ) (one : ℝ)
    (h : ∀ r < cnt flag nsta + 1, |∑ c ∈ range (cnt flag nsta + 1), load nsta (cnt flag nsta) ad dgrid flag a r c * x c -
      (if r = cnt flag nsta then one else rhs r)| ≤
      g * (if r = cnt flag nsta then 1 else R) * ∑ c ∈ range (cnt flag nsta + 1), |x c|) :
    Near g R nsta ad (fun m => rhs (cnt flag m)) one (fun m => flag m = true)
      (fun n => if flag n = true then x (cnt flag n) else 0) (x (cnt flag nsta)) := by
  have hsum : ∑ c ∈ range (cnt flag nsta + 1), |x c| =
      ∑ n ∈ range nsta, |if flag n = true then x (cnt flag n) else 0| + |x (cnt flag nsta)| := by
    rw [sum_range_succ, Krige.sum_cnt flag (fun c => |x c|)]
    congr 1
    apply sum_congr rfl
    intro n _
    split
    · rfl
    · rw [abs_zero]
  obtain ⟨e1, e2⟩ := (Krige.load_solves nsta ad dgrid flag a x (fun n => if flag n = true then x (cnt flag n) else 0) (fun _ _ => rfl)
    (fun r => ∑ c ∈ range (cnt flag nsta + 1), load nsta (cnt flag nsta) ad dgrid flag a r c * x c)
    (∑ c ∈ range (cnt flag nsta + 1), load nsta (cnt flag nsta) ad dgrid flag a (cnt flag nsta) c * x c)).2
    (fun r hr => by
      split
      · rename_i e; rw [e]
      · rfl)
  refine ⟨fun m hm hf => ?_, ?_, fun n _ hf => by simp [hf]⟩
  · have hlt := Krige.cnt_lt flag hm hf
    have := h (cnt flag m) (by omega)
    rw [if_neg (by omega), if_neg (by omega), hsum] at this
    rw [e1 m hm hf]
    exact this
  · have := h (cnt flag nsta) (by omega)
    rw [if_pos rfl, if_pos rfl, hsum, mul_one] at this
    rw [e2]
    exact this

variable {u : ℝ} {rnd : ℝ → ℝ}

/-- One round. -/
theorem round_near (h : Error u rnd) {R : ℝ} {nsta : Nat} {ad : Nat → Nat → ℝ} {dgrid : Nat → ℝ} (hi : Input R nsta ad dgrid)
    (junk : Junk ℝ) (flag : Nat → Bool) (a : Nat → Nat → ℝ) (x : Nat → ℝ) (hle : cnt flag nsta ≤ nsta)
    (hx : LuFloat.lusolv rnd junk (cnt flag nsta + 1) (load nsta (cnt flag nsta) ad dgrid flag a) = some x) :
    Near (gamma u (nsta + 1)) R nsta ad dgrid 1 (fun m => flag m = true)
      (fun n => if flag n = true then x (cnt flag n) else 0) (x (cnt flag nsta)) := by
  have hres := LuFloat.C152_residual_partial h junk _ _ _ x (load_bounded hi flag a) (load_nonneg hi flag a) hx
  obtain ⟨h1, h2, h3⟩ := Krige.load_spec nsta ad dgrid flag a
  have := transfer (g := gamma u (cnt flag nsta + 1)) (R := R) dgrid flag a x
    (fun r => load nsta (cnt flag nsta) ad dgrid flag a r (cnt flag nsta + 1)) 1 (fun r hr => by
      have := hres r hr
      by_cases e : r = cnt flag nsta
      · rw [if_pos e] at this ⊢
        rw [if_pos e]
        rw [e] at this ⊢
        rw [h3] at this
        exact this
      · rw [if_neg e] at this ⊢
        rw [if_neg e]
        exact this)
  have hm := this.mono (by linarith [hi.one]) (LuFloat.gamma_mono h (show cnt flag nsta + 1 ≤ nsta + 1 by omega))
  refine ⟨fun m hm' hf => ?_, hm.sum, hm.off⟩
  have := hm.rows m hm' hf
  simp only [(h1 m hm' hf).2.2.2] at this
  exact this

/-- The solver gives up: the equations nearly have a nonzero solution for right-hand sides zero. -/
theorem round_none (h : Error u rnd) {R : ℝ} {nsta : Nat} {ad : Nat → Nat → ℝ} {dgrid : Nat → ℝ} (hi : Input R nsta ad dgrid)
    (junk : Junk ℝ) (flag : Nat → Bool) (a : Nat → Nat → ℝ) (hle : cnt flag nsta ≤ nsta)
    (hx : LuFloat.lusolv rnd junk (cnt flag nsta + 1) (load nsta (cnt flag nsta) ad dgrid flag a) = none) :
    ∃ v nu, (nu ≠ 0 ∨ ∃ n < nsta, v n ≠ 0) ∧
      Near (gamma u (nsta + 1)) R nsta ad (fun _ => 0) 0 (fun m => flag m = true) v nu := by
  obtain ⟨E, hE, hdet⟩ := LuFloat.C152_none h junk _ _ _ (load_bounded hi flag a) hx
  obtain ⟨x, ⟨c, hc, hxc⟩, hz⟩ := (Lu.singular_iff_det _ _).2 hdet
  refine ⟨fun n => if flag n = true then x (cnt flag n) else 0, x (cnt flag nsta), ?_, ?_⟩
  · by_cases e : c = cnt flag nsta
    · left; rw [← e]; exact hxc
    · right
      obtain ⟨n, hn, hf, rfl⟩ := Krige.cnt_onto flag (show c < cnt flag nsta by omega)
      exact ⟨n, hn, by simpa [hf] using hxc⟩
  · have := transfer (g := gamma u (cnt flag nsta + 1)) (R := R) dgrid flag a x (fun _ => 0) 0 (fun r hr => by
      have e := hz r hr
      simp only [add_mul, sum_add_distrib] at e
      have e2 : ∑ c ∈ range (cnt flag nsta + 1), load nsta (cnt flag nsta) ad dgrid flag a r c * x c -
          (if r = cnt flag nsta then 0 else 0) = -∑ c ∈ range (cnt flag nsta + 1), E r c * x c := by
        rw [ite_self]; linarith
      rw [e2, abs_neg, mul_sum]
      refine (abs_sum_le_sum_abs _ _).trans (sum_le_sum fun c hc => ?_)
      rw [mem_range] at hc
      rw [abs_mul]
      exact mul_le_mul_of_nonneg_right (hE r hr c hc) (abs_nonneg _))
    exact this.mono (by linarith [hi.one]) (LuFloat.gamma_mono h (show cnt flag nsta + 1 ≤ nsta + 1 by omega))

theorem cnt_le (flag : Nat → Bool) (N : Nat) : cnt flag N ≤ N := by
  induction N with
  | zero => exact le_refl _
  | succ N ih => rw [cnt]; split <;> omega

/-- Some station is in use whenever the solver has an answer. -/
theorem round_used (h : Error u rnd) {R : ℝ} {nsta : Nat} {ad : Nat → Nat → ℝ} {dgrid : Nat → ℝ} (hi : Input R nsta ad dgrid)
    (junk : Junk ℝ) (flag : Nat → Bool) (a : Nat → Nat → ℝ) (x : Nat → ℝ)
    (hx : LuFloat.lusolv rnd junk (cnt flag nsta + 1) (load nsta (cnt flag nsta) ad dgrid flag a) = some x) :
    ∃ m < nsta, flag m = true := by
  by_contra hc
  have h0 : cnt flag nsta = 0 := by
    by_contra hne
    obtain ⟨n, hn, hf, -⟩ := Krige.cnt_onto flag (show 0 < cnt flag nsta by omega)
    exact hc ⟨n, hn, hf⟩
  obtain ⟨-, h2, h3⟩ := Krige.load_spec nsta ad dgrid flag a
  have hnn := load_nonneg hi flag a
  simp only [h0] at hx h2 h3 hnn
  generalize load nsta 0 ad dgrid flag a = b at hx h2 h3 hnn
  have := LuFloat.C152_residual_partial h junk 1 b (fun _ => 0) x (fun r hr c hc => by
    have e1 : r = 0 := by omega
    have e2 : c = 0 := by omega
    rw [e1, e2, h2, abs_zero]) hnn hx 0 (by norm_num)
  rw [sum_range_one, h2, h3] at this
  norm_num at this

end Verif.KrigeFloat
