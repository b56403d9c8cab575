import Verif.HorizonFloat
import Verif.HorizonProps
import Verif.LuFloatProps

/-!
Helper lemmas for the horizon search with rounding: slopes that are known up to an error, and the error of a slope.
-/

namespace Verif.HorizonFloat

open Horizon (Num S S_mul S_add Straight Forward)
open LuFloat (Error)

/-! ### A search among slopes with an error -/

/-- Every point up to `N` is below the line of slope `s + E` from the instrument at `i`. -/
def Under (z : Nat → ℝ) (r : Nat → Nat → ℝ) (h : ℝ) (N i : Nat) (s E : ℝ) : Prop :=
  ∀ k, i < k → k < N → z k - z i - h ≤ (s + E) * r i k

theorem move_under {z : Nat → ℝ} {r : Nat → Nat → ℝ} {h δ e E F : ℝ} {N i j m : Nat} (st : Straight r δ N) (hh : 0 ≤ h)
    (he : 0 ≤ e) (hE : h / δ ≤ E) (hEF : E ≤ F)
    (hij : i < j) (hjm : j < m) (hm : m < N) (hP : Under z r h N j (S z r h j m) E)
    (hmv : S z r h i j ≤ S z r h i m + e)
    (hI : ∀ k, i < k → k < j → z k - z i - h ≤ (S z r h i j + F) * r i k) :
    ∀ k, i < k → k < m → z k - z i - h ≤ (S z r h i m + (F + e)) * r i k := by
  intro k hik hkm
  have rp : ∀ a b, a < b → b < N → 0 < r a b := fun a b h1 h2 => lt_of_lt_of_le st.pos (st.min a b h1 h2)
  have hd : 0 ≤ h / δ := div_nonneg hh st.pos.le
  have rik := rp i k hik (by omega)
  rcases lt_trichotomy k j with hk | hk | hk
  · have := hI k hik hk
    have h2 : (S z r h i j + F) * r i k ≤ (S z r h i m + (F + e)) * r i k :=
      mul_le_mul_of_nonneg_right (by linarith) rik.le
    linarith
  · subst hk
    rw [← S_mul rik]
    exact mul_le_mul_of_nonneg_right (by linarith) rik.le
  · have hk1 := hP k hk (by omega)
    have rjk := rp j k hk (by omega)
    have rij := rp i j hij (by omega)
    have rjm := rp j m hjm hm
    have rim := rp i m (by omega) hm
    have rkm := rp k m hkm hm
    have a1 := st.add i j k hij hk (by omega)
    have a2 := st.add i j m hij hjm hm
    have a3 := st.add j k m hk hkm hm
    have e0 := S_mul (z := z) (h := h) rij
    have e1 := S_add (z := z) (h := h) rij rjm rim
    have hhd : h ≤ F * r i j := by
      have h1 : h ≤ h / δ * r i j := by
        rw [div_mul_eq_mul_div, le_div_iff₀ st.pos]
        exact mul_le_mul_of_nonneg_left (st.min i j hij (by omega)) hh
      exact h1.trans (mul_le_mul_of_nonneg_right (hE.trans hEF) rij.le)
    have hz : z k - z i - h ≤ (S z r h j m + E) * r j k + S z r h i j * r i j + h := by rw [e0]; linarith
    have hEr : E * r j k ≤ F * r j k := mul_le_mul_of_nonneg_right hEF rjk.le
    generalize S z r h j m = σ at *
    generalize S z r h i j = s at *
    generalize S z r h i m = s' at *
    have key : σ * r j k + s * r i j ≤ s' * r i k + e * r i k := by
      rw [a1]
      have h2 : s * r i j ≤ (s' + e) * r i j := mul_le_mul_of_nonneg_right hmv rij.le
      have h7 : 0 ≤ e * r j k := mul_nonneg he rjk.le
      have h8 : 0 ≤ e * r i j := mul_nonneg he rij.le
      by_cases hσ : σ ≤ s'
      · have h1 : σ * r j k ≤ s' * r j k := mul_le_mul_of_nonneg_right hσ rjk.le
        linarith
      · rw [not_le] at hσ
        have h1 : σ * r j m + s * r i j ≤ s' * r i m := by linarith
        rw [a2] at h1
        have h6 : (σ - s') * r j k ≤ (σ - s') * r j m := mul_le_mul_of_nonneg_left (by linarith) (by linarith)
        linarith
    have e2 : (s' + (F + e)) * r i k = s' * r i k + e * r i k + F * r i j + F * r j k := by rw [a1]; ring
    have e3 : (σ + E) * r j k = σ * r j k + E * r j k := by ring
    linarith

theorem stop_under {z : Nat → ℝ} {r : Nat → Nat → ℝ} {h δ e E F : ℝ} {N i j : Nat} {σ : ℝ} (st : Straight r δ N)
    (hh : 0 ≤ h) (he : 0 ≤ e) (hF : h / δ ≤ F) (hEF : E ≤ F)
    (hij : i < j) (hj : j < N) (hP : Under z r h N j σ E) (hs : j < N - 1 → σ ≤ S z r h i j + e)
    (hI : ∀ k, i < k → k < j → z k - z i - h ≤ (S z r h i j + F) * r i k) :
    Under z r h N i (S z r h i j) (F + e) := by
  intro k hik hk
  have rp : ∀ a b, a < b → b < N → 0 < r a b := fun a b h1 h2 => lt_of_lt_of_le st.pos (st.min a b h1 h2)
  have hd : 0 ≤ h / δ := div_nonneg hh st.pos.le
  have rik := rp i k hik hk
  rcases lt_trichotomy k j with hkj | hkj | hkj
  · refine (hI k hik hkj).trans (mul_le_mul_of_nonneg_right (by linarith) rik.le)
  · subst hkj
    rw [← S_mul rik]
    exact mul_le_mul_of_nonneg_right (by linarith) rik.le
  · have rjk := rp j k hkj hk
    have rij := rp i j hij hj
    have h1 := hP k hkj hk
    have h2 := hs (by omega)
    have e0 := S_mul (z := z) (h := h) rij
    have a1 := st.add i j k hij hkj hk
    have hhd : h ≤ (F + e) * r i j := by
      have h1 : h ≤ h / δ * r i j := by
        rw [div_mul_eq_mul_div, le_div_iff₀ st.pos]
        exact mul_le_mul_of_nonneg_left (st.min i j hij hj) hh
      exact h1.trans (mul_le_mul_of_nonneg_right (by linarith) rij.le)
    have h3 : (σ + E) * r j k ≤ (S z r h i j + (F + e)) * r j k := mul_le_mul_of_nonneg_right (by linarith) rjk.le
    have e2 : (S z r h i j + (F + e)) * r i k =
        S z r h i j * r i j + (F + e) * r i j + (S z r h i j + (F + e)) * r j k := by rw [a1]; ring
    rw [e2]; linarith

theorem Under.mono {z : Nat → ℝ} {r : Nat → Nat → ℝ} {h δ : ℝ} {N i : Nat} {s s' E E' : ℝ} (st : Straight r δ N)
    (h1 : Under z r h N i s E) (hs : s + E ≤ s' + E') : Under z r h N i s' E' := by
  intro k hik hk
  exact (h1 k hik hk).trans (mul_le_mul_of_nonneg_right hs (lt_of_lt_of_le st.pos (st.min i k hik hk)).le)

/-- The error at `j`: `ℓ j` is the number of hops from `j` to the end of the line. Every turn of a loop adds `e`, and
every turn but two for each `i` takes a point out of the chain. -/
noncomputable def bound (D e : ℝ) (N : Nat) (ℓ : Nat → Nat) (j : Nat) : ℝ := D + e * (2 * ((N : ℝ) - 1 - j) - ℓ j)

theorem search_under {z : Nat → ℝ} {r : Nat → Nat → ℝ} {h δ e : ℝ} {N i : Nat} {H : Nat → Nat} {A B : Nat → Num}
    {ℓ : Nat → Nat} (st : Straight r δ N) (hh : 0 ≤ h) (he : 0 ≤ e)
    (hH : ∀ j, i < j → j < N - 1 → j < H j ∧ H j < N) (hlast : H (N - 1) = N - 1)
    (hℓ : ∀ j, i < j → j < N - 1 → ℓ j = ℓ (H j) + 1) (hℓ0 : ℓ (N - 1) = 0)
    (hlen : ∀ j, i < j → j < N → ℓ j ≤ N - 1 - j)
    (hP : ∀ j, i < j → j < N - 1 → Under z r h N j (S z r h j (H j)) (bound (h / δ) e N ℓ j))
    (hmove : ∀ j, i < j → j < N - 1 → (A j).lt (B j) → S z r h i j ≤ S z r h i (H j) + e)
    (hstop : ∀ j, i < j → j < N - 1 → ¬ (A j).lt (B j) → S z r h j (H j) ≤ S z r h i j + e)
    (heq : ∀ j, i < j → j < N - 1 → ¬ (A j).lt (B j) → ¬ (B j).lt (A j) → S z r h i j ≤ S z r h i (H j) + e)
    (fuel j : Nat) (hij : i < j) (hj : j < N) (v : Nat) (hv : Horizon.search N H A B fuel j = some v)
    (hI : ∀ k, i < k → k < j →
      z k - z i - h ≤ (S z r h i j + (h / δ + e * (2 * ((N : ℝ) - 2 - i) - ℓ j))) * r i k) :
    Under z r h N i (S z r h i v) (h / δ + e * (2 * ((N : ℝ) - 1 - i) - (ℓ v + 1))) := by
  induction fuel generalizing j with
  | zero => simp [Horizon.search] at hv
  | succ fuel ih =>
    unfold Horizon.search at hv
    have hji : (i : ℝ) + 1 ≤ j := by exact_mod_cast hij
    have hlj : (ℓ j : ℝ) ≤ (N : ℝ) - 1 - j := by
      have := hlen j hij hj
      have h2 : ((ℓ j + 1 + j : ℕ) : ℝ) ≤ (N : ℕ) := by exact_mod_cast (by omega : ℓ j + 1 + j ≤ N)
      push_cast at h2; linarith
    have hjN' : (j : ℝ) + 1 ≤ N := by exact_mod_cast hj
    have hD : 0 ≤ h / δ := div_nonneg hh st.pos.le
    have hF : h / δ ≤ h / δ + e * (2 * ((N : ℝ) - 2 - i) - ℓ j) := by
      have : 0 ≤ e * (2 * ((N : ℝ) - 2 - i) - ℓ j) := mul_nonneg he (by linarith)
      linarith
    have hB : h / δ ≤ bound (h / δ) e N ℓ j := by
      unfold bound
      have : 0 ≤ e * (2 * ((N : ℝ) - 1 - j) - ℓ j) := mul_nonneg he (by linarith)
      linarith
    have hBF : bound (h / δ) e N ℓ j ≤ h / δ + e * (2 * ((N : ℝ) - 2 - i) - ℓ j) := by
      unfold bound
      have : e * (2 * ((N : ℝ) - 1 - j) - ℓ j) ≤ e * (2 * ((N : ℝ) - 2 - i) - ℓ j) :=
        mul_le_mul_of_nonneg_left (by linarith) he
      linarith
    by_cases hjN : j = N - 1
    · have hvj : v = j := by
        rw [hjN] at hv ⊢
        simp only [if_true, hlast] at hv
        split at hv
        · exact (Option.some.inj hv).symm
        · split at hv <;> exact (Option.some.inj hv).symm
      have hb := stop_under (σ := 0) (E := bound (h / δ) e N ℓ j) (e := e) st hh he hF hBF hij hj
        (fun k h1 h2 => by omega) (fun hc => by omega) hI
      rw [hvj]
      refine hb.mono st ?_
      linarith
    · have hj1 : j < N - 1 := by omega
      obtain ⟨h1, h2⟩ := hH j hij hj1
      have hl1 : (ℓ j : ℝ) = ℓ (H j) + 1 := by rw [hℓ j hij hj1]; push_cast; rfl
      rw [if_neg hjN] at hv
      by_cases hc : (A j).lt (B j)
      · rw [if_pos hc] at hv
        refine ih (H j) (by omega) h2 hv fun k hk1 hk2 => ?_
        have := move_under st hh he hB hBF hij h1 h2 (hP j hij hj1) (hmove j hij hj1 hc) hI k hk1 hk2
        rw [show h / δ + e * (2 * ((N : ℝ) - 2 - i) - ℓ (H j)) =
          h / δ + e * (2 * ((N : ℝ) - 2 - i) - ℓ j) + e by rw [hl1]; ring]
        exact this
      · rw [if_neg hc] at hv
        have hb := stop_under st hh he hF hBF hij hj (hP j hij hj1) (fun _ => hstop j hij hj1 hc) hI
        by_cases hc' : (B j).lt (A j)
        · rw [if_pos hc'] at hv
          rw [← Option.some.inj hv]
          refine hb.mono st ?_
          linarith
        · rw [if_neg hc'] at hv
          rw [← Option.some.inj hv]
          refine hb.mono st ?_
          have := heq j hij hj1 hc hc'
          rw [hl1]
          linarith

/-- The computed slopes, as numbers with an error of at most `ε`. -/
structure Known (r : Nat → Nat → ℝ) (z : Nat → ℝ) (h ε : ℝ) (N : Nat) (sl : Nat → Nat → Num) : Prop where
  known : ∀ i j, i < j → j < N → ∃ s, sl i j = .fin s ∧ |s - S z r h i j| ≤ ε

theorem decides {r : Nat → Nat → ℝ} {z : Nat → ℝ} {h δ ε : ℝ} {N : Nat} {sl : Nat → Nat → Num} (st : Straight r δ N)
    (hh : 0 ≤ h) (hε : 0 ≤ ε) (kn : Known r z h ε N sl) {i j m : Nat} (hij : i < j) (hjm : j < m) (hm : m < N) :
    ((sl i j).lt (sl j m) → S z r h i j ≤ S z r h i m + 2 * ε) ∧
      (¬ (sl i j).lt (sl j m) → S z r h j m ≤ S z r h i j + 2 * ε) ∧
      (¬ (sl i j).lt (sl j m) → ¬ (sl j m).lt (sl i j) → S z r h i j ≤ S z r h i m + 2 * ε) := by
  obtain ⟨a, ha, ea⟩ := kn.known i j hij (by omega)
  obtain ⟨b, hb, eb⟩ := kn.known j m hjm hm
  rw [ha, hb]
  simp only [Num.lt]
  rw [_root_.abs_le] at ea eb
  have rp : ∀ a b, a < b → b < N → 0 < r a b := fun a b h1 h2 => lt_of_lt_of_le st.pos (st.min a b h1 h2)
  have rij := rp i j hij (by omega)
  have rjm := rp j m hjm hm
  have rim := rp i m (by omega) hm
  have e := S_add (z := z) (h := h) rij rjm rim
  have ad := st.add i j m hij hjm hm
  have key : S z r h i j ≤ S z r h j m + 2 * ε → S z r h i j ≤ S z r h i m + 2 * ε := by
    intro hc
    have h3 := mul_le_mul_of_nonneg_right hc rjm.le
    have h5 : 0 ≤ 2 * ε * r i j := mul_nonneg (by linarith) rij.le
    have h4 : S z r h i j * r i m ≤ (S z r h i m + 2 * ε) * r i m := by
      have e1 : S z r h i j * r i m = S z r h i j * r i j + S z r h i j * r j m := by rw [ad]; ring
      have e2 : (S z r h i m + 2 * ε) * r i m = S z r h i m * r i m + 2 * ε * r i j + 2 * ε * r j m := by
        rw [ad]; ring
      linarith
    exact le_of_mul_le_mul_right h4 rim
  exact ⟨fun hc => key (by linarith), fun hc => by linarith [not_lt.1 hc], fun hc hc' => key (by linarith [not_lt.1 hc, not_lt.1 hc'])⟩

/-- The chain that the array gives, and the bound along it. -/
def Chain (z : Nat → ℝ) (r : Nat → Nat → ℝ) (h δ e : ℝ) (N i : Nat) (H : Nat → Nat) : Prop :=
  ∃ ℓ : Nat → Nat, ℓ (N - 1) = 0 ∧ (∀ j, i ≤ j → j < N - 1 → ℓ j = ℓ (H j) + 1) ∧
    (∀ j, i ≤ j → j < N → ℓ j ≤ N - 1 - j) ∧
    ∀ j, i ≤ j → j < N - 1 → Under z r h N j (S z r h j (H j)) (bound (h / δ) e N ℓ j)

theorem outer_under {r : Nat → Nat → ℝ} {z : Nat → ℝ} {h δ ε : ℝ} {N : Nat} {sl : Nat → Nat → Num} (hN : 2 ≤ N)
    (st : Straight r δ N) (hh : 0 ≤ h) (hε : 0 ≤ ε) (kn : Known r z h ε N sl) (junk : Nat → Nat) :
    ∃ H, Horizon.outer N (fun H i => (fun j => sl i j, fun j => sl j (H j))) (N - 1) (Horizon.initH N junk) = some H ∧
      Forward N 0 H ∧ Under z r h N 0 (S z r h 0 (H 0)) (h / δ + 2 * ε * (2 * ((N : ℝ) - 1))) := by
  obtain ⟨H, h1, h2, ℓ, -, -, -, hU⟩ := Horizon.outer_total N (fun H i => (fun j => sl i j, fun j => sl j (H j))) (by omega) junk
    (Chain z r h δ (2 * ε) N) ⟨fun _ => 0, rfl, fun j _ _ => by omega, fun j _ _ => by simp, fun j _ _ => by omega⟩ (by
    rintro i H v hi hF ⟨ℓ, l0, l1, l2, hU⟩ hv hiv hvN
    have hU' := search_under (ℓ := ℓ) st hh (by linarith : 0 ≤ 2 * ε) (fun j hj hj' => hF.1 j (by omega) hj') hF.2
      (fun j hj hj' => l1 j (by omega) hj') l0 (fun j hj hj' => l2 j (by omega) hj')
      (fun j hj hj' => hU j (by omega) hj')
      (fun j hj hj' => (decides st hh hε kn hj (hF.1 j (by omega) hj').1 (hF.1 j (by omega) hj').2).1)
      (fun j hj hj' => (decides st hh hε kn hj (hF.1 j (by omega) hj').1 (hF.1 j (by omega) hj').2).2.1)
      (fun j hj hj' => (decides st hh hε kn hj (hF.1 j (by omega) hj').1 (hF.1 j (by omega) hj').2).2.2)
      N (i + 1) (by omega) (by omega) v hv (fun k hk hk' => by omega)
    refine ⟨fun k => if k = i then ℓ v + 1 else ℓ k, ?_, ?_, ?_, ?_⟩
    · simp only; rw [if_neg (by omega)]; exact l0
    · intro j hj hj'
      by_cases e : j = i
      · subst e
        simp only [if_true]
        rw [if_neg (by omega)]
      · simp only [if_neg e]
        have := hF.1 j (by omega) hj'
        rw [if_neg (by omega)]
        exact l1 j (by omega) hj'
    · intro j hj hj'
      by_cases e : j = i
      · subst e
        simp only [if_true]
        have := l2 v (by omega) hvN
        omega
      · simp only [if_neg e]
        exact l2 j (by omega) hj'
    · intro j hj hj'
      by_cases e : j = i
      · subst e
        unfold bound
        simp only [if_true]
        push_cast
        exact hU'
      · unfold bound
        simp only [if_neg e]
        exact hU j (by omega) hj')
  refine ⟨H, h1, h2, (hU 0 (by omega) (by omega)).mono st ?_⟩
  unfold bound
  have : 0 ≤ 2 * ε * (ℓ 0 : ℝ) := mul_nonneg (by linarith) (Nat.cast_nonneg _)
  push_cast
  linarith

/-! ### The error of a slope -/

theorem rnd_bounds {u : ℝ} {rnd : ℝ → ℝ} (h : Error u rnd) {x : ℝ} (hx : 0 ≤ x) :
    (1 - u) * x ≤ rnd x ∧ rnd x ≤ (1 + u) * x := by
  have := h.err x
  rw [abs_of_nonneg hx, _root_.abs_le] at this
  constructor <;> linarith

theorem square_bounds {u : ℝ} {rnd : ℝ → ℝ} (h : Error u rnd) (d : ℝ) :
    (1 - u) ^ 3 * (d * d) ≤ rnd (rnd d * rnd d) ∧ rnd (rnd d * rnd d) ≤ (1 + u) ^ 3 * (d * d) := by
  have h0 := h.nonneg
  have h1 := h.half
  have e := h.err d
  have up : |rnd d| ≤ (1 + u) * |d| := by
    have := abs_sub_abs_le_abs_sub (rnd d) d
    linarith
  have lo : (1 - u) * |d| ≤ |rnd d| := by
    have := abs_sub_abs_le_abs_sub d (rnd d)
    rw [abs_sub_comm] at this
    linarith
  have hd := abs_nonneg d
  have sq1 : (1 - u) ^ 2 * (d * d) ≤ rnd d * rnd d := by
    rw [← abs_mul_abs_self d, ← abs_mul_abs_self (rnd d)]
    calc (1 - u) ^ 2 * (|d| * |d|) = ((1 - u) * |d|) * ((1 - u) * |d|) := by ring
      _ ≤ |rnd d| * |rnd d| := mul_self_le_mul_self (mul_nonneg (by linarith) hd) lo
  have sq2 : rnd d * rnd d ≤ (1 + u) ^ 2 * (d * d) := by
    rw [← abs_mul_abs_self d, ← abs_mul_abs_self (rnd d)]
    calc |rnd d| * |rnd d| ≤ ((1 + u) * |d|) * ((1 + u) * |d|) := mul_self_le_mul_self (abs_nonneg _) up
      _ = (1 + u) ^ 2 * (|d| * |d|) := by ring
  obtain ⟨b1, b2⟩ := rnd_bounds h (mul_self_nonneg (rnd d))
  constructor
  · calc (1 - u) ^ 3 * (d * d) = (1 - u) * ((1 - u) ^ 2 * (d * d)) := by ring
      _ ≤ (1 - u) * (rnd d * rnd d) := mul_le_mul_of_nonneg_left sq1 (by linarith)
      _ ≤ _ := b1
  · calc _ ≤ (1 + u) * (rnd d * rnd d) := b2
      _ ≤ (1 + u) * ((1 + u) ^ 2 * (d * d)) := mul_le_mul_of_nonneg_left sq2 (by linarith)
      _ = _ := by ring

/-- The computed distance. -/
theorem run_bounds {u : ℝ} {rnd : ℝ → ℝ} (h : Error u rnd) (x y : Nat → ℝ) (i j : Nat) :
    (1 - u) ^ 3 * Horizon.run x y i j ≤ run rnd x y i j ∧ run rnd x y i j ≤ (1 + u) ^ 3 * Horizon.run x y i j := by
  have h0 := h.nonneg
  have h1 := h.half
  unfold run Horizon.run
  obtain ⟨a1, a2⟩ := square_bounds h (x j - x i)
  obtain ⟨b1, b2⟩ := square_bounds h (y j - y i)
  have px : 0 ≤ (x j - x i) * (x j - x i) := mul_self_nonneg _
  have py : 0 ≤ (y j - y i) * (y j - y i) := mul_self_nonneg _
  generalize (x j - x i) * (x j - x i) = p at *
  generalize (y j - y i) * (y j - y i) = q at *
  generalize rnd (rnd (x j - x i) * rnd (x j - x i)) = p' at *
  generalize rnd (rnd (y j - y i) * rnd (y j - y i)) = q' at *
  have hu3 : 0 ≤ (1 - u) ^ 3 := pow_nonneg (by linarith) 3
  have hp' : 0 ≤ p' := (mul_nonneg hu3 px).trans a1
  have hq' : 0 ≤ q' := (mul_nonneg hu3 py).trans b1
  obtain ⟨c1, c2⟩ := rnd_bounds h (add_nonneg hp' hq')
  have d1 : ((1 - u) ^ 2) ^ 2 * (p + q) ≤ rnd (p' + q') := by
    calc ((1 - u) ^ 2) ^ 2 * (p + q) = (1 - u) * ((1 - u) ^ 3 * p + (1 - u) ^ 3 * q) := by ring
      _ ≤ (1 - u) * (p' + q') := mul_le_mul_of_nonneg_left (by linarith) (by linarith)
      _ ≤ _ := c1
  have d2 : rnd (p' + q') ≤ ((1 + u) ^ 2) ^ 2 * (p + q) := by
    calc _ ≤ (1 + u) * (p' + q') := c2
      _ ≤ (1 + u) * ((1 + u) ^ 3 * p + (1 + u) ^ 3 * q) := mul_le_mul_of_nonneg_left (by linarith) (by linarith)
      _ = _ := by ring
  have s1 := Real.sqrt_le_sqrt d1
  have s2 := Real.sqrt_le_sqrt d2
  rw [Real.sqrt_mul (by positivity), Real.sqrt_sq (by positivity)] at s1 s2
  obtain ⟨e1, e2⟩ := rnd_bounds h (Real.sqrt_nonneg (rnd (p' + q')))
  constructor
  · calc (1 - u) ^ 3 * √(p + q) = (1 - u) * ((1 - u) ^ 2 * √(p + q)) := by ring
      _ ≤ (1 - u) * √(rnd (p' + q')) := mul_le_mul_of_nonneg_left s1 (by linarith)
      _ ≤ _ := e1
  · calc _ ≤ (1 + u) * √(rnd (p' + q')) := e2
      _ ≤ (1 + u) * ((1 + u) ^ 2 * √(p + q)) := mul_le_mul_of_nonneg_left s2 (by linarith)
      _ = _ := by ring

/-- The computed difference of height. -/
theorem rise_bounds {u : ℝ} {rnd : ℝ → ℝ} (h : Error u rnd) {z : Nat → ℝ} {ht Z : ℝ} {i j : Nat} (hh : 0 ≤ ht)
    (hi : |z i| ≤ Z) (hj : |z j| ≤ Z) :
    |rise rnd z ht i j - (z j - z i - ht)| ≤ 3 * u * (2 * Z + ht) ∧ |z j - z i - ht| ≤ 2 * Z + ht := by
  have h0 := h.nonneg
  have h1 := h.half
  unfold rise
  have e1 := h.err (ht + z i)
  have e2 := h.err (z j - rnd (ht + z i))
  have hZ : 0 ≤ Z := (abs_nonneg _).trans hi
  rw [_root_.abs_le] at hi hj
  have b1 : |ht + z i| ≤ 2 * Z + ht := by rw [_root_.abs_le]; constructor <;> linarith
  have b3 : |z j - z i - ht| ≤ 2 * Z + ht := by rw [_root_.abs_le]; constructor <;> linarith
  have e1' : |rnd (ht + z i) - (ht + z i)| ≤ u * (2 * Z + ht) := e1.trans (mul_le_mul_of_nonneg_left b1 h0)
  have hW : 0 ≤ 2 * Z + ht := by linarith
  have b2 : |z j - rnd (ht + z i)| ≤ 2 * (2 * Z + ht) := by
    have huW : u * (2 * Z + ht) ≤ 1 * (2 * Z + ht) := mul_le_mul_of_nonneg_right (by linarith) hW
    rw [_root_.abs_le] at e1' b3 ⊢
    constructor <;> linarith
  have e2' := e2.trans (mul_le_mul_of_nonneg_left b2 h0)
  refine ⟨?_, b3⟩
  rw [_root_.abs_le] at e1' e2' ⊢
  constructor <;> linarith

/-- The computed slope. -/
theorem slope_known {u : ℝ} {rnd : ℝ → ℝ} (h : Error u rnd) (hu : u ≤ 1 / 100) {x y z : Nat → ℝ} {ht Z δ : ℝ} {i j : Nat}
    (hh : 0 ≤ ht) (hi : |z i| ≤ Z) (hj : |z j| ≤ Z) (hδ : 0 < δ) (hr : δ ≤ Horizon.run x y i j) :
    ∃ s, slope rnd x y z ht i j = .fin s ∧
      |s - S z (Horizon.run x y) ht i j| ≤ 12 * u * ((2 * Z + ht) / δ) := by
  have h0 := h.nonneg
  obtain ⟨r1, r2⟩ := run_bounds h x y i j
  obtain ⟨n1, n2⟩ := rise_bounds h hh hi hj
  have hW : 0 ≤ 2 * Z + ht := by linarith [(abs_nonneg _).trans hi]
  unfold slope div S
  generalize Horizon.run x y i j = r at *
  generalize run rnd x y i j = r' at *
  generalize rise rnd z ht i j = a' at *
  generalize z j - z i - ht = a at *
  generalize 2 * Z + ht = W at *
  have rpos : 0 < r := lt_of_lt_of_le hδ hr
  have r'pos : 0 < r' := lt_of_lt_of_le (mul_pos (pow_pos (by linarith) 3) rpos) r1
  rw [if_neg r'pos.ne']
  refine ⟨_, rfl, ?_⟩
  -- the distance relative to the true one
  have lo : (1 - 3 * u) * r ≤ r' := by
    refine le_trans (mul_le_mul_of_nonneg_right ?_ rpos.le) r1
    nlinarith [mul_nonneg h0 h0, mul_nonneg (mul_nonneg h0 h0) h0]
  have hi' : r' ≤ (1 + 4 * u) * r := by
    refine le_trans r2 (mul_le_mul_of_nonneg_right ?_ rpos.le)
    have : u * u ≤ 1 / 100 * u := mul_le_mul_of_nonneg_right hu h0
    have : u * u * u ≤ 1 / 100 * u := by nlinarith [mul_nonneg h0 h0]
    nlinarith
  have q : a' / r' - a / r = ((a' - a) * r - a * (r' - r)) / (r' * r) := by field_simp; ring
  have dr : |r' - r| ≤ 4 * u * r := by
    have : 0 ≤ u * r := mul_nonneg h0 rpos.le
    rw [_root_.abs_le]; constructor <;> linarith
  have num : |(a' - a) * r - a * (r' - r)| ≤ 7 * u * W * r := by
    have t1 : |(a' - a) * r| ≤ 3 * u * W * r := by
      rw [abs_mul, abs_of_pos rpos]; exact mul_le_mul_of_nonneg_right n1 rpos.le
    have t2 : |a * (r' - r)| ≤ W * (4 * u * r) := by
      rw [abs_mul]; exact mul_le_mul n2 dr (abs_nonneg _) hW
    have := abs_sub ((a' - a) * r) (a * (r' - r))
    calc _ ≤ _ := this
      _ ≤ 3 * u * W * r + W * (4 * u * r) := add_le_add t1 t2
      _ = _ := by ring
  have uW : 0 ≤ u * W := mul_nonneg h0 hW
  have bq : |a' / r' - a / r| ≤ 8 * u * (W / r) := by
    rw [q, abs_div, abs_of_pos (mul_pos r'pos rpos), div_le_iff₀ (mul_pos r'pos rpos)]
    have e : 8 * u * (W / r) * (r' * r) = 8 * (u * W) * r' := by field_simp
    rw [e]
    refine num.trans ?_
    have : 8 * (u * W) * ((1 - 3 * u) * r) ≤ 8 * (u * W) * r' := mul_le_mul_of_nonneg_left lo (by linarith)
    have t : 7 * (u * W * r) ≤ 8 * (1 - 3 * u) * (u * W * r) :=
      mul_le_mul_of_nonneg_right (by linarith) (mul_nonneg uW rpos.le)
    calc 7 * u * W * r = 7 * (u * W * r) := by ring
      _ ≤ _ := t
      _ = 8 * (u * W) * ((1 - 3 * u) * r) := by ring
      _ ≤ _ := this
  have bS : |a / r| ≤ W / r := by rw [abs_div, abs_of_pos rpos]; exact div_le_div_of_nonneg_right n2 rpos.le
  have hWr : 0 ≤ W / r := div_nonneg hW rpos.le
  have bs : |a' / r'| ≤ 4 * (W / r) := by
    have := abs_sub_abs_le_abs_sub (a' / r') (a / r)
    have t : 8 * u * (W / r) ≤ 3 * (W / r) := mul_le_mul_of_nonneg_right (by linarith) hWr
    linarith
  have e3 := (h.err (a' / r')).trans (mul_le_mul_of_nonneg_left bs h0)
  have fin : |rnd (a' / r') - a / r| ≤ 12 * u * (W / r) := by
    have := abs_sub_le (rnd (a' / r')) (a' / r') (a / r)
    linarith
  refine fin.trans (mul_le_mul_of_nonneg_left ?_ (by linarith))
  exact div_le_div_of_nonneg_left hW hδ hr

end Verif.HorizonFloat
