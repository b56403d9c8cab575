import Verif.Horizon
import Verif.BresProps
import Mathlib.Analysis.Real.Pi.Bounds
import Mathlib.Tactic.Linarith
import Mathlib.Tactic.LinearCombination
import Mathlib.Tactic.FieldSimp
import Mathlib.Tactic.Positivity

/-!
Properties of the upwind horizon search (C64, C86).
-/

namespace Verif.Horizon

/-! ### The loops, for any slopes -/

theorem search_some (N : Nat) (H : Nat → Nat) (A B : Nat → Num) (i : Nat)
    (hH : ∀ j, i < j → j < N - 1 → j < H j ∧ H j < N) (hlast : H (N - 1) = N - 1)
    (fuel j : Nat) (hij : i < j) (hj : j < N) (hf : N ≤ fuel + j) :
    ∃ v, search N H A B fuel j = some v ∧ i < v ∧ v < N := by
  induction fuel generalizing j with
  | zero => omega
  | succ fuel ih =>
    unfold search
    by_cases hjN : j = N - 1
    · subst hjN
      simp only [if_true, hlast]
      split
      · exact ⟨_, rfl, hij, hj⟩
      · split <;> exact ⟨_, rfl, hij, hj⟩
    · obtain ⟨h1, h2⟩ := hH j hij (by omega)
      simp only [if_neg hjN]
      split
      · exact ih (H j) (by omega) h2 (by omega)
      · split
        · exact ⟨_, rfl, hij, hj⟩
        · exact ⟨_, rfl, by omega, h2⟩

/-- The array never points back or outside the profile. -/
def Forward (N i : Nat) (H : Nat → Nat) : Prop :=
  (∀ j, i ≤ j → j < N - 1 → j < H j ∧ H j < N) ∧ H (N - 1) = N - 1

theorem outer_inv (N : Nat) (cmp : (Nat → Nat) → Nat → (Nat → Num) × (Nat → Num)) (P : Nat → (Nat → Nat) → Prop)
    (hstep : ∀ i H v, i + 1 < N → Forward N (i + 1) H → P (i + 1) H →
      search N H (cmp H i).1 (cmp H i).2 N (i + 1) = some v → i < v → v < N →
      P i (fun k => if k = i then v else H k))
    (n : Nat) (H : Nat → Nat) (hn : n + 1 ≤ N) (hF : Forward N n H) (hP : P n H) :
    ∃ H', outer N cmp n H = some H' ∧ Forward N 0 H' ∧ P 0 H' := by
  induction n generalizing H with
  | zero => exact ⟨H, rfl, hF, hP⟩
  | succ i ih =>
    obtain ⟨v, hv, h1, h2⟩ := search_some N H (cmp H i).1 (cmp H i).2 i
      (fun j hj hj' => hF.1 j (by omega) hj') hF.2 N (i + 1) (by omega) (by omega) (by omega)
    unfold outer
    rw [hv]
    simp only
    apply ih
    · omega
    · constructor
      · intro j hj hj'
        by_cases e : j = i
        · simp only [e, if_true]; exact ⟨h1, h2⟩
        · simp only [if_neg e]; exact hF.1 j (by omega) hj'
      · show (if N - 1 = i then v else H (N - 1)) = N - 1
        rw [if_neg (by omega)]; exact hF.2
    · exact hstep i H v (by omega) hF hP hv h1 h2

theorem outer_total (N : Nat) (cmp : (Nat → Nat) → Nat → (Nat → Num) × (Nat → Num)) (hN : 1 ≤ N) (junk : Nat → Nat)
    (P : Nat → (Nat → Nat) → Prop)
    (h0 : P (N - 1) (initH N junk))
    (hstep : ∀ i H v, i + 1 < N → Forward N (i + 1) H → P (i + 1) H →
      search N H (cmp H i).1 (cmp H i).2 N (i + 1) = some v → i < v → v < N →
      P i (fun k => if k = i then v else H k)) :
    ∃ H', outer N cmp (N - 1) (initH N junk) = some H' ∧ Forward N 0 H' ∧ P 0 H' := by
  apply outer_inv N cmp P hstep (N - 1) (initH N junk) (by omega) _ h0
  constructor
  · intro j hj hj'; omega
  · simp [initH]

/-! ### Slopes as numbers -/

/-- The slope from `i`, seen from the instrument, to `j`, as a number. -/
noncomputable def S (z : Nat → ℝ) (r : Nat → Nat → ℝ) (h : ℝ) (i j : Nat) : ℝ := (z j - z i - h) / r i j

/-- Every point up to `N` is below the line of slope `s + h / δ` from the instrument at `i`. -/
def Below (z : Nat → ℝ) (r : Nat → Nat → ℝ) (h δ : ℝ) (N i : Nat) (s : ℝ) : Prop :=
  ∀ k, i < k → k < N → z k - z i - h ≤ (s + h / δ) * r i k

/-- The distances along a straight profile. -/
structure Straight (r : Nat → Nat → ℝ) (δ : ℝ) (N : Nat) : Prop where
  pos : 0 < δ
  add : ∀ i j k, i < j → j < k → k < N → r i k = r i j + r j k
  min : ∀ i j, i < j → j < N → δ ≤ r i j

theorem S_mul {z : Nat → ℝ} {r : Nat → Nat → ℝ} {h : ℝ} {i j : Nat} (hr : 0 < r i j) :
    S z r h i j * r i j = z j - z i - h := by
  unfold S; field_simp

/-- The heights add up along `i`, `j`, `m`. -/
theorem S_add {z : Nat → ℝ} {r : Nat → Nat → ℝ} {h : ℝ} {i j m : Nat} (h1 : 0 < r i j) (h2 : 0 < r j m) (h3 : 0 < r i m) :
    S z r h i m * r i m = S z r h j m * r j m + S z r h i j * r i j + h := by
  rw [S_mul h1, S_mul h2, S_mul h3]; ring

/-- Moving on from `j` to `m`. -/
theorem move_below {z : Nat → ℝ} {r : Nat → Nat → ℝ} {h δ : ℝ} {N i j m : Nat} (st : Straight r δ N) (hh : 0 ≤ h)
    (hij : i < j) (hjm : j < m) (hm : m < N) (hP : Below z r h δ N j (S z r h j m))
    (hmv : S z r h i j ≤ S z r h i m)
    (hI : ∀ k, i < k → k < j → z k - z i - h ≤ (S z r h i j + h / δ) * r i k) :
    ∀ k, i < k → k < m → z k - z i - h ≤ (S z r h i m + h / δ) * r i k := by
  intro k hik hkm
  have rp : ∀ a b, a < b → b < N → 0 < r a b := fun a b h1 h2 => lt_of_lt_of_le st.pos (st.min a b h1 h2)
  have hd : 0 ≤ h / δ := div_nonneg hh st.pos.le
  have rik := rp i k hik (by omega)
  rcases lt_trichotomy k j with hk | hk | hk
  · have := hI k hik hk
    have h2 : (S z r h i j + h / δ) * r i k ≤ (S z r h i m + h / δ) * r i k :=
      mul_le_mul_of_nonneg_right (by linarith) rik.le
    linarith
  · subst hk
    rw [← S_mul rik]
    exact mul_le_mul_of_nonneg_right (by linarith) rik.le
  · have hk1 := hP k hk (by omega)
    have rjk := rp j k hk (by omega)
    have rij := rp i j hij (by omega)
    have rjm := rp j m hjm hm
    have rim := rp i m (by omega) hm
    have rkm := rp k m hkm hm
    have a1 := st.add i j k hij hk (by omega)
    have a2 := st.add i j m hij hjm hm
    have a3 := st.add j k m hk hkm hm
    have e0 := S_mul (z := z) (h := h) rij
    have e1 := S_add (z := z) (h := h) rij rjm rim
    have hhd : h ≤ h / δ * r i j := by
      rw [div_mul_eq_mul_div, le_div_iff₀ st.pos]
      exact mul_le_mul_of_nonneg_left (st.min i j hij (by omega)) hh
    have hz : z k - z i - h ≤ (S z r h j m + h / δ) * r j k + S z r h i j * r i j + h := by rw [e0]; linarith
    generalize S z r h j m = σ at *
    generalize S z r h i j = s at *
    generalize S z r h i m = s' at *
    have key : σ * r j k + s * r i j ≤ s' * r i k := by
      by_cases hσ : s ≤ σ
      · -- the mean of `s` and `σ` grows with the weight of `σ`
        have h1 : σ * r j m + s * r i j ≤ s' * r i m := by linarith
        rw [a2] at h1
        rw [a1]
        -- `s' ≥ (σ r_jm + s r_ij)/(r_ij + r_jm)`
        by_contra hc
        rw [not_le] at hc
        have h2 : (s' - s) * r i j < (σ - s') * r j k := by linarith
        have h3 : (σ - s') * r j m ≤ (s' - s) * r i j := by linarith
        have h4 : 0 ≤ (s' - s) * r i j := mul_nonneg (by linarith) rij.le
        have h5 : 0 < σ - s' := by
          by_contra hn
          rw [not_lt] at hn
          have : (σ - s') * r j k ≤ 0 := mul_nonpos_of_nonpos_of_nonneg hn rjk.le
          linarith
        have h6 : (σ - s') * r j k ≤ (σ - s') * r j m := mul_le_mul_of_nonneg_left (by linarith) h5.le
        linarith
      · rw [not_le] at hσ
        have h1 : σ * r j k ≤ s' * r j k := mul_le_mul_of_nonneg_right (by linarith) rjk.le
        have h2 : s * r i j ≤ s' * r i j := mul_le_mul_of_nonneg_right hmv rij.le
        rw [a1]; linarith
    have e2 : (s' + h / δ) * r i k = s' * r i k + h / δ * r i j + h / δ * r j k := by rw [a1]; ring
    have e3 : (σ + h / δ) * r j k = σ * r j k + h / δ * r j k := by ring
    linarith

/-- Stopping at `j`. -/
theorem stop_below {z : Nat → ℝ} {r : Nat → Nat → ℝ} {h δ : ℝ} {N i j : Nat} {σ : ℝ} (st : Straight r δ N) (hh : 0 ≤ h)
    (hij : i < j) (hj : j < N) (hP : Below z r h δ N j σ) (hs : j < N - 1 → σ ≤ S z r h i j)
    (hI : ∀ k, i < k → k < j → z k - z i - h ≤ (S z r h i j + h / δ) * r i k) :
    Below z r h δ N i (S z r h i j) := by
  intro k hik hk
  have rp : ∀ a b, a < b → b < N → 0 < r a b := fun a b h1 h2 => lt_of_lt_of_le st.pos (st.min a b h1 h2)
  have hd : 0 ≤ h / δ := div_nonneg hh st.pos.le
  have rik := rp i k hik hk
  rcases lt_trichotomy k j with hkj | hkj | hkj
  · exact hI k hik hkj
  · subst hkj
    rw [← S_mul rik]
    exact mul_le_mul_of_nonneg_right (by linarith) rik.le
  · have rjk := rp j k hkj hk
    have rij := rp i j hij hj
    have h1 := hP k hkj hk
    have h2 := hs (by omega)
    have e0 := S_mul (z := z) (h := h) rij
    have a1 := st.add i j k hij hkj hk
    have hhd : h ≤ h / δ * r i j := by
      rw [div_mul_eq_mul_div, le_div_iff₀ st.pos]
      exact mul_le_mul_of_nonneg_left (st.min i j hij hj) hh
    have h3 : (σ + h / δ) * r j k ≤ (S z r h i j + h / δ) * r j k := mul_le_mul_of_nonneg_right (by linarith) rjk.le
    have e2 : (S z r h i j + h / δ) * r i k =
        S z r h i j * r i j + h / δ * r i j + (S z r h i j + h / δ) * r j k := by rw [a1]; ring
    rw [e2]; linarith

theorem Below.mono {z : Nat → ℝ} {r : Nat → Nat → ℝ} {h δ : ℝ} {N i : Nat} {s s' : ℝ} (st : Straight r δ N)
    (h1 : Below z r h δ N i s) (hs : s ≤ s') : Below z r h δ N i s' := by
  intro k hik hk
  have := h1 k hik hk
  have rik : 0 < r i k := lt_of_lt_of_le st.pos (st.min i k hik hk)
  have h2 : (s + h / δ) * r i k ≤ (s' + h / δ) * r i k := mul_le_mul_of_nonneg_right (by linarith) rik.le
  linarith

/-- The inner loop with numbers: what it compares must decide as in `hmove`, `hstop`, `heq`. -/
theorem search_below {z : Nat → ℝ} {r : Nat → Nat → ℝ} {h δ : ℝ} {N i : Nat} {H : Nat → Nat} {A B : Nat → Num}
    (st : Straight r δ N) (hh : 0 ≤ h)
    (hH : ∀ j, i < j → j < N - 1 → j < H j ∧ H j < N) (hlast : H (N - 1) = N - 1)
    (hP : ∀ j, i < j → j < N - 1 → Below z r h δ N j (S z r h j (H j)))
    (hmove : ∀ j, i < j → j < N - 1 → (A j).lt (B j) → S z r h i j ≤ S z r h i (H j))
    (hstop : ∀ j, i < j → j < N - 1 → ¬ (A j).lt (B j) → S z r h j (H j) ≤ S z r h i j)
    (heq : ∀ j, i < j → j < N - 1 → ¬ (A j).lt (B j) → ¬ (B j).lt (A j) → S z r h i j ≤ S z r h i (H j))
    (fuel j : Nat) (hij : i < j) (hj : j < N) (v : Nat) (hv : search N H A B fuel j = some v)
    (hI : ∀ k, i < k → k < j → z k - z i - h ≤ (S z r h i j + h / δ) * r i k) :
    Below z r h δ N i (S z r h i v) := by
  induction fuel generalizing j with
  | zero => simp [search] at hv
  | succ fuel ih =>
    unfold search at hv
    by_cases hjN : j = N - 1
    · have hb : Below z r h δ N i (S z r h i j) :=
        stop_below (σ := 0) st hh hij hj (fun k h1 h2 => by omega) (fun hc => by omega) hI
      have hvj : v = j := by
        rw [hjN] at hv ⊢
        simp only [if_true, hlast] at hv
        split at hv
        · exact (Option.some.inj hv).symm
        · split at hv <;> exact (Option.some.inj hv).symm
      rw [hvj]; exact hb
    · have hj1 : j < N - 1 := by omega
      obtain ⟨h1, h2⟩ := hH j hij hj1
      rw [if_neg hjN] at hv
      by_cases hc : (A j).lt (B j)
      · rw [if_pos hc] at hv
        exact ih (H j) (by omega) h2 hv
          (move_below st hh hij h1 h2 (hP j hij hj1) (hmove j hij hj1 hc) hI)
      · rw [if_neg hc] at hv
        have hb := stop_below st hh hij hj (hP j hij hj1) (fun _ => hstop j hij hj1 hc) hI
        by_cases hc' : (B j).lt (A j)
        · rw [if_pos hc'] at hv
          rw [← Option.some.inj hv]; exact hb
        · rw [if_neg hc'] at hv
          rw [← Option.some.inj hv]; exact hb.mono st (heq j hij hj1 hc hc')

/-! ### C64 -/

theorem slope_fin {x y z : Nat → ℝ} {h : ℝ} {i j : Nat} (hr : run x y i j ≠ 0) :
    slope x y z h i j = .fin (S z (run x y) h i j) := by
  unfold slope Num.div S
  rw [if_neg hr]
  congr 2
  ring

/-- For every profile of at least two points, every instrument height and whatever the memory held, the search
ends, and what it reports is the angle to one of the points of the profile: it is never more than the
true maximum. -/
theorem C64_attained (x y z : Nat → ℝ) (h : ℝ) (N : Nat) (hN : 2 ≤ N) (junk : Nat → Nat) :
    ∃ v, 0 < v ∧ v < N ∧ hord x y z h N junk = some (degrees (slope x y z h 0 v)) := by
  obtain ⟨H, h1, h2, _⟩ := outer_total N (cmpC x y z h) (by omega) junk (fun _ _ => True) trivial (fun _ _ _ _ _ _ _ _ _ => trivial)
  refine ⟨H 0, (h2.1 0 (by omega) (by omega)).1, (h2.1 0 (by omega) (by omega)).2, ?_⟩
  unfold hord horizonC
  rw [h1]
  rfl

/-- The slope from the instrument, `h` above point 0, to point `k`; its specification is separate from the model. -/
noncomputable def trueSlope (x y z : Nat → ℝ) (h : ℝ) (k : Nat) : ℝ :=
  (z k - (z 0 + h)) / Real.sqrt ((x k - x 0) ^ 2 + (y k - y 0) ^ 2)

/-- The angle in degrees, with the constant of the code for π. -/
noncomputable def angle (s : ℝ) : ℝ := Real.arctan s / 3.141592654 * 180

theorem trueSlope_eq (x y z : Nat → ℝ) (h : ℝ) (k : Nat) : trueSlope x y z h k = S z (run x y) h 0 k := by
  unfold trueSlope S run
  rw [← sq, ← sq]
  congr 1
  ring

theorem angle_strictMono : StrictMono angle := by
  intro a b hab
  unfold angle
  have := Real.arctan_strictMono hab
  have h1 : Real.arctan a / 3.141592654 < Real.arctan b / 3.141592654 := by
    apply div_lt_div_of_pos_right this; norm_num
  linarith

theorem degrees_fin (s : ℝ) : degrees (.fin s) = some (angle s) := rfl

/-- The full claim: the reported angle is the largest. -/
def C64_full : Prop :=
  ∀ (x y z : Nat → ℝ) (h : ℝ) (N : Nat) (junk : Nat → Nat), 2 ≤ N → 0 ≤ h →
    (∀ i j, i < j → j < N → (x i, y i) ≠ (x j, y j)) →
    ∃ v, 0 < v ∧ v < N ∧ hord x y z h N junk = some (some (angle (trueSlope x y z h v))) ∧
      ∀ k, 0 < k → k < N → trueSlope x y z h k ≤ trueSlope x y z h v

theorem cmpC_decides {x y z : Nat → ℝ} {h δ : ℝ} {N : Nat} (st : Straight (run x y) δ N) (hh : 0 ≤ h) {H : Nat → Nat}
    {i j : Nat} (hij : i < j) (hj : j < N) (h1 : j < H j) (h2 : H j < N) :
    ((((cmpC x y z h H i).1 j).lt ((cmpC x y z h H i).2 j) →
        S z (run x y) h i j ≤ S z (run x y) h i (H j)) ∧
      (¬ ((cmpC x y z h H i).1 j).lt ((cmpC x y z h H i).2 j) → S z (run x y) h j (H j) ≤ S z (run x y) h i j) ∧
      (¬ ((cmpC x y z h H i).1 j).lt ((cmpC x y z h H i).2 j) → ¬ ((cmpC x y z h H i).2 j).lt ((cmpC x y z h H i).1 j) →
        S z (run x y) h i j ≤ S z (run x y) h i (H j))) := by
  have rp : ∀ a b, a < b → b < N → 0 < run x y a b := fun a b h1 h2 => lt_of_lt_of_le st.pos (st.min a b h1 h2)
  have rij := rp i j hij hj
  have rjm := rp j (H j) h1 h2
  have rim := rp i (H j) (by omega) h2
  have e := S_add (z := z) (h := h) rij rjm rim
  have a := st.add i j (H j) hij h1 h2
  simp only [cmpC]
  rw [slope_fin rij.ne', slope_fin rjm.ne']
  simp only [Num.lt]
  have key : S z (run x y) h i j ≤ S z (run x y) h j (H j) → S z (run x y) h i j ≤ S z (run x y) h i (H j) := by
    intro hc
    have h3 := mul_le_mul_of_nonneg_right hc rjm.le
    have h4 : S z (run x y) h i j * run x y i (H j) ≤ S z (run x y) h i (H j) * run x y i (H j) := by
      rw [e]
      have : S z (run x y) h i j * run x y i (H j) =
        S z (run x y) h i j * run x y i j + S z (run x y) h i j * run x y j (H j) := by rw [a]; ring
      linarith
    exact le_of_mul_le_mul_right h4 rim
  exact ⟨fun hc => key hc.le, fun hc => not_lt.1 hc, fun hc _ => key (not_lt.1 ‹_›)⟩

theorem cmpPy_decides {x y z : Nat → ℝ} {h δ : ℝ} {N : Nat} (st : Straight (run x y) δ N) (hh : 0 ≤ h) {H : Nat → Nat}
    {i j : Nat} (hij : i < j) (hj : j < N) (h1 : j < H j) (h2 : H j < N) :
    ((((cmpPy x y z h H i).1 j).lt ((cmpPy x y z h H i).2 j) →
        S z (run x y) h i j ≤ S z (run x y) h i (H j)) ∧
      (¬ ((cmpPy x y z h H i).1 j).lt ((cmpPy x y z h H i).2 j) → S z (run x y) h j (H j) ≤ S z (run x y) h i j) ∧
      (¬ ((cmpPy x y z h H i).1 j).lt ((cmpPy x y z h H i).2 j) → ¬ ((cmpPy x y z h H i).2 j).lt ((cmpPy x y z h H i).1 j) →
        S z (run x y) h i j ≤ S z (run x y) h i (H j))) := by
  have rp : ∀ a b, a < b → b < N → 0 < run x y a b := fun a b h1 h2 => lt_of_lt_of_le st.pos (st.min a b h1 h2)
  have rij := rp i j hij hj
  have rjm := rp j (H j) h1 h2
  have rim := rp i (H j) (by omega) h2
  have e := S_add (z := z) (h := h) rij rjm rim
  have a := st.add i j (H j) hij h1 h2
  simp only [cmpPy]
  rw [slope_fin rij.ne', slope_fin rim.ne']
  simp only [Num.lt]
  refine ⟨fun hc => hc.le, fun hc => ?_, fun _ hc => not_lt.1 hc⟩
  have h3 := mul_le_mul_of_nonneg_right (not_lt.1 hc) rim.le
  have h4 : S z (run x y) h j (H j) * run x y j (H j) ≤ S z (run x y) h i j * run x y j (H j) := by
    have : S z (run x y) h i j * run x y i (H j) =
      S z (run x y) h i j * run x y i j + S z (run x y) h i j * run x y j (H j) := by rw [a]; ring
    linarith
  exact le_of_mul_le_mul_right h4 rjm

/-- Both versions of the loops, on a straight profile. -/
theorem outer_below {x y z : Nat → ℝ} {h δ : ℝ} {N : Nat} (hN : 2 ≤ N) (st : Straight (run x y) δ N) (hh : 0 ≤ h)
    (junk : Nat → Nat) (cmp : (Nat → Nat) → Nat → (Nat → Num) × (Nat → Num))
    (hcmp : cmp = cmpC x y z h ∨ cmp = cmpPy x y z h) :
    ∃ H, outer N cmp (N - 1) (initH N junk) = some H ∧
      ∀ i, i < N - 1 → i < H i ∧ H i < N ∧ Below z (run x y) h δ N i (S z (run x y) h i (H i)) := by
  obtain ⟨H, h1, h2, h3⟩ := outer_total N cmp (by omega) junk
    (fun i H => ∀ j, i ≤ j → j < N - 1 → Below z (run x y) h δ N j (S z (run x y) h j (H j)))
    (fun j hj hj' => by omega) (by
      intro i H v hi hF hP hv hv1 hv2
      have hb : Below z (run x y) h δ N i (S z (run x y) h i v) := by
        have dec : ∀ j, i < j → j < N - 1 →
            ((((cmp H i).1 j).lt ((cmp H i).2 j) → S z (run x y) h i j ≤ S z (run x y) h i (H j)) ∧
              (¬ ((cmp H i).1 j).lt ((cmp H i).2 j) → S z (run x y) h j (H j) ≤ S z (run x y) h i j) ∧
              (¬ ((cmp H i).1 j).lt ((cmp H i).2 j) → ¬ ((cmp H i).2 j).lt ((cmp H i).1 j) →
                S z (run x y) h i j ≤ S z (run x y) h i (H j))) := by
          intro j hj hj'
          rcases hcmp with e | e
          · rw [e]
            exact cmpC_decides (z := z) st hh (H := H) hj (by omega) (hF.1 j (by omega) hj').1 (hF.1 j (by omega) hj').2
          · rw [e]
            exact cmpPy_decides (z := z) st hh (H := H) hj (by omega) (hF.1 j (by omega) hj').1 (hF.1 j (by omega) hj').2
        exact search_below (A := (cmp H i).1) (B := (cmp H i).2) st hh (fun j hj hj' => hF.1 j (by omega) hj') hF.2
          (fun j hj hj' => hP j (by omega) hj')
          (fun j hj hj' => (dec j hj hj').1) (fun j hj hj' => (dec j hj hj').2.1) (fun j hj hj' => (dec j hj hj').2.2)
          N (i + 1) (by omega) hi v hv (fun k hk hk' => by omega)
      intro j hj hj'
      by_cases e : j = i
      · subst e; simp only [if_true]; exact hb
      · simp only [if_neg e]; exact hP j (by omega) hj')
  exact ⟨H, h1, fun i hi => ⟨(h2.1 i (by omega) hi).1, (h2.1 i (by omega) hi).2, h3 i (by omega) hi⟩⟩

theorem below_le {x y z : Nat → ℝ} {h δ : ℝ} {N i : Nat} {s : ℝ} (st : Straight (run x y) δ N)
    (hb : Below z (run x y) h δ N i s) (k : Nat) (hk : i < k) (hk' : k < N) :
    S z (run x y) h i k ≤ s + h / δ := by
  have r : 0 < run x y i k := lt_of_lt_of_le st.pos (st.min i k hk hk')
  have := hb k hk hk'
  rw [← S_mul (z := z) (h := h) r] at this
  exact le_of_mul_le_mul_right this r

/-- On a straight profile with points at least `δ` apart, the reported slope is below the true maximum by at
most the instrument height divided by `δ`. -/
theorem C64_bound_partial (x y z : Nat → ℝ) (h δ : ℝ) (N : Nat) (junk : Nat → Nat) (hN : 2 ≤ N) (hh : 0 ≤ h)
    (st : Straight (run x y) δ N) :
    ∃ v, 0 < v ∧ v < N ∧ hord x y z h N junk = some (some (angle (trueSlope x y z h v))) ∧
      ∀ k, 0 < k → k < N → trueSlope x y z h k ≤ trueSlope x y z h v + h / δ := by
  obtain ⟨H, h1, h2⟩ := outer_below (z := z) hN st hh junk (cmpC x y z h) (Or.inl rfl)
  obtain ⟨h3, h4, h5⟩ := h2 0 (by omega)
  refine ⟨H 0, h3, h4, ?_, ?_⟩
  · unfold hord horizonC
    rw [h1]
    have r : run x y 0 (H 0) ≠ 0 := (lt_of_lt_of_le st.pos (st.min 0 _ h3 h4)).ne'
    simp only [Option.map_some]
    rw [slope_fin r, degrees_fin, trueSlope_eq]
  · intro k hk hk'
    rw [trueSlope_eq, trueSlope_eq]
    exact below_le st h5 k hk hk'

/-- With an instrument on the ground the reported angle is the true maximum of a straight profile. -/
theorem C64_exact_partial (x y z : Nat → ℝ) (δ : ℝ) (N : Nat) (junk : Nat → Nat) (hN : 2 ≤ N)
    (st : Straight (run x y) δ N) :
    ∃ v, 0 < v ∧ v < N ∧ hord x y z 0 N junk = some (some (angle (trueSlope x y z 0 v))) ∧
      ∀ k, 0 < k → k < N → trueSlope x y z 0 k ≤ trueSlope x y z 0 v := by
  obtain ⟨v, h1, h2, h3, h4⟩ := C64_bound_partial x y z 0 δ N junk hN le_rfl st
  exact ⟨v, h1, h2, h3, fun k hk hk' => by simpa using h4 k hk hk'⟩

/-- The python version, for every point of the profile. -/
theorem C64_python_partial (x y z : Nat → ℝ) (h δ : ℝ) (N : Nat) (hN : 2 ≤ N) (hh : 0 ≤ h)
    (st : Straight (run x y) δ N) :
    ∃ H, horizonPy x y z h N = some H ∧ ∀ i, i < N - 1 → i < H i ∧ H i < N ∧
      ∀ k, i < k → k < N → (z k - (z i + h)) / Real.sqrt ((x k - x i) ^ 2 + (y k - y i) ^ 2) ≤
        (z (H i) - (z i + h)) / Real.sqrt ((x (H i) - x i) ^ 2 + (y (H i) - y i) ^ 2) + h / δ := by
  obtain ⟨H, h1, h2⟩ := outer_below (z := z) hN st hh (fun _ => 0) (cmpPy x y z h) (Or.inr rfl)
  refine ⟨H, h1, fun i hi => ?_⟩
  obtain ⟨h3, h4, h5⟩ := h2 i hi
  refine ⟨h3, h4, fun k hk hk' => ?_⟩
  have e : ∀ j, (z j - (z i + h)) / Real.sqrt ((x j - x i) ^ 2 + (y j - y i) ^ 2) = S z (run x y) h i j := by
    intro j
    unfold S run
    rw [← sq, ← sq]
    congr 1
    ring
  rw [e, e]
  exact below_le st h5 k hk hk'

/-- Cells along a row, a column or a diagonal of an even grid are a straight profile. -/
theorem straight_even (x0 y0 dx dy : ℝ) (hd : 0 < Real.sqrt (dx * dx + dy * dy)) (N : Nat) :
    Straight (run (fun i => x0 + i * dx) (fun i => y0 + i * dy)) (Real.sqrt (dx * dx + dy * dy)) N := by
  have e : ∀ i j : Nat, i < j → run (fun i => x0 + i * dx) (fun i => y0 + i * dy) i j =
      ((j : ℝ) - i) * Real.sqrt (dx * dx + dy * dy) := by
    intro i j hij
    have hp : (0 : ℝ) ≤ (j : ℝ) - i := by
      have : (i : ℝ) ≤ j := by exact_mod_cast hij.le
      linarith
    unfold run
    rw [show (x0 + (j : ℝ) * dx - (x0 + (i : ℝ) * dx)) * (x0 + (j : ℝ) * dx - (x0 + (i : ℝ) * dx)) +
      (y0 + (j : ℝ) * dy - (y0 + (i : ℝ) * dy)) * (y0 + (j : ℝ) * dy - (y0 + (i : ℝ) * dy)) =
      ((j : ℝ) - i) ^ 2 * (dx * dx + dy * dy) by ring, Real.sqrt_mul (sq_nonneg _), Real.sqrt_sq hp]
  refine ⟨hd, ?_, ?_⟩
  · intro i j k h1 h2 _
    rw [e i k (by omega), e i j h1, e j k h2]; ring
  · intro i j hij _
    rw [e i j hij]
    have : (1 : ℝ) ≤ (j : ℝ) - i := by
      have : (i : ℝ) + 1 ≤ j := by exact_mod_cast hij
      linarith
    nlinarith

example : Straight (run (fun i => 100 + i * 30) (fun i => 500 + i * (-30))) (Real.sqrt (30 * 30 + (-30) * (-30))) 12 :=
  straight_even 100 500 30 (-30) (Real.sqrt_pos.2 (by norm_num)) 12

/-! Where it goes wrong. -/

theorem horizonC_three {x y z : Nat → ℝ} {h a b : ℝ} (junk : Nat → Nat) (hA : slope x y z h 0 1 = .fin a)
    (hB : slope x y z h 1 2 = .fin b) (hab : b < a) : ∃ H, horizonC x y z h 3 junk = some H ∧ H 0 = 1 := by
  unfold horizonC
  obtain ⟨v, hv, h1, h2⟩ := search_some 3 (initH 3 junk) (cmpC x y z h (initH 3 junk) 1).1
    (cmpC x y z h (initH 3 junk) 1).2 1 (fun j hj hj' => by omega) rfl 3 2 (by omega) (by omega) (by omega)
  have hv2 : v = 2 := by omega
  subst hv2
  let H : Nat → Nat := fun k => if k = 1 then 2 else initH 3 junk k
  have hs : search 3 H (cmpC x y z h H 0).1 (cmpC x y z h H 0).2 3 1 = some 1 := by
    unfold search
    have e1 : (cmpC x y z h H 0).1 1 = .fin a := hA
    have e2 : (cmpC x y z h H 0).2 1 = .fin b := hB
    rw [e1, e2]
    rw [if_neg (show ¬ (Num.fin a).lt (Num.fin b) from not_lt.2 hab.le), if_pos (show (Num.fin b).lt (Num.fin a) from hab)]
  refine ⟨fun k => if k = 0 then 1 else H k, ?_, rfl⟩
  show outer 3 (cmpC x y z h) 2 (initH 3 junk) = _
  unfold outer
  simp only [hv]
  unfold outer
  rw [show search 3 (fun k => if k = 1 then 2 else initH 3 junk k) (cmpC x y z h (fun k => if k = 1 then 2 else initH 3 junk k) 0).1
    (cmpC x y z h (fun k => if k = 1 then 2 else initH 3 junk k) 0).2 3 (0 + 1) = some 1 from hs]
  simp only [outer]
  rfl

/-- Positions of the witnesses. -/
def lineX : Nat → ℝ := fun i => i
def lineY : Nat → ℝ := fun _ => 0
noncomputable def stairZ : Nat → ℝ := fun i => if i = 0 then 0 else if i = 1 then 2 else 3.5

theorem run_line (i j : Nat) (h : i ≤ j) : run lineX lineY i j = (j : ℝ) - i := by
  have hp : (0 : ℝ) ≤ (j : ℝ) - i := by
    have : (i : ℝ) ≤ j := by exact_mod_cast h
    linarith
  unfold run lineX lineY
  rw [show ((j : ℝ) - i) * ((j : ℝ) - i) + (0 - 0) * (0 - 0) = ((j : ℝ) - i) ^ 2 by ring, Real.sqrt_sq hp]

/-- An instrument one unit above the ground: the code adds the height again at every point it passes and
stops at the nearer, lower point. -/
theorem C64_height_fails (junk : Nat → Nat) :
    hord lineX lineY stairZ 1 3 junk = some (some (angle (trueSlope lineX lineY stairZ 1 1))) ∧
    trueSlope lineX lineY stairZ 1 1 < trueSlope lineX lineY stairZ 1 2 := by
  have r1 : run lineX lineY 0 1 = 1 := by rw [run_line 0 1 (by omega)]; norm_num
  have r2 : run lineX lineY 1 2 = 1 := by rw [run_line 1 2 (by omega)]; norm_num
  have r3 : run lineX lineY 0 2 = 2 := by rw [run_line 0 2 (by omega)]; norm_num
  have s1 : S stairZ (run lineX lineY) 1 0 1 = 1 := by unfold S stairZ; rw [r1]; norm_num
  have s2 : S stairZ (run lineX lineY) 1 1 2 = 0.5 := by unfold S stairZ; rw [r2]; norm_num
  have s3 : S stairZ (run lineX lineY) 1 0 2 = 1.25 := by unfold S stairZ; rw [r3]; norm_num
  obtain ⟨H, h1, h2⟩ := horizonC_three (x := lineX) (y := lineY) (z := stairZ) (h := 1) (a := 1) (b := 0.5) junk
    (by rw [slope_fin (by rw [r1]; norm_num), s1]) (by rw [slope_fin (by rw [r2]; norm_num), s2]) (by norm_num)
  constructor
  · unfold hord
    rw [h1]
    simp only [Option.map_some, h2]
    rw [slope_fin (by rw [r1]; norm_num), degrees_fin, trueSlope_eq]
  · rw [trueSlope_eq, trueSlope_eq, s1, s3]; norm_num

/-- The cells of the line from (0, 0) to (3, 1). -/
def bentX : Nat → ℝ := fun i => i
noncomputable def bentY : Nat → ℝ := fun i => if i ≤ 1 then 0 else 1
noncomputable def bentZ : Nat → ℝ := fun i => if i = 0 then 0 else if i = 1 then 1 else if i = 2 then 2.3 else 3.1

theorem bent_cells : Bres.findLine 10 10 0 0 3 1 (Bres.initLine 0 0 0 0) = [(0, 0), (1, 0), (2, 1), (3, 1)] := by decide

theorem bent_runs : run bentX bentY 0 1 = 1 ∧ run bentX bentY 1 2 = Real.sqrt 2 ∧ run bentX bentY 0 2 = Real.sqrt 5 ∧
    run bentX bentY 1 3 = Real.sqrt 5 ∧ run bentX bentY 0 3 = Real.sqrt 10 := by
  unfold run bentX bentY
  refine ⟨?_, ?_, ?_, ?_, ?_⟩
  · norm_num
  all_goals norm_num

theorem bent_slopes : S bentZ (run bentX bentY) 0 0 1 = 1 ∧ S bentZ (run bentX bentY) 0 1 2 < 1 ∧
    1 < S bentZ (run bentX bentY) 0 0 2 ∧
    S bentZ (run bentX bentY) 0 1 2 < S bentZ (run bentX bentY) 0 1 3 ∧ S bentZ (run bentX bentY) 0 0 3 < 1 := by
  obtain ⟨r1, r2, r3, r4, r5⟩ := bent_runs
  have p2 : (0 : ℝ) < Real.sqrt 2 := Real.sqrt_pos.2 (by norm_num)
  have p5 : (0 : ℝ) < Real.sqrt 5 := Real.sqrt_pos.2 (by norm_num)
  have p10 : (0 : ℝ) < Real.sqrt 10 := Real.sqrt_pos.2 (by norm_num)
  have z0 : bentZ 0 = 0 := by unfold bentZ; norm_num
  have z1 : bentZ 1 = 1 := by unfold bentZ; norm_num
  have z2 : bentZ 2 = 2.3 := by unfold bentZ; norm_num
  have z3 : bentZ 3 = 3.1 := by unfold bentZ; norm_num
  unfold S
  rw [r1, r2, r3, r4, r5, z0, z1, z2, z3]
  refine ⟨by norm_num, ?_, ?_, ?_, ?_⟩
  · rw [div_lt_one p2]
    exact Real.lt_sqrt_of_sq_lt (by norm_num)
  · rw [one_lt_div p5]
    rw [Real.sqrt_lt' (by norm_num)]; norm_num
  · rw [div_lt_div_iff₀ p2 p5]
    have : ((2.3 - 1 - 0) * Real.sqrt 5) ^ 2 < ((3.1 - 1 - 0) * Real.sqrt 2) ^ 2 := by
      rw [mul_pow, mul_pow, Real.sq_sqrt (by norm_num), Real.sq_sqrt (by norm_num)]; norm_num
    exact lt_of_pow_lt_pow_left₀ 2 (by positivity) this
  · rw [div_lt_one p10]
    exact Real.lt_sqrt_of_sq_lt (by norm_num)

/-- On a line that is not a row, a column or a diagonal the cells are not in a straight line, and even with the
instrument on the ground the search stops too early. -/
theorem C64_bent_fails (junk : Nat → Nat) :
    hord bentX bentY bentZ 0 3 junk = some (some (angle (trueSlope bentX bentY bentZ 0 1))) ∧
    trueSlope bentX bentY bentZ 0 1 < trueSlope bentX bentY bentZ 0 2 := by
  obtain ⟨s1, s2, s3, _, _⟩ := bent_slopes
  obtain ⟨r1, r2, r3, _, _⟩ := bent_runs
  have n1 : run bentX bentY 0 1 ≠ 0 := by rw [r1]; norm_num
  have n2 : run bentX bentY 1 2 ≠ 0 := by rw [r2]; exact (Real.sqrt_pos.2 (by norm_num)).ne'
  obtain ⟨H, h1, h2⟩ := horizonC_three (x := bentX) (y := bentY) (z := bentZ) (h := 0) junk
    (slope_fin n1) (slope_fin n2) (by rw [s1]; exact s2)
  constructor
  · unfold hord
    rw [h1]
    simp only [Option.map_some, h2]
    rw [slope_fin n1, degrees_fin, trueSlope_eq]
  · rw [trueSlope_eq, trueSlope_eq, s1]; exact s3

theorem C64_fails : ¬ C64_full := by
  intro hf
  obtain ⟨v, h1, h2, h3, h4⟩ := hf lineX lineY stairZ 1 3 (fun _ => 0) (by omega) (by norm_num) (by
    intro i j hij _ he
    have : (i : ℝ) = j := congrArg Prod.fst he
    have : i = j := by exact_mod_cast this
    omega)
  obtain ⟨g1, g2⟩ := C64_height_fails (fun _ => 0)
  rw [g1] at h3
  have h5 := angle_strictMono.injective (Option.some.inj (Option.some.inj h3))
  have := h4 2 (by omega) (by omega)
  linarith

/-- The python version errs on the bent line of four cells as well. -/
theorem C64_python_fails :
    ∃ H, horizonPy bentX bentY bentZ 0 4 = some H ∧ H 0 = 1 ∧
      trueSlope bentX bentY bentZ 0 (H 0) < trueSlope bentX bentY bentZ 0 2 := by
  obtain ⟨s1, s2, s3, s4, s5⟩ := bent_slopes
  obtain ⟨r1, r2, r3, r4, r5⟩ := bent_runs
  have n1 : run bentX bentY 0 1 ≠ 0 := by rw [r1]; norm_num
  have n2 : run bentX bentY 1 2 ≠ 0 := by rw [r2]; exact (Real.sqrt_pos.2 (by norm_num)).ne'
  have n3 : run bentX bentY 1 3 ≠ 0 := by rw [r4]; exact (Real.sqrt_pos.2 (by norm_num)).ne'
  have n4 : run bentX bentY 0 3 ≠ 0 := by rw [r5]; exact (Real.sqrt_pos.2 (by norm_num)).ne'
  unfold horizonPy
  let H0 : Nat → Nat := initH 4 fun _ => 0
  let H1 : Nat → Nat := fun k => if k = 2 then 3 else H0 k
  let H2 : Nat → Nat := fun k => if k = 1 then 3 else H1 k
  have a1 : search 4 H0 (cmpPy bentX bentY bentZ 0 H0 2).1 (cmpPy bentX bentY bentZ 0 H0 2).2 4 3 = some 3 := by
    obtain ⟨v, hv, h1, h2⟩ := search_some 4 H0 (cmpPy bentX bentY bentZ 0 H0 2).1 (cmpPy bentX bentY bentZ 0 H0 2).2 2
      (fun j hj hj' => by omega) rfl 4 3 (by omega) (by omega) (by omega)
    have : v = 3 := by omega
    rw [hv, this]
  have a2 : search 4 H1 (cmpPy bentX bentY bentZ 0 H1 1).1 (cmpPy bentX bentY bentZ 0 H1 1).2 4 2 = some 3 := by
    obtain ⟨v, hv, h1, h2⟩ := search_some 4 H1 (cmpPy bentX bentY bentZ 0 H1 1).1 (cmpPy bentX bentY bentZ 0 H1 1).2 2
      (fun j hj hj' => by omega) rfl 3 3 (by omega) (by omega) (by omega)
    have hv3 : v = 3 := by omega
    unfold search
    have e1 : (cmpPy bentX bentY bentZ 0 H1 1).1 2 = .fin (S bentZ (run bentX bentY) 0 1 2) := slope_fin n2
    have e2 : (cmpPy bentX bentY bentZ 0 H1 1).2 2 = .fin (S bentZ (run bentX bentY) 0 1 3) := slope_fin n3
    rw [if_pos (by rw [e1, e2]; exact s4), if_neg (by omega)]
    show search 4 H1 _ _ 3 3 = some 3
    rw [hv, hv3]
  have a3 : search 4 H2 (cmpPy bentX bentY bentZ 0 H2 0).1 (cmpPy bentX bentY bentZ 0 H2 0).2 4 1 = some 1 := by
    unfold search
    have e1 : (cmpPy bentX bentY bentZ 0 H2 0).1 1 = .fin (S bentZ (run bentX bentY) 0 0 1) := slope_fin n1
    have e2 : (cmpPy bentX bentY bentZ 0 H2 0).2 1 = .fin (S bentZ (run bentX bentY) 0 0 3) := slope_fin n4
    have hlt : S bentZ (run bentX bentY) 0 0 3 < S bentZ (run bentX bentY) 0 0 1 := by rw [s1]; exact s5
    rw [e1, e2]
    rw [if_neg (show ¬ (Num.fin _).lt (Num.fin _) from not_lt.2 hlt.le), if_pos (show (Num.fin _).lt (Num.fin _) from hlt)]
  refine ⟨fun k => if k = 0 then 1 else H2 k, ?_, rfl, ?_⟩
  · have o3 : outer 4 (cmpPy bentX bentY bentZ 0) 3 H0 = outer 4 (cmpPy bentX bentY bentZ 0) 2 H1 := by
      rw [outer]; simp only [a1]; rfl
    have o2 : outer 4 (cmpPy bentX bentY bentZ 0) 2 H1 = outer 4 (cmpPy bentX bentY bentZ 0) 1 H2 := by
      rw [outer]; simp only [a2]; rfl
    have o1 : outer 4 (cmpPy bentX bentY bentZ 0) 1 H2 = some (fun k => if k = 0 then 1 else H2 k) := by
      rw [outer]; simp only [a3]; rfl
    show outer 4 (cmpPy bentX bentY bentZ 0) 3 H0 = _
    rw [o3, o2, o1]
  · show trueSlope bentX bentY bentZ 0 1 < _
    rw [trueSlope_eq, trueSlope_eq, s1]; exact s3

/-! ### C64 for a whole row, from the line to the horizon -/

theorem row_cell {s e : Int × Int} (hrow : s.2 = e.2) (hse : s.1 ≠ e.1) {k : Int} {c : Int × Int}
    (h : Bres.NearLine s e k c) : c.1 = s.1 + k * Int.sign (e.1 - s.1) ∧ c.2 = s.2 := by
  obtain ⟨h1, h2⟩ := h
  have hsp : Bres.span s e = |e.1 - s.1| := by
    unfold Bres.span
    rw [hrow, sub_self, abs_zero]
    exact max_eq_left (abs_nonneg _)
  have hpos : 0 < |e.1 - s.1| := abs_pos.2 (by omega)
  rw [hsp] at h1 h2
  constructor
  · have hs : (e.1 - s.1) = |e.1 - s.1| * Int.sign (e.1 - s.1) := by
      rw [mul_comm, Int.sign_mul_abs]
    have e1 : |e.1 - s.1| * (c.1 - s.1) - k * (e.1 - s.1) =
        |e.1 - s.1| * (c.1 - s.1 - k * Int.sign (e.1 - s.1)) := by
      conv_lhs => rw [show k * (e.1 - s.1) = k * (|e.1 - s.1| * Int.sign (e.1 - s.1)) by rw [← hs]]
      ring
    rw [e1, abs_mul, abs_abs] at h1
    by_contra hne
    have : 1 ≤ |c.1 - s.1 - k * Int.sign (e.1 - s.1)| := by
      have : 0 < |c.1 - s.1 - k * Int.sign (e.1 - s.1)| := abs_pos.2 (by omega)
      omega
    nlinarith
  · rw [hrow, sub_self, mul_zero, sub_zero, abs_mul, abs_abs] at h2
    by_contra hne
    have : 1 ≤ |c.2 - e.2| := by
      have : 0 < |c.2 - e.2| := abs_pos.2 (by omega)
      omega
    nlinarith

/-- The slope from cell `s` to the cell `k` columns away from it in the direction of `e`, on an even grid. -/
noncomputable def rowSlope (nx : Int) (dx : ℝ) (z : Int → ℝ) (s e : Int × Int) (k : Nat) : ℝ :=
  (z (s.2 * nx + (s.1 + k * Int.sign (e.1 - s.1))) - z (s.2 * nx + s.1)) / (k * |dx|)

/-- West and east winds, instrument on the ground, even columns: the value of a cell is the angle of the
steepest cell among those between it and the end of the search that are in the grid, not counting cells
500 or more columns away. -/
theorem C64_row_partial (nx ny : Int) (x y z : Int → ℝ) (x0 dx : ℝ) (hx : ∀ i, x i = x0 + i * dx) (hdx : dx ≠ 0)
    (s e : Int × Int) (f : Bres.Fits s.1 s.2 e.1 e.2) (hrow : s.2 = e.2) (hs : Bres.InGrid nx ny s)
    (hnext : s.1 ≠ e.1 ∧ 0 ≤ s.1 + Int.sign (e.1 - s.1) ∧ s.1 + Int.sign (e.1 - s.1) < nx)
    (junk : Bres.LineData) (mem : Bres.Arrays ℝ) (jh : Nat → Nat) :
    ∃ v : Nat, 0 < v ∧
      cellMaxus nx ny x y z s e 0 junk mem jh = some (correct (some (angle (rowSlope nx dx z s e v)))) ∧
      (0 ≤ s.1 + v * Int.sign (e.1 - s.1) ∧ s.1 + v * Int.sign (e.1 - s.1) < nx ∧ (v : Int) ≤ |e.1 - s.1| ∧ v < 500) ∧
      ∀ k : Nat, 0 < k → k < 500 → (k : Int) ≤ |e.1 - s.1| →
        0 ≤ s.1 + k * Int.sign (e.1 - s.1) → s.1 + k * Int.sign (e.1 - s.1) < nx →
        rowSlope nx dx z s e k ≤ rowSlope nx dx z s e v := by
  obtain ⟨hse, hn1, hn2⟩ := hnext
  obtain ⟨hhead, hnear, _, hlen, hend⟩ := Bres.C62_line_partial nx ny s e f junk
  obtain ⟨q1, q2, q3, q4⟩ := Bres.C85_profile nx ny x y z { mem with n := 0 } rfl s e junk hs
  set p := Bres.findLine nx ny s.1 s.2 e.1 e.2 junk with hp
  set r := Bres.fill nx ny x y z { mem with n := 0 } 0 p with hr
  set sg := Int.sign (e.1 - s.1) with hsg
  have hsp : Bres.span s e = |e.1 - s.1| := by
    unfold Bres.span
    rw [hrow, sub_self, abs_zero]
    exact max_eq_left (abs_nonneg _)
  have hsg1 : sg = 1 ∨ sg = -1 := by
    rcases lt_or_gt_of_ne hse with h | h
    · left; exact Int.sign_eq_one_of_pos (by omega)
    · right; exact Int.sign_eq_neg_one_of_neg (by omega)
  have hcell : ∀ (k : Nat) c, p[k]? = some c → c = (s.1 + k * sg, s.2) := by
    intro k c hc
    obtain ⟨a, b⟩ := row_cell hrow hse (hnear k c hc)
    exact Prod.ext a b
  -- cells that are close enough and in the grid are in the arrays
  have hin : ∀ k : Nat, k < 500 → (k : Int) ≤ |e.1 - s.1| → 0 ≤ s.1 + k * sg → s.1 + k * sg < nx → k < r.n := by
    intro k hk hk2 hk3 hk4
    have hkp : k < p.length := by
      rcases hend with ⟨_, hl⟩ | hl | ⟨c, hc, hout⟩
      · rw [hsp] at hl; omega
      · omega
      · by_contra hge
        have hlp : 0 < p.length := by omega
        rw [List.getLast?_eq_getElem?] at hc
        have hcc := hcell _ c hc
        have hle : p.length - 1 < k := by omega
        apply hout
        rw [hcc]
        obtain ⟨g1, g2, g3, g4⟩ := hs
        unfold Bres.Inside
        generalize p.length - 1 = m at *
        refine ⟨?_, ?_, g3, by omega⟩
        · show 0 ≤ s.1 + (m : Int) * sg
          rcases hsg1 with h | h <;> rw [h] at hk3 ⊢ <;> omega
        · show s.1 + (m : Int) * sg ≤ nx
          rcases hsg1 with h | h <;> rw [h] at hk4 ⊢ <;> omega
    by_contra hge
    have hc : p[k]? = some p[k] := List.getElem?_eq_getElem hkp
    have := q4 k p[k] (by omega) hc
    rw [hcell k _ hc] at this
    exact this ⟨hk3, hk4, hs.2.2.1, hs.2.2.2⟩
  have hrn : 2 ≤ r.n := by
    have := hin 1 (by omega) (by
      have : 0 < |e.1 - s.1| := abs_pos.2 (by omega)
      omega) (by simpa using hn1) (by simpa using hn2)
    omega
  have hval : ∀ k : Nat, k < r.n → r.x k = x (s.1 + k * sg) ∧ r.y k = y s.2 ∧ r.z k = z (s.2 * nx + (s.1 + k * sg)) := by
    intro k hk
    obtain ⟨c, hc, _, _, _, c1, c2, c3⟩ := q3 k hk
    rw [hcell k c hc] at c1 c2 c3
    exact ⟨c1, c2, c3⟩
  have hsgabs : |(sg : ℝ)| = 1 := by rcases hsg1 with h | h <;> rw [h] <;> simp
  have hrun : ∀ i j : Nat, i < j → j < r.n → run r.x r.y i j = ((j : ℝ) - i) * |dx| := by
    intro i j hij hj
    unfold run
    rw [(hval i (by omega)).1, (hval i (by omega)).2.1, (hval j hj).1, (hval j hj).2.1, hx, hx]
    push_cast
    have hp : (0 : ℝ) ≤ (j : ℝ) - i := by
      have : (i : ℝ) ≤ j := by exact_mod_cast hij.le
      linarith
    rw [sub_self, mul_zero, add_zero, Real.sqrt_mul_self_eq_abs,
      show x0 + ((s.1 : ℝ) + j * sg) * dx - (x0 + ((s.1 : ℝ) + i * sg) * dx) = ((j : ℝ) - i) * (sg * dx) by ring,
      abs_mul, abs_mul, hsgabs, one_mul, abs_of_nonneg hp]
  have hdp : 0 < |dx| := abs_pos.2 hdx
  have st : Straight (run r.x r.y) |dx| r.n := by
    refine ⟨hdp, ?_, ?_⟩
    · intro i j k h1 h2 h3
      rw [hrun i k (by omega) h3, hrun i j h1 (by omega), hrun j k h2 h3]; ring
    · intro i j hij hj
      rw [hrun i j hij hj]
      have : (1 : ℝ) ≤ (j : ℝ) - i := by
        have : (i : ℝ) + 1 ≤ j := by exact_mod_cast hij
        linarith
      nlinarith
  obtain ⟨v, v1, v2, v3, v4⟩ := C64_exact_partial r.x r.y r.z |dx| r.n jh hrn st
  have hslope : ∀ k : Nat, 0 < k → k < r.n → trueSlope r.x r.y r.z 0 k = rowSlope nx dx z s e k := by
    intro k hk hk'
    rw [trueSlope_eq]
    unfold S rowSlope
    rw [hrun 0 k hk hk', (hval k hk').2.2, (hval 0 (by omega)).2.2, ← hsg]
    push_cast
    simp only [zero_mul, add_zero, sub_zero]
  refine ⟨v, v1, ?_, ?_, ?_⟩
  · unfold cellMaxus
    show (hord r.x r.y r.z 0 r.n jh).map correct = _
    rw [v3, hslope v v1 v2]
    rfl
  · obtain ⟨c, hc, hg, _⟩ := q3 v v2
    rw [hcell v c hc] at hg
    have hv500 : v < 500 := by omega
    refine ⟨hg.1, hg.2.1, ?_, hv500⟩
    -- a line never goes past its end
    by_contra hgt
    obtain ⟨t, L, ht, hpL, h1, h2, h3, h5⟩ := Bres.findLine_eq nx ny s e f junk
    have hlen2 : p.length = L + 1 := by rw [hp, hpL]; simp
    rw [hsp] at h2
    omega
  · intro k hk hk2 hk3 hk4 hk5
    have := hin k hk2 hk3 hk4 hk5
    rw [← hslope k hk this, ← hslope v v1 v2]
    exact v4 k hk this

/-- A grid of 30 metre cells, wind from the west, searching 5 cells from column 7. -/
example (y z : Int → ℝ) (junk : Bres.LineData) (mem : Bres.Arrays ℝ) (jh : Nat → Nat) :
    ∃ v : Nat, 0 < v ∧
      cellMaxus 20 10 (fun i => 1000 + i * 30) y z (7, 4) (2, 4) 0 junk mem jh =
        some (correct (some (angle (rowSlope 20 30 z (7, 4) (2, 4) v)))) := by
  obtain ⟨v, h1, h2, _⟩ := C64_row_partial 20 10 (fun i => 1000 + i * 30) y z 1000 30 (fun _ => rfl) (by norm_num)
    (7, 4) (2, 4) (by constructor <;> decide) rfl (by unfold Bres.InGrid; decide) (by decide) junk mem jh
  exact ⟨v, h1, h2⟩

/-! ### C86: cells with no upwind cell -/

theorem hord_one (x y z : Nat → ℝ) (h : ℝ) (jh : Nat → Nat) :
    hord x y z h 1 jh = some (degrees (slope x y z h 0 0)) := rfl

theorem slope_self (x y z : Nat → ℝ) (h : ℝ) (i : Nat) :
    slope x y z h i i = if 0 < h then .ninf else if h < 0 then .pinf else .nan := by
  unfold slope Num.div run
  have : Real.sqrt ((x i - x i) * (x i - x i) + (y i - y i) * (y i - y i)) = 0 := by simp
  rw [if_pos this]
  have e : z i - (h + z i) = -h := by ring
  rw [e]
  by_cases h1 : 0 < h
  · simp [h1, not_lt.2 h1.le, h1.ne']
  · by_cases h2 : h < 0
    · simp [h1, h2, h2.ne]
    · simp [le_antisymm (not_lt.1 h1) (not_lt.1 h2)]

/-- The start is the only cell of the line in the grid. -/
def Alone (nx ny : Int) (s e : Int × Int) (junk : Bres.LineData) : Prop :=
  Bres.InGrid nx ny s ∧
    ∀ c, (Bres.findLine nx ny s.1 s.2 e.1 e.2 junk)[1]? = some c → ¬ Bres.InGrid nx ny c

theorem alone_n (nx ny : Int) (x y z : Int → ℝ) (s e : Int × Int) (f : Bres.Fits s.1 s.2 e.1 e.2)
    (junk : Bres.LineData) (mem : Bres.Arrays ℝ) (ha : Alone nx ny s e junk) :
    (Bres.fill nx ny x y z { mem with n := 0 } 0 (Bres.findLine nx ny s.1 s.2 e.1 e.2 junk)).n = 1 := by
  obtain ⟨q1, q2, q3, q4⟩ := Bres.C85_profile nx ny x y z { mem with n := 0 } rfl s e junk ha.1
  by_contra hne
  obtain ⟨c, hc, hg, _⟩ := q3 1 (by omega)
  exact ha.2 c hc hg

/-- A cell with nothing upwind of it in the grid gets the value 0 when the instrument is above the ground. -/
theorem C86_own_horizon_partial (nx ny : Int) (x y z : Int → ℝ) (s e : Int × Int) (f : Bres.Fits s.1 s.2 e.1 e.2)
    (h : ℝ) (hh : 0 < h) (junk : Bres.LineData) (mem : Bres.Arrays ℝ) (jh : Nat → Nat)
    (ha : Alone nx ny s e junk) : cellMaxus nx ny x y z s e h junk mem jh = some (some 0) := by
  unfold cellMaxus
  simp only
  rw [alone_n nx ny x y z s e f junk mem ha, hord_one, slope_self, if_pos hh]
  simp only [degrees, correct, Option.map_some]
  rw [if_pos]
  have h1 : (3.1415 : ℝ) < Real.pi := Real.pi_gt_d4
  have : -(Real.pi / 2) / PI * 180 = -(Real.pi * (90 / PI)) := by ring
  rw [this]
  have h2 : (28.6 : ℝ) ≤ 90 / PI := by
    unfold PI
    rw [le_div_iff₀ (by norm_num)]; norm_num
  nlinarith

/-- With the instrument on the ground it is NaN. -/
theorem C86_ground_fails (nx ny : Int) (x y z : Int → ℝ) (s e : Int × Int) (f : Bres.Fits s.1 s.2 e.1 e.2)
    (junk : Bres.LineData) (mem : Bres.Arrays ℝ) (jh : Nat → Nat)
    (ha : Alone nx ny s e junk) : cellMaxus nx ny x y z s e 0 junk mem jh = some none := by
  unfold cellMaxus
  simp only
  rw [alone_n nx ny x y z s e f junk mem ha, hord_one, slope_self]
  simp [degrees, correct]

/-- A cell on the upwind edge, wind from the west. -/
theorem alone_west : Alone 5 4 (0, 2) (-3, 2) (Bres.initLine 0 0 0 0) := by
  refine ⟨by unfold Bres.InGrid; decide, ?_⟩
  intro c hc
  have : (Bres.findLine 5 4 0 2 (-3) 2 (Bres.initLine 0 0 0 0))[1]? = some (-1, 2) := by decide
  rw [this] at hc
  rw [← Option.some.inj hc]
  unfold Bres.InGrid; decide

example (x y z : Int → ℝ) (mem : Bres.Arrays ℝ) (jh : Nat → Nat) :
    cellMaxus 5 4 x y z (0, 2) (-3, 2) 3 (Bres.initLine 0 0 0 0) mem jh = some (some 0) :=
  C86_own_horizon_partial 5 4 x y z (0, 2) (-3, 2) (by constructor <;> decide) 3 (by norm_num) _ mem jh alone_west

/-- Every other value is returned as it is, since a slope of a point of the grid is above −89 degrees unless
the ground drops more than 57 times the distance. -/
theorem C86_kept (s : ℝ) (hs : -57 ≤ s) : correct (some (angle s)) = some (angle s) := by
  unfold correct
  simp only [Option.map_some]
  rw [if_neg]
  have p1 : (3.1415 : ℝ) < Real.pi := Real.pi_gt_d4
  have p2 : Real.pi < 3.141593 := Real.pi_lt_d6
  have hx0 : 0 < Real.pi / 180 := by positivity
  have h57 : Real.pi / 180 < Real.arctan (1 / 57) := by
    have hc := Real.one_sub_sq_div_two_le_cos (x := Real.pi / 180)
    have hsn := Real.sin_lt hx0
    have hsq : (Real.pi / 180) ^ 2 / 2 ≤ 0.001 := by nlinarith
    have hcp : 0 < Real.cos (Real.pi / 180) := by linarith
    rw [← Real.arctan_tan (x := Real.pi / 180) (by linarith) (by linarith)]
    apply Real.arctan_strictMono
    rw [Real.tan_eq_sin_div_cos, div_lt_div_iff₀ hcp (by norm_num)]
    linarith
  have hinv : Real.arctan 57 = Real.pi / 2 - Real.arctan (1 / 57) := by
    have := Real.arctan_inv_of_pos (x := 57) (by norm_num)
    rw [one_div]; linarith
  have hle : -Real.arctan 57 ≤ Real.arctan s := by
    rw [← Real.arctan_neg]
    exact Real.arctan_strictMono.monotone hs
  have hgt : -(89 / 180 * Real.pi) < Real.arctan s := by
    rw [hinv] at hle; linarith
  unfold angle
  rw [not_le, ← sub_pos, show (-89.0 : ℝ) = -89 by norm_num]
  have : Real.arctan s / 3.141592654 * 180 - -89 = (Real.arctan s + 89 / 180 * 3.141592654) * (180 / 3.141592654) := by
    field_simp
    norm_num
  rw [this]
  have p3 : Real.pi < 3.141592654 := by
    have := Real.pi_lt_d20
    linarith
  apply mul_pos
  · linarith
  · norm_num

example : correct (some (angle (-3))) = some (angle (-3)) := C86_kept (-3) (by norm_num)

end Verif.Horizon
