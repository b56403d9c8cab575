import Verif.HorizonProps

/-!
Helper lemmas for the horizon search on a line that is not straight. `r` is the distance of two points, `ℓ` the length of the
line between them.
-/

namespace Verif.HorizonBent

open Horizon

/-- Distances `r` and lengths `ℓ` along a line of points that moves on. -/
structure Line (r ℓ : Nat → Nat → ℝ) (δ : ℝ) (N : Nat) : Prop where
  pos : 0 < δ
  min : ∀ i j, i < j → j < N → δ ≤ r i j
  le : ∀ i j, i < j → j < N → r i j ≤ ℓ i j
  add : ∀ i j k, i < j → j < k → k < N → ℓ i k = ℓ i j + ℓ j k
  tri : ∀ i j k, i < j → j < k → k < N → r i k ≤ r i j + r j k
  mono : ∀ i j k, i < j → j < k → k < N → r i j ≤ r i k

/-! ### Numbers -/

theorem grow {s σ s' a b c : ℝ} (hs : s ≤ σ) (hb : 0 < b) (hc : 0 < c) (tri : c ≤ a + b)
    (he : s * a + σ * b ≤ s' * c) (h0 : 0 ≤ s) : s ≤ s' := by
  have h1 : s * b ≤ σ * b := mul_le_mul_of_nonneg_right hs hb.le
  have h2 : s * c ≤ s * (a + b) := mul_le_mul_of_nonneg_left tri h0
  have h3 : s * c ≤ s' * c := by linarith
  exact le_of_mul_le_mul_right h3 hc

theorem grow_max {s σ s' a b c : ℝ} (hs : s ≤ σ) (hb : 0 < b) (hc : 0 < c) (tri : c ≤ a + b)
    (he : s * a + σ * b ≤ s' * c) : max s 0 ≤ max s' 0 := by
  rcases le_total 0 s with h | h
  · exact max_le_max (grow hs hb hc tri he h) le_rfl
  · rw [max_eq_right h]; exact le_max_right _ _

theorem pass_far {s σ s' a b c W : ℝ} (hs : s ≤ σ) (ha : 0 < a) (hc : 0 < c) (he : s * a + σ * b ≤ s' * c)
    (h2 : W ≤ max σ 0 * b) : s * a + W ≤ max s' 0 * c := by
  rcases le_total 0 σ with h | h
  · rw [max_eq_left h] at h2
    have : s' * c ≤ max s' 0 * c := mul_le_mul_of_nonneg_right (le_max_left _ _) hc.le
    linarith
  · rw [max_eq_right h, zero_mul] at h2
    have h3 : s * a ≤ 0 := mul_nonpos_of_nonpos_of_nonneg (hs.trans h) ha.le
    have h4 : 0 ≤ max s' 0 * c := mul_nonneg (le_max_right _ _) hc.le
    linarith

theorem pass_near {s σ s' a b c l l' W : ℝ} (hs : s ≤ σ) (ha : 0 < a) (hb : 0 < b) (hc : 0 < c) (tri : c ≤ a + b)
    (he : s * a + σ * b ≤ s' * c) (hl : a ≤ l) (hl' : 0 < l') (h1 : W ≤ max σ 0 * l') (h2 : W ≤ max σ 0 * b) :
    s * a + W ≤ max s' 0 * (l + l') := by
  have hm : 0 ≤ max s' 0 := le_max_right _ _
  have hll : 0 ≤ max s' 0 * l' := mul_nonneg hm hl'.le
  have hla : max s' 0 * a ≤ max s' 0 * l := mul_le_mul_of_nonneg_left hl hm
  rcases le_or_gt W 0 with hW | hW
  · have h3 : s * a ≤ max s' 0 * a := by
      refine mul_le_mul_of_nonneg_right ?_ ha.le
      exact (le_max_left s 0).trans (grow_max hs hb hc tri he)
    linarith
  have hσ : 0 < σ := by
    by_contra hn
    rw [max_eq_right (not_lt.1 hn), zero_mul] at h2
    linarith
  rw [max_eq_left hσ.le] at h1 h2
  rcases le_total σ s' with h | h
  · have h0 : 0 ≤ s' := hσ.le.trans h
    rw [max_eq_left h0] at *
    have h3 : s * a ≤ s' * a := mul_le_mul_of_nonneg_right (hs.trans h) ha.le
    have h4 : σ * l' ≤ s' * l' := mul_le_mul_of_nonneg_right h hl'.le
    linarith
  · rcases le_total s' 0 with h0 | h0
    · rw [max_eq_right h0, zero_mul]
      have : s' * c ≤ 0 := mul_nonpos_of_nonpos_of_nonneg h0 hc.le
      linarith
    · rw [max_eq_left h0] at *
      -- `W = σ λ` with `λ` at most `b` and `l'`
      obtain ⟨t, rfl⟩ : ∃ t, W = σ * t := ⟨W / σ, by field_simp⟩
      have t1 : t ≤ l' := le_of_mul_le_mul_left h1 hσ
      have t2 : t ≤ b := le_of_mul_le_mul_left h2 hσ
      have h3 : s' * c ≤ s' * (a + b) := mul_le_mul_of_nonneg_left tri h0
      have h4 : (σ - s') * t ≤ (σ - s') * b := mul_le_mul_of_nonneg_left t2 (by linarith)
      have h5 : s' * t ≤ s' * l' := mul_le_mul_of_nonneg_left t1 h0
      linarith

/-! ### The search -/

/-- How far `k` is above the instrument at `i`, less the share of the instrument height. -/
noncomputable def W (z : Nat → ℝ) (ℓ : Nat → Nat → ℝ) (h δ : ℝ) (i k : Nat) : ℝ := z k - z i - h - h / δ * ℓ i k

/-- All points up to `n` are below the line from `i` with the slope to `m`, measured along the length, and
lower than `m`. -/
def Seen (z : Nat → ℝ) (r ℓ : Nat → Nat → ℝ) (h δ : ℝ) (n i m : Nat) : Prop :=
  ∀ k, i < k → k < n → W z ℓ h δ i k ≤ max (S z r h i m) 0 * ℓ i k

def Lower (z : Nat → ℝ) (r ℓ : Nat → Nat → ℝ) (h δ : ℝ) (i m : Nat) : Prop :=
  ∀ k, i < k → k < m → W z ℓ h δ i k ≤ max (S z r h i m) 0 * r i m

variable {z : Nat → ℝ} {r ℓ : Nat → Nat → ℝ} {h δ : ℝ} {N : Nat}

theorem Line.rp (st : Line r ℓ δ N) {i j : Nat} (hij : i < j) (hj : j < N) : 0 < r i j :=
  lt_of_lt_of_le st.pos (st.min i j hij hj)

theorem Line.share (st : Line r ℓ δ N) (hh : 0 ≤ h) {i j : Nat} (hij : i < j) (hj : j < N) : h ≤ h / δ * ℓ i j := by
  rw [div_mul_eq_mul_div, le_div_iff₀ st.pos]
  exact mul_le_mul_of_nonneg_left ((st.min i j hij hj).trans (st.le i j hij hj)) hh

theorem W_self (st : Line r ℓ δ N) (hh : 0 ≤ h) {i j : Nat} (hij : i < j) (hj : j < N) :
    W z ℓ h δ i j ≤ S z r h i j * r i j := by
  rw [S_mul (st.rp hij hj)]
  unfold W
  have := st.share hh hij hj
  linarith

theorem W_add (st : Line r ℓ δ N) (hh : 0 ≤ h) {i j k : Nat} (hij : i < j) (hjk : j < k) (hk : k < N) :
    W z ℓ h δ i k ≤ S z r h i j * r i j + W z ℓ h δ j k := by
  rw [S_mul (st.rp hij (by omega))]
  unfold W
  have := st.share hh hij (by omega)
  rw [st.add i j k hij hjk hk]
  linarith

theorem S_sum (st : Line r ℓ δ N) (hh : 0 ≤ h) {i j m : Nat} (hij : i < j) (hjm : j < m) (hm : m < N) :
    S z r h i j * r i j + S z r h j m * r j m ≤ S z r h i m * r i m := by
  rw [S_add (z := z) (h := h) (st.rp hij (by omega)) (st.rp hjm hm) (st.rp (by omega) hm)]
  linarith

/-- Going on from `j` to `m`, also when the two slopes are equal. -/
theorem move_seen (st : Line r ℓ δ N) (hh : 0 ≤ h) {i j m n : Nat} (hij : i < j) (hjm : j < m) (hm : m < N) (hn : n ≤ N)
    (hs : S z r h i j ≤ S z r h j m) (p1 : Seen z r ℓ h δ n j m) (p2 : ∀ k, m ≤ k → k < n → W z ℓ h δ j k ≤ max (S z r h j m) 0 * r j m ∨ S z r h j m = S z r h i j)
    (p2' : Lower z r ℓ h δ j m) (i1 : Seen z r ℓ h δ j i j) (i2 : Lower z r ℓ h δ i j) :
    Seen z r ℓ h δ n i m ∧ Lower z r ℓ h δ i m := by
  have a0 := st.rp hij (by omega)
  have b0 := st.rp hjm hm
  have c0 := st.rp (show i < m by omega) hm
  have tri := st.tri i j m hij hjm hm
  have he := S_sum (z := z) st hh hij hjm hm
  have gm := grow_max hs b0 c0 tri he
  have lp : ∀ a b, a < b → b < N → 0 < ℓ a b := fun a b h1 h2 => (st.rp h1 h2).trans_le (st.le a b h1 h2)
  have hm0 : 0 ≤ max (S z r h i m) 0 := le_max_right _ _
  constructor
  · intro k hik hk
    rcases lt_trichotomy k j with hkj | hkj | hkj
    · exact (i1 k hik hkj).trans (mul_le_mul_of_nonneg_right gm (lp i k hik (by omega)).le)
    · subst hkj
      refine (W_self st hh hik (by omega)).trans ?_
      have h1 : S z r h i k * r i k ≤ max (S z r h i m) 0 * r i k :=
        mul_le_mul_of_nonneg_right ((le_max_left _ _).trans gm) a0.le
      exact h1.trans (mul_le_mul_of_nonneg_left (st.le i k hik (by omega)) hm0)
    · refine (W_add st hh hij hkj (by omega)).trans ?_
      rw [st.add i j k hij hkj (by omega)]
      rcases lt_or_ge k m with hkm | hkm
      · exact pass_near hs a0 b0 c0 tri he (st.le i j hij (by omega)) (lp j k hkj (by omega)) (p1 k hkj hk) (p2' k hkj hkm)
      · rcases p2 k hkm hk with h2 | h2
        · exact pass_near hs a0 b0 c0 tri he (st.le i j hij (by omega)) (lp j k hkj (by omega)) (p1 k hkj hk) h2
        · -- equal slopes
          have h3 := p1 k hkj hk
          rw [h2] at h3
          have h4 : max (S z r h i j) 0 * ℓ j k ≤ max (S z r h i m) 0 * ℓ j k :=
            mul_le_mul_of_nonneg_right gm (lp j k hkj (by omega)).le
          have h5 : S z r h i j * r i j ≤ max (S z r h i m) 0 * r i j :=
            mul_le_mul_of_nonneg_right ((le_max_left _ _).trans gm) a0.le
          have h6 := mul_le_mul_of_nonneg_left (st.le i j hij (by omega)) hm0
          linarith
  · intro k hik hk
    have rm : r i j ≤ r i m := st.mono i j m hij hjm hm
    rcases lt_trichotomy k j with hkj | hkj | hkj
    · refine (i2 k hik hkj).trans ((mul_le_mul_of_nonneg_right gm a0.le).trans (mul_le_mul_of_nonneg_left rm hm0))
    · subst hkj
      refine (W_self st hh hik (by omega)).trans ?_
      have h1 : S z r h i k * r i k ≤ max (S z r h i m) 0 * r i k :=
        mul_le_mul_of_nonneg_right ((le_max_left _ _).trans gm) a0.le
      exact h1.trans (mul_le_mul_of_nonneg_left rm hm0)
    · exact (W_add st hh hij hkj (by omega)).trans (pass_far hs a0 c0 he (p2' k hkj hk))

/-- Stopping at `j`. -/
theorem stop_seen (st : Line r ℓ δ N) (hh : 0 ≤ h) {i j : Nat} {σ : ℝ} (hij : i < j) (hj : j < N)
    (hs : j < N - 1 → σ ≤ S z r h i j) (p1 : ∀ k, j < k → k < N → W z ℓ h δ j k ≤ max σ 0 * ℓ j k)
    (i1 : Seen z r ℓ h δ j i j) : Seen z r ℓ h δ N i j := by
  have a0 := st.rp hij hj
  have lp : ∀ a b, a < b → b < N → 0 < ℓ a b := fun a b h1 h2 => (st.rp h1 h2).trans_le (st.le a b h1 h2)
  have hm0 : 0 ≤ max (S z r h i j) 0 := le_max_right _ _
  have self : S z r h i j * r i j ≤ max (S z r h i j) 0 * ℓ i j :=
    (mul_le_mul_of_nonneg_right (le_max_left _ _) a0.le).trans (mul_le_mul_of_nonneg_left (st.le i j hij hj) hm0)
  intro k hik hk
  rcases lt_trichotomy k j with hkj | hkj | hkj
  · exact i1 k hik hkj
  · subst hkj
    exact (W_self st hh hik hk).trans self
  · refine (W_add st hh hij hkj hk).trans ?_
    rw [st.add i j k hij hkj hk]
    have h1 := p1 k hkj hk
    have h2 : max σ 0 * ℓ j k ≤ max (S z r h i j) 0 * ℓ j k :=
      mul_le_mul_of_nonneg_right (max_le_max (hs (by omega)) le_rfl) (lp j k hkj hk).le
    linarith

/-- The inner loop. -/
theorem search_seen (st : Line r ℓ δ N) (hh : 0 ≤ h) {i : Nat} {H : Nat → Nat} {A B : Nat → Num}
    (hH : ∀ j, i < j → j < N - 1 → j < H j ∧ H j < N) (hlast : H (N - 1) = N - 1)
    (hA : ∀ j, i < j → j < N - 1 → A j = .fin (S z r h i j)) (hB : ∀ j, i < j → j < N - 1 → B j = .fin (S z r h j (H j)))
    (hP : ∀ j, i < j → j < N - 1 → Seen z r ℓ h δ N j (H j) ∧ Lower z r ℓ h δ j (H j))
    (fuel j : Nat) (hij : i < j) (hj : j < N) (v : Nat) (hv : search N H A B fuel j = some v)
    (i1 : Seen z r ℓ h δ j i j) (i2 : Lower z r ℓ h δ i j) :
    Seen z r ℓ h δ N i v ∧ Lower z r ℓ h δ i v := by
  induction fuel generalizing j with
  | zero => simp [search] at hv
  | succ fuel ih =>
    unfold search at hv
    by_cases hjN : j = N - 1
    · have hvj : v = j := by
        rw [hjN] at hv ⊢
        simp only [if_true, hlast] at hv
        split at hv
        · exact (Option.some.inj hv).symm
        · split at hv <;> exact (Option.some.inj hv).symm
      rw [hvj]
      exact ⟨stop_seen (σ := 0) st hh hij hj (fun hc => by omega) (fun k h1 h2 => by omega) i1, i2⟩
    · have hj1 : j < N - 1 := by omega
      obtain ⟨h1, h2⟩ := hH j hij hj1
      obtain ⟨p1, p2⟩ := hP j hij hj1
      rw [if_neg hjN, hA j hij hj1, hB j hij hj1] at hv
      by_cases hc : (Num.fin (S z r h i j)).lt (.fin (S z r h j (H j)))
      · rw [if_pos hc] at hv
        have p1' : Seen z r ℓ h δ (H j) j (H j) := fun k hk hk' => p1 k hk (by omega)
        obtain ⟨m1, m2⟩ := move_seen st hh hij h1 h2 h2.le (le_of_lt (show S z r h i j < S z r h j (H j) from hc)) p1' (fun k hk hk' => by omega) p2 i1 i2
        exact ih (H j) (by omega) h2 hv m1 m2
      · rw [if_neg hc] at hv
        by_cases hc' : (Num.fin (S z r h j (H j))).lt (.fin (S z r h i j))
        · rw [if_pos hc'] at hv
          rw [← Option.some.inj hv]
          exact ⟨stop_seen st hh hij hj (fun _ => le_of_lt (show S z r h j (H j) < S z r h i j from hc')) p1 i1, i2⟩
        · rw [if_neg hc'] at hv
          rw [← Option.some.inj hv]
          have e : S z r h j (H j) = S z r h i j := le_antisymm (not_lt.1 hc) (not_lt.1 hc')
          exact move_seen st hh hij h1 h2 le_rfl e.ge p1 (fun k _ _ => Or.inr e) p2 i1 i2

/-- The outer loop. -/
theorem outer_seen {x y : Nat → ℝ} (hN : 2 ≤ N) (st : Line (run x y) ℓ δ N) (hh : 0 ≤ h) (junk : Nat → Nat) :
    ∃ H, horizonC x y z h N junk = some H ∧ Forward N 0 H ∧ Seen z (run x y) ℓ h δ N 0 (H 0) := by
  obtain ⟨H, h1, h2, hU⟩ := outer_total N (cmpC x y z h) (by omega) junk
    (fun i H => ∀ j, i ≤ j → j < N - 1 → Seen z (run x y) ℓ h δ N j (H j) ∧ Lower z (run x y) ℓ h δ j (H j))
    (fun j _ _ => by omega) (by
    intro i H v hi hF hU hv hiv hvN
    have key := search_seen (z := z) st hh (fun j hj hj' => hF.1 j (by omega) hj') hF.2
      (fun j hj hj' => slope_fin (st.rp hj (by omega)).ne')
      (fun j hj hj' => slope_fin (st.rp (hF.1 j (by omega) hj').1 (hF.1 j (by omega) hj').2).ne')
      (fun j hj hj' => hU j (by omega) hj') N (i + 1) (by omega) (by omega) v hv
      (fun k hk hk' => by omega) (fun k hk hk' => by omega)
    intro j hj hj'
    by_cases e : j = i
    · subst e
      simp only [if_true]
      exact key
    · simp only [if_neg e]
      exact hU j (by omega) hj')
  exact ⟨H, h1, h2, (hU 0 (by omega) (by omega)).1⟩

/-! ### Lengths on a grid -/

/-- A move by `X` cells along one axis and `Y ≤ X` along the other. -/
theorem cone {A B X Y : ℝ} (hA : 0 < A) (hB : 0 < B) (hY : 0 ≤ Y) (hXY : Y ≤ X) :
    √((X * A) ^ 2 + (Y * B) ^ 2) ≤ X * A + Y * (√(A ^ 2 + B ^ 2) - A) ∧
      X * A + Y * (√(A ^ 2 + B ^ 2) - A) ≤
        √(1 + ((√(A ^ 2 + B ^ 2) - A) / B) ^ 2) * √((X * A) ^ 2 + (Y * B) ^ 2) := by
  have hD := Real.sq_sqrt (show 0 ≤ A ^ 2 + B ^ 2 by positivity)
  have hDA : A ≤ √(A ^ 2 + B ^ 2) := Real.le_sqrt_of_sq_le (by nlinarith)
  generalize √(A ^ 2 + B ^ 2) = D at *
  have hX : 0 ≤ X := hY.trans hXY
  have hl : 0 ≤ X * A + Y * (D - A) := add_nonneg (mul_nonneg hX hA.le) (mul_nonneg hY (by linarith))
  constructor
  · rw [Real.sqrt_le_left hl]
    have e : (X * A + Y * (D - A)) ^ 2 - ((X * A) ^ 2 + (Y * B) ^ 2) = 2 * A * (D - A) * Y * (X - Y) + Y ^ 2 * (D ^ 2 - (A ^ 2 + B ^ 2)) := by ring
    have h1 : 0 ≤ 2 * A * (D - A) * Y * (X - Y) :=
      mul_nonneg (mul_nonneg (mul_nonneg (by linarith) (by linarith)) hY) (by linarith)
    rw [hD, sub_self, mul_zero, add_zero] at e
    linarith
  · rw [← Real.sqrt_mul (by positivity)]
    refine Real.le_sqrt_of_sq_le ?_
    have e : (1 + ((D - A) / B) ^ 2) * ((X * A) ^ 2 + (Y * B) ^ 2) - (X * A + Y * (D - A)) ^ 2 =
        (X * A * ((D - A) / B) - Y * B) ^ 2 := by field_simp; ring
    nlinarith [sq_nonneg (X * A * ((D - A) / B) - Y * B)]

/-- The factor is never more than `√2`. -/
theorem factor_le {A B : ℝ} (hA : 0 < A) (hB : 0 < B) : √(1 + ((√(A ^ 2 + B ^ 2) - A) / B) ^ 2) ≤ √2 := by
  apply Real.sqrt_le_sqrt
  have hDA : A ≤ √(A ^ 2 + B ^ 2) := Real.le_sqrt_of_sq_le (by nlinarith)
  have h1 : √(A ^ 2 + B ^ 2) ≤ A + B := by
    rw [Real.sqrt_le_left (by linarith)]
    nlinarith [mul_pos hA hB]
  have h2 : (√(A ^ 2 + B ^ 2) - A) / B ≤ 1 := by rw [div_le_one hB]; linarith
  have h3 : 0 ≤ (√(A ^ 2 + B ^ 2) - A) / B := div_nonneg (by linarith) hB.le
  nlinarith

/-- Square cells. -/
theorem factor_square {A : ℝ} (hA : 0 < A) : √(1 + ((√(A ^ 2 + A ^ 2) - A) / A) ^ 2) ≤ 1083 / 1000 := by
  have e : √(A ^ 2 + A ^ 2) = √2 * A := by
    rw [show A ^ 2 + A ^ 2 = 2 * A ^ 2 by ring, Real.sqrt_mul (by norm_num), Real.sqrt_sq hA.le]
  have e2 : (√2 * A - A) / A = √2 - 1 := by field_simp
  rw [e, e2, Real.sqrt_le_left (by norm_num)]
  have h2 : √2 ≤ 14143 / 10000 := by rw [Real.sqrt_le_left (by norm_num)]; norm_num
  have h1 : 1 ≤ √2 := Real.le_sqrt_of_sq_le (by norm_num)
  nlinarith

end Verif.HorizonBent
