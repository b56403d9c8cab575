import Verif.HorizonBentLemmas

/-!
Properties of the horizon search on lines of cells in any direction (C165).
-/

namespace Verif.HorizonBent

open Horizon

/-! ### Any line of points -/

/-- If the length of the line between two points is at most `κ` times their distance, no point is seen above `κ` times the slope
that the search reports, or the horizontal if that is less, and `κ` times the share of the instrument height. -/
theorem C165_profile (x y z : Nat → ℝ) (ℓ : Nat → Nat → ℝ) (h δ κ : ℝ) (N : Nat) (junk : Nat → Nat) (hN : 2 ≤ N) (hh : 0 ≤ h)
    (st : Line (run x y) ℓ δ N) (hκ : ∀ i j, i < j → j < N → ℓ i j ≤ κ * run x y i j) :
    ∃ v, 0 < v ∧ v < N ∧ hord x y z h N junk = some (some (angle (trueSlope x y z h v))) ∧
      ∀ k, 0 < k → k < N → trueSlope x y z h k ≤ κ * (max (trueSlope x y z h v) 0 + h / δ) := by
  obtain ⟨H, h1, h2, hU⟩ := outer_seen (z := z) hN st hh junk
  obtain ⟨v1, v2⟩ := h2.1 0 (by omega) (by omega)
  refine ⟨H 0, v1, v2, ?_, ?_⟩
  · unfold hord
    rw [h1, Option.map_some, slope_fin (st.rp v1 v2).ne', degrees_fin, trueSlope_eq]
  · intro k hk hk'
    have rk := st.rp hk hk'
    have h3 := hU k hk hk'
    rw [trueSlope_eq, trueSlope_eq]
    have hd : 0 ≤ h / δ := div_nonneg hh st.pos.le
    have hm : 0 ≤ max (S z (run x y) h 0 (H 0)) 0 := le_max_right _ _
    have h4 := mul_le_mul_of_nonneg_left (hκ 0 k hk hk') (add_nonneg hm hd)
    unfold W at h3
    have h5 : z k - z 0 - h ≤ κ * (max (S z (run x y) h 0 (H 0)) 0 + h / δ) * run x y 0 k := by linarith
    calc S z (run x y) h 0 k = (z k - z 0 - h) / run x y 0 k := rfl
      _ ≤ _ := by rw [div_le_iff₀ rk]; exact h5

/-! ### Lines of cells -/

theorem mink (a b c d : ℝ) : √((a + b) ^ 2 + (c + d) ^ 2) ≤ √(a ^ 2 + c ^ 2) + √(b ^ 2 + d ^ 2) := by
  have h1 := Real.sq_sqrt (show 0 ≤ a ^ 2 + c ^ 2 by positivity)
  have h2 := Real.sq_sqrt (show 0 ≤ b ^ 2 + d ^ 2 by positivity)
  have h3 := Real.sqrt_nonneg (a ^ 2 + c ^ 2)
  have h4 := Real.sqrt_nonneg (b ^ 2 + d ^ 2)
  rw [Real.sqrt_le_left (by linarith)]
  have h5 : a * b + c * d ≤ √(a ^ 2 + c ^ 2) * √(b ^ 2 + d ^ 2) := by
    rw [← Real.sqrt_mul (by positivity)]
    refine Real.le_sqrt_of_sq_le ?_
    nlinarith [sq_nonneg (a * d - b * c)]
  nlinarith

/-- Points that move by `A` along one axis at every step and by `B` along the other at some. -/
theorem line_of {x y : Nat → ℝ} {A B κ : ℝ} {Q : Nat → Nat} {N : Nat} (hA : 0 < A) (hB : 0 < B)
    (hQ : ∀ i j, i < j → j < N → Q i ≤ Q j ∧ Q j - Q i ≤ j - i)
    (hr : ∀ i j, i < j → j < N → run x y i j = √((((j : ℝ) - i) * A) ^ 2 + (((Q j : ℝ) - Q i) * B) ^ 2))
    (hκ : √(1 + ((√(A ^ 2 + B ^ 2) - A) / B) ^ 2) ≤ κ) :
    ∃ ℓ, Line (run x y) ℓ (min A B) N ∧ ∀ i j, i < j → j < N → ℓ i j ≤ κ * run x y i j := by
  have q0 : ∀ i j, i < j → j < N → (0 : ℝ) ≤ (Q j : ℝ) - Q i := fun i j h1 h2 => by
    have : (Q i : ℝ) ≤ Q j := by exact_mod_cast (hQ i j h1 h2).1
    linarith
  have q1 : ∀ i j, i < j → j < N → (Q j : ℝ) - Q i ≤ (j : ℝ) - i := fun i j h1 h2 => by
    have : ((Q j + i : ℕ) : ℝ) ≤ ((j + Q i : ℕ) : ℝ) := by
      have := hQ i j h1 h2
      exact_mod_cast (by omega : Q j + i ≤ j + Q i)
    push_cast at this
    linarith
  have n1 : ∀ i j : Nat, i < j → (1 : ℝ) ≤ (j : ℝ) - i := fun i j h1 => by
    have : (i : ℝ) + 1 ≤ j := by exact_mod_cast h1
    linarith
  refine ⟨fun i j => ((j : ℝ) - i) * A + ((Q j : ℝ) - Q i) * (√(A ^ 2 + B ^ 2) - A), ⟨lt_min hA hB, ?_, ?_, ?_, ?_, ?_⟩, ?_⟩
  · intro i j hij hj
    rw [hr i j hij hj]
    refine (min_le_left A B).trans (Real.le_sqrt_of_sq_le ?_)
    have h1 : A ≤ ((j : ℝ) - i) * A := le_mul_of_one_le_left hA.le (n1 i j hij)
    nlinarith [sq_nonneg (((Q j : ℝ) - Q i) * B)]
  · intro i j hij hj
    rw [hr i j hij hj]
    exact (cone hA hB (q0 i j hij hj) (q1 i j hij hj)).1
  · intro i j k _ _ _
    ring
  · intro i j k hij hjk hk
    rw [hr i k (by omega) hk, hr i j hij (by omega), hr j k hjk hk]
    have := mink (((j : ℝ) - i) * A) (((k : ℝ) - j) * A) (((Q j : ℝ) - Q i) * B) (((Q k : ℝ) - Q j) * B)
    rw [show ((k : ℝ) - i) * A = ((j : ℝ) - i) * A + ((k : ℝ) - j) * A by ring,
      show ((Q k : ℝ) - Q i) * B = ((Q j : ℝ) - Q i) * B + ((Q k : ℝ) - Q j) * B by ring]
    exact this
  · intro i j k hij hjk hk
    rw [hr i k (by omega) hk, hr i j hij (by omega)]
    apply Real.sqrt_le_sqrt
    have a1 := n1 i j hij
    have a2 := n1 j k hjk
    have b1 := q0 i j hij (by omega)
    have b2 := q0 j k hjk hk
    have h1 : (((j : ℝ) - i) * A) ^ 2 ≤ (((k : ℝ) - i) * A) ^ 2 :=
      pow_le_pow_left₀ (mul_nonneg (by linarith) hA.le) (mul_le_mul_of_nonneg_right (by linarith) hA.le) 2
    have h2 : (((Q j : ℝ) - Q i) * B) ^ 2 ≤ (((Q k : ℝ) - Q i) * B) ^ 2 :=
      pow_le_pow_left₀ (mul_nonneg b1 hB.le) (mul_le_mul_of_nonneg_right (by linarith) hB.le) 2
    linarith
  · intro i j hij hj
    rw [hr i j hij hj]
    exact (cone hA hB (q0 i j hij hj) (q1 i j hij hj)).2.trans (mul_le_mul_of_nonneg_right hκ (Real.sqrt_nonneg _))

/-- A coordinate that moves by `g` or not at all. -/
theorem minor_walk {n : Nat} {a : Nat → Int} {g : Int} (hg : g = 1 ∨ g = -1 ∨ g = 0)
    (hs : ∀ k, k + 1 < n → a (k + 1) = a k ∨ a (k + 1) = a k + g) :
    ∃ Q : Nat → Nat, (∀ k, k < n → a k = a 0 + Q k * g) ∧ ∀ i j, i < j → j < n → Q i ≤ Q j ∧ Q j - Q i ≤ j - i := by
  have h1 : ∀ k, ∃ q : Nat, k < n → a k = a 0 + q * g := by
    intro k
    induction k with
    | zero => exact ⟨0, fun _ => by simp⟩
    | succ k ih =>
      obtain ⟨q, hq⟩ := ih
      by_cases hk : k + 1 < n
      · rcases hs k hk with h | h
        · exact ⟨q, fun _ => by rw [h]; exact hq (by omega)⟩
        · exact ⟨q + 1, fun _ => by rw [h, hq (by omega)]; push_cast; ring⟩
      · exact ⟨0, fun h => absurd h hk⟩
  by_cases g0 : g = 0
  · refine ⟨fun _ => 0, fun k hk => ?_, fun i j _ _ => by simp⟩
    obtain ⟨q, hq⟩ := h1 k
    rw [hq hk, g0]; simp
  choose Q hQ using h1
  refine ⟨Q, fun k hk => hQ k hk, ?_⟩
  have step : ∀ k, k + 1 < n → Q k ≤ Q (k + 1) ∧ Q (k + 1) ≤ Q k + 1 := by
    intro k hk
    have e1 := hQ k (by omega)
    have e2 := hQ (k + 1) hk
    rcases hg with rfl | rfl | rfl
    · rcases hs k hk with h | h <;> omega
    · rcases hs k hk with h | h <;> omega
    · exact absurd rfl g0
  intro i j hij
  induction j with
  | zero => omega
  | succ j ih =>
    intro hj
    have := step j hj
    by_cases e : i = j
    · subst e; omega
    · have := ih (by omega) (by omega)
      omega

/-- A coordinate that moves by `g` at every step. -/
theorem major_walk {n : Nat} {a : Nat → Int} {g : Int} (hs : ∀ k, k + 1 < n → a (k + 1) = a k + g) :
    ∀ k, k < n → a k = a 0 + k * g := by
  intro k
  induction k with
  | zero => intro _; simp
  | succ k ih =>
    intro hk
    rw [hs k hk, ih (by omega)]; push_cast; ring

/-- The slope from the instrument, `h` above cell `s`, to cell `c` of the grid; columns at `x`, rows at `y`. -/
noncomputable def cellSlope (nx : Int) (x y z : Int → ℝ) (h : ℝ) (s c : Int × Int) : ℝ :=
  (z (c.2 * nx + c.1) - (z (s.2 * nx + s.1) + h)) / √((x c.1 - x s.1) ^ 2 + (y c.2 - y s.2) ^ 2)

theorem sign_cases (t : Int) : Int.sign t = 1 ∨ Int.sign t = -1 ∨ Int.sign t = 0 := by
  rcases lt_trichotomy t 0 with h | h | h
  · exact Or.inr (Or.inl (Int.sign_eq_neg_one_of_neg h))
  · exact Or.inr (Or.inr (by rw [h]; rfl))
  · exact Or.inl (Int.sign_eq_one_of_pos h)

theorem sign_sq {t : Int} (ht : t ≠ 0) : ((Int.sign t : Int) : ℝ) ^ 2 = 1 := by
  rcases lt_or_gt_of_ne ht with h | h
  · rw [Int.sign_eq_neg_one_of_neg h]; norm_num
  · rw [Int.sign_eq_one_of_pos h]; norm_num

theorem line_bound {κ : ℝ} (nx ny : Int) (x y z : Int → ℝ) (x0 dx y0 dy : ℝ) (hx : ∀ i, x i = x0 + i * dx) (hy : ∀ i, y i = y0 + i * dy)
    (hdx : dx ≠ 0) (hdy : dy ≠ 0)
    (hκ : √(1 + ((√(|dx| ^ 2 + |dy| ^ 2) - |dx|) / |dy|) ^ 2) ≤ κ)
    (hκ' : √(1 + ((√(|dy| ^ 2 + |dx| ^ 2) - |dy|) / |dx|) ^ 2) ≤ κ)
    (h : ℝ) (hh : 0 ≤ h) (s e : Int × Int) (f : Bres.Fits s.1 s.2 e.1 e.2) (hs : Bres.InGrid nx ny s)
    (junk : Bres.LineData) (mem : Bres.Arrays ℝ) (jh : Nat → Nat) (c1 : Int × Int)
    (hc1 : (Bres.findLine nx ny s.1 s.2 e.1 e.2 junk)[1]? = some c1) (hg1 : Bres.InGrid nx ny c1) :
    ∃ (v : Nat) (c : Int × Int), 0 < v ∧ (Bres.findLine nx ny s.1 s.2 e.1 e.2 junk)[v]? = some c ∧ Bres.InGrid nx ny c ∧
      cellMaxus nx ny x y z s e h junk mem jh = some (correct (some (angle (cellSlope nx x y z h s c)))) ∧
      ∀ (k : Nat) c', 0 < k → (Bres.findLine nx ny s.1 s.2 e.1 e.2 junk)[k]? = some c' → Bres.InGrid nx ny c' →
        cellSlope nx x y z h s c' ≤ κ * (max (cellSlope nx x y z h s c) 0 + h / min |dx| |dy|) := by
  obtain ⟨hhead, _, hmoves, _, _⟩ := Bres.C62_line_partial nx ny s e f junk
  obtain ⟨q1, q2, q3, q4⟩ := Bres.C85_profile nx ny x y z { mem with n := 0 } rfl s e junk hs
  set p := Bres.findLine nx ny s.1 s.2 e.1 e.2 junk with hp
  set r := Bres.fill nx ny x y z { mem with n := 0 } 0 p with hrdef
  have hrn : 2 ≤ r.n := by
    by_contra hlt
    exact q4 1 c1 (by omega) hc1 hg1
  have A0 : 0 < |dx| := abs_pos.2 hdx
  have B0 : 0 < |dy| := abs_pos.2 hdy
  -- the cells as functions of the index
  choose cell hcell using fun (k : Nat) => (show ∃ c, k < r.n → p[k]? = some c ∧ Bres.InGrid nx ny c ∧
      r.x k = x c.1 ∧ r.y k = y c.2 ∧ r.z k = z (c.2 * nx + c.1) by
    by_cases hk : k < r.n
    · obtain ⟨c, a1, a2, _, _, a3, a4, a5⟩ := q3 k hk
      exact ⟨c, fun _ => ⟨a1, a2, a3, a4, a5⟩⟩
    · exact ⟨(0, 0), fun h' => absurd h' hk⟩)
  have hmv : ∀ k, k + 1 < r.n → Bres.MovesTo s e (cell k) (cell (k + 1)) := fun k hk =>
    hmoves k _ _ (hcell k (by omega)).1 (hcell (k + 1) hk).1
  have hc0 : cell 0 = s := by
    have h1 := (hcell 0 (by omega)).1
    rw [List.head?_eq_getElem?, h1] at hhead
    exact Option.some.inj hhead
  have hst : ∃ ℓ, Line (run r.x r.y) ℓ (min |dx| |dy|) r.n ∧
      ∀ i j, i < j → j < r.n → ℓ i j ≤ κ * run r.x r.y i j := by
    have hrun : ∀ i j, i < j → j < r.n → run r.x r.y i j =
        √(((((cell j).1 : ℝ) - (cell i).1) * dx) ^ 2 + ((((cell j).2 : ℝ) - (cell i).2) * dy) ^ 2) := by
      intro i j hij hj
      obtain ⟨_, _, xi, yi, _⟩ := hcell i (by omega)
      obtain ⟨_, _, xj, yj, _⟩ := hcell j hj
      unfold run
      rw [xi, yi, xj, yj, hx, hx, hy, hy]
      congr 1
      ring
    by_cases hmaj : |e.2 - s.2| < |e.1 - s.1|
    · have hne : e.1 - s.1 ≠ 0 := by
        intro h0
        rw [h0, abs_zero] at hmaj
        exact absurd hmaj (not_lt.2 (abs_nonneg _))
      have hM := major_walk (n := r.n) (a := fun k => (cell k).1) (g := Int.sign (e.1 - s.1)) (fun k hk => by
        obtain ⟨m1, _, m3, _⟩ := hmv k hk
        exact m1.resolve_left (m3 hmaj))
      obtain ⟨Q, hQ, hQ'⟩ := minor_walk (n := r.n) (a := fun k => (cell k).2) (sign_cases (e.2 - s.2))
        (fun k hk => (hmv k hk).2.1)
      by_cases g0 : e.2 - s.2 = 0
      · refine line_of (Q := fun _ => 0) A0 B0 (fun i j _ _ => by simp) (fun i j hij hj => ?_) hκ
        rw [hrun i j hij hj, hM i (by omega), hM j hj, hQ i (by omega), hQ j hj, g0]
        congr 1
        push_cast
        have := sign_sq hne
        simp only [Int.sign_zero, Int.cast_zero, mul_zero, add_zero, sub_self, zero_mul]
        rw [show ((cell 0).1 + (j : ℝ) * (Int.sign (e.1 - s.1) : Int) - ((cell 0).1 + (i : ℝ) * (Int.sign (e.1 - s.1) : Int))) * dx =
          (((j : ℝ) - i) * dx) * (Int.sign (e.1 - s.1) : Int) by ring, mul_pow, this, mul_pow, mul_pow, sq_abs]
        ring
      · refine line_of (Q := Q) A0 B0 hQ' (fun i j hij hj => ?_) hκ
        rw [hrun i j hij hj, hM i (by omega), hM j hj, hQ i (by omega), hQ j hj]
        congr 1
        push_cast
        have t1 := sign_sq hne
        have t2 := sign_sq g0
        rw [show ((cell 0).1 + (j : ℝ) * (Int.sign (e.1 - s.1) : Int) - ((cell 0).1 + (i : ℝ) * (Int.sign (e.1 - s.1) : Int))) * dx =
            (((j : ℝ) - i) * dx) * (Int.sign (e.1 - s.1) : Int) by ring,
          show ((cell 0).2 + (Q j : ℝ) * (Int.sign (e.2 - s.2) : Int) - ((cell 0).2 + (Q i : ℝ) * (Int.sign (e.2 - s.2) : Int))) * dy =
            (((Q j : ℝ) - Q i) * dy) * (Int.sign (e.2 - s.2) : Int) by ring,
          mul_pow, t1, mul_pow, mul_pow _ (((e.2 - s.2).sign : Int) : ℝ), t2, mul_pow, mul_pow, mul_pow, sq_abs, sq_abs]
        ring
    · have hmaj' : |e.1 - s.1| ≤ |e.2 - s.2| := not_lt.1 hmaj
      have hM := major_walk (n := r.n) (a := fun k => (cell k).2) (g := Int.sign (e.2 - s.2)) (fun k hk => by
        obtain ⟨_, m2, _, m4⟩ := hmv k hk
        exact m2.resolve_left (m4 hmaj'))
      have hne : e.2 - s.2 ≠ 0 := by
        intro h0
        have h1 := (hmv 0 (by omega)).2.1
        have h2 := (hmv 0 (by omega)).2.2.2 hmaj'
        rw [h0] at h1
        simp at h1
        exact h2 h1
      obtain ⟨Q, hQ, hQ'⟩ := minor_walk (n := r.n) (a := fun k => (cell k).1) (sign_cases (e.1 - s.1))
        (fun k hk => (hmv k hk).1)
      rw [min_comm]
      by_cases g0 : e.1 - s.1 = 0
      · refine line_of (Q := fun _ => 0) B0 A0 (fun i j _ _ => by simp) (fun i j hij hj => ?_) hκ'
        rw [hrun i j hij hj, hM i (by omega), hM j hj, hQ i (by omega), hQ j hj, g0]
        congr 1
        push_cast
        have := sign_sq hne
        simp only [Int.sign_zero, Int.cast_zero, mul_zero, add_zero, sub_self, zero_mul]
        rw [show ((cell 0).2 + (j : ℝ) * (Int.sign (e.2 - s.2) : Int) - ((cell 0).2 + (i : ℝ) * (Int.sign (e.2 - s.2) : Int))) * dy =
          (((j : ℝ) - i) * dy) * (Int.sign (e.2 - s.2) : Int) by ring, mul_pow, this, mul_pow, mul_pow, sq_abs]
        ring
      · refine line_of (Q := Q) B0 A0 hQ' (fun i j hij hj => ?_) hκ'
        rw [hrun i j hij hj, hM i (by omega), hM j hj, hQ i (by omega), hQ j hj]
        congr 1
        push_cast
        have t1 := sign_sq hne
        have t2 := sign_sq g0
        rw [show ((cell 0).2 + (j : ℝ) * (Int.sign (e.2 - s.2) : Int) - ((cell 0).2 + (i : ℝ) * (Int.sign (e.2 - s.2) : Int))) * dy =
            (((j : ℝ) - i) * dy) * (Int.sign (e.2 - s.2) : Int) by ring,
          show ((cell 0).1 + (Q j : ℝ) * (Int.sign (e.1 - s.1) : Int) - ((cell 0).1 + (Q i : ℝ) * (Int.sign (e.1 - s.1) : Int))) * dx =
            (((Q j : ℝ) - Q i) * dx) * (Int.sign (e.1 - s.1) : Int) by ring,
          mul_pow, t2, mul_pow, mul_pow _ (((e.2 - s.2).sign : Int) : ℝ), t1, mul_pow, mul_pow, mul_pow, sq_abs, sq_abs]
        ring
  obtain ⟨ℓ, st, hl⟩ := hst
  obtain ⟨v, v1, v2, v3, v4⟩ := C165_profile r.x r.y r.z ℓ h _ κ r.n jh hrn hh st hl
  have hslope : ∀ k, k < r.n → trueSlope r.x r.y r.z h k = cellSlope nx x y z h s (cell k) := by
    intro k hk
    obtain ⟨_, _, xk, yk, zk⟩ := hcell k hk
    obtain ⟨_, _, x0', y0', z0'⟩ := hcell 0 (by omega)
    rw [hc0] at x0' y0' z0'
    unfold trueSlope cellSlope
    rw [xk, yk, zk, x0', y0', z0']
  refine ⟨v, cell v, v1, (hcell v v2).1, (hcell v v2).2.1, ?_, ?_⟩
  · unfold cellMaxus
    show (hord r.x r.y r.z h r.n jh).map correct = _
    rw [v3, hslope v v2]
    rfl
  · intro k c' hk hc' hg'
    have hkn : k < r.n := by
      by_contra hge
      exact q4 k c' (by omega) hc' hg'
    have : c' = cell k := by
      have := (hcell k hkn).1
      rw [hc'] at this
      exact Option.some.inj this
    rw [this, ← hslope k hkn, ← hslope v v2]
    exact v4 k hk hkn

/-- Every wind direction, every even grid, every instrument height: the value of a cell is the angle to one of the cells of
its search line, and no cell of the line that is in the grid is seen above `√2` times that slope, or the
horizontal if that is less, plus `√2` times the instrument height over the cell size. -/
theorem C165_line (nx ny : Int) (x y z : Int → ℝ) (x0 dx y0 dy : ℝ) (hx : ∀ i, x i = x0 + i * dx) (hy : ∀ i, y i = y0 + i * dy)
    (hdx : dx ≠ 0) (hdy : dy ≠ 0)
    (h : ℝ) (hh : 0 ≤ h) (s e : Int × Int) (f : Bres.Fits s.1 s.2 e.1 e.2) (hs : Bres.InGrid nx ny s)
    (junk : Bres.LineData) (mem : Bres.Arrays ℝ) (jh : Nat → Nat) (c1 : Int × Int)
    (hc1 : (Bres.findLine nx ny s.1 s.2 e.1 e.2 junk)[1]? = some c1) (hg1 : Bres.InGrid nx ny c1) :
    ∃ (v : Nat) (c : Int × Int), 0 < v ∧ (Bres.findLine nx ny s.1 s.2 e.1 e.2 junk)[v]? = some c ∧ Bres.InGrid nx ny c ∧
      cellMaxus nx ny x y z s e h junk mem jh = some (correct (some (angle (cellSlope nx x y z h s c)))) ∧
      ∀ (k : Nat) c', 0 < k → (Bres.findLine nx ny s.1 s.2 e.1 e.2 junk)[k]? = some c' → Bres.InGrid nx ny c' →
        cellSlope nx x y z h s c' ≤ √2 * (max (cellSlope nx x y z h s c) 0 + h / min |dx| |dy|) :=
  line_bound nx ny x y z x0 dx y0 dy hx hy hdx hdy (factor_le (abs_pos.2 hdx) (abs_pos.2 hdy))
    (factor_le (abs_pos.2 hdy) (abs_pos.2 hdx)) h hh s e f hs junk mem jh c1 hc1 hg1

/-- With square cells the factor is 1.083. -/
theorem C165_square (nx ny : Int) (x y z : Int → ℝ) (x0 dx y0 dy : ℝ) (hx : ∀ i, x i = x0 + i * dx) (hy : ∀ i, y i = y0 + i * dy)
    (hdx : dx ≠ 0) (hsq : |dy| = |dx|)
    (h : ℝ) (hh : 0 ≤ h) (s e : Int × Int) (f : Bres.Fits s.1 s.2 e.1 e.2) (hs : Bres.InGrid nx ny s)
    (junk : Bres.LineData) (mem : Bres.Arrays ℝ) (jh : Nat → Nat) (c1 : Int × Int)
    (hc1 : (Bres.findLine nx ny s.1 s.2 e.1 e.2 junk)[1]? = some c1) (hg1 : Bres.InGrid nx ny c1) :
    ∃ (v : Nat) (c : Int × Int), 0 < v ∧ (Bres.findLine nx ny s.1 s.2 e.1 e.2 junk)[v]? = some c ∧ Bres.InGrid nx ny c ∧
      cellMaxus nx ny x y z s e h junk mem jh = some (correct (some (angle (cellSlope nx x y z h s c)))) ∧
      ∀ (k : Nat) c', 0 < k → (Bres.findLine nx ny s.1 s.2 e.1 e.2 junk)[k]? = some c' → Bres.InGrid nx ny c' →
        cellSlope nx x y z h s c' ≤ 1083 / 1000 * (max (cellSlope nx x y z h s c) 0 + h / |dx|) := by
  have hdy : dy ≠ 0 := by
    intro h0
    rw [h0, abs_zero] at hsq
    exact hdx (abs_eq_zero.1 hsq.symm)
  have hf := factor_square (abs_pos.2 hdx)
  have := line_bound (κ := 1083 / 1000) nx ny x y z x0 dx y0 dy hx hy hdx hdy (by rw [hsq]; exact hf) (by rw [hsq]; exact hf)
    h hh s e f hs junk mem jh c1 hc1 hg1
  rw [hsq, min_self] at this
  exact this

/-- A wind from no main direction on a grid of 30 m cells, the instrument 3 m above the ground. -/
example (z : Int → ℝ) (mem : Bres.Arrays ℝ) (jh : Nat → Nat) :
    ∃ (v : Nat) (c : Int × Int), 0 < v ∧
      cellMaxus 20 20 (fun i => 1000 + i * 30) (fun i => 5000 + i * (-30)) z (2, 3) (9, 6) 3 (Bres.initLine 0 0 0 0) mem jh =
        some (correct (some (angle (cellSlope 20 (fun i => 1000 + i * 30) (fun i => 5000 + i * (-30)) z 3 (2, 3) c)))) ∧
      cellSlope 20 (fun i => 1000 + i * 30) (fun i => 5000 + i * (-30)) z 3 (2, 3) (9, 6) ≤
        1083 / 1000 * (max (cellSlope 20 (fun i => 1000 + i * 30) (fun i => 5000 + i * (-30)) z 3 (2, 3) c) 0 + 3 / 30) := by
  obtain ⟨v, c, h1, _, _, h2, h3⟩ := C165_square 20 20 (fun i => 1000 + i * 30) (fun i => 5000 + i * (-30)) z 1000 30 5000 (-30)
    (fun _ => rfl) (fun _ => rfl) (by norm_num) (by norm_num) 3 (by norm_num) (2, 3) (9, 6) (by constructor <;> decide)
    (by unfold Bres.InGrid; decide) (Bres.initLine 0 0 0 0) mem jh (3, 3) (by decide) (by unfold Bres.InGrid; decide)
  refine ⟨v, c, h1, h2, ?_⟩
  have := h3 7 (9, 6) (by norm_num) (by decide) (by unfold Bres.InGrid; decide)
  rwa [abs_of_pos (by norm_num : (0 : ℝ) < 30)] at this

/-! ### The factor is needed -/

/-- Three cells of the line from (0, 0) to (2, 1). -/
noncomputable def kneeZ : Nat → ℝ := fun i => if i = 0 then 0 else if i = 1 then 1 else 2.414

theorem knee_cells : Bres.findLine 10 10 0 0 2 1 (Bres.initLine 0 0 0 0) = [(0, 0), (1, 0), (2, 1)] := by decide

/-- The search stops at the second cell though the third is seen 7.9 percent higher. -/
theorem C165_sharp (junk : Nat → Nat) :
    hord bentX bentY kneeZ 0 3 junk = some (some (angle (trueSlope bentX bentY kneeZ 0 1))) ∧
      0 < trueSlope bentX bentY kneeZ 0 1 ∧
      1079 / 1000 * trueSlope bentX bentY kneeZ 0 1 < trueSlope bentX bentY kneeZ 0 2 := by
  obtain ⟨r1, r2, r3, -⟩ := bent_runs
  have s1 : S kneeZ (run bentX bentY) 0 0 1 = 1 := by unfold S kneeZ; rw [r1]; norm_num
  have q2 : (0 : ℝ) < √2 := Real.sqrt_pos.2 (by norm_num)
  have s2 : S kneeZ (run bentX bentY) 0 1 2 < 1 := by
    unfold S kneeZ
    rw [r2, div_lt_one q2]
    refine Real.lt_sqrt_of_sq_lt ?_
    norm_num
  have s3 : 1079 / 1000 < S kneeZ (run bentX bentY) 0 0 2 := by
    unfold S kneeZ
    rw [r3, lt_div_iff₀ (Real.sqrt_pos.2 (by norm_num))]
    have : √5 ≤ 2.2361 := by rw [Real.sqrt_le_left (by norm_num)]; norm_num
    norm_num at this ⊢
    linarith
  have n1 : run bentX bentY 0 1 ≠ 0 := by rw [r1]; norm_num
  have n2 : run bentX bentY 1 2 ≠ 0 := by rw [r2]; exact q2.ne'
  obtain ⟨H, h1, h2⟩ := horizonC_three (x := bentX) (y := bentY) (z := kneeZ) (h := 0) junk (slope_fin n1) (slope_fin n2)
    (by rw [s1]; exact s2)
  rw [trueSlope_eq, trueSlope_eq, s1]
  refine ⟨?_, one_pos, by linarith⟩
  unfold hord
  rw [h1]
  simp only [Option.map_some, h2]
  rw [slope_fin n1, degrees_fin, s1]

end Verif.HorizonBent
