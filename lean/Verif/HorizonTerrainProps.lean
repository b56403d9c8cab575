import Verif.HorizonBentProps
import Mathlib.Tactic.IntervalCases

/-!
How the upwind horizon follows a change of the terrain (C166). No new model.
-/

namespace Verif.HorizonBent

open Horizon

/-- Claimed: if the cells upwind are raised and the cell itself is not, its upwind horizon does not get lower. The profile is one that the
line walker can give: points that move on, at distances and lengths with a bounded ratio. -/
def C166_full : Prop :=
  ∀ (x y z z' : Nat → ℝ) (ℓ : Nat → Nat → ℝ) (δ : ℝ) (N : Nat) (junk : Nat → Nat) (a a' : ℝ), 2 ≤ N → Line (run x y) ℓ δ N →
    z' 0 = z 0 → (∀ k, z k ≤ z' k) → hord x y z 0 N junk = some (some a) → hord x y z' 0 N junk = some (some a') → a ≤ a'

theorem trueSlope_mono {x y z z' : Nat → ℝ} {h h' : ℝ} {k : Nat} (h0 : z' 0 + h' ≤ z 0 + h) (hk : z k ≤ z' k) :
    trueSlope x y z h k ≤ trueSlope x y z' h' k := by
  unfold trueSlope
  exact div_le_div_of_nonneg_right (by linarith) (Real.sqrt_nonneg _)

/-- On a straight profile, seen from the ground, it is so; the cell itself may also be lowered. -/
theorem C166_straight_partial (x y z z' : Nat → ℝ) (δ : ℝ) (N : Nat) (junk : Nat → Nat) (hN : 2 ≤ N)
    (st : Straight (run x y) δ N) (h0 : z' 0 ≤ z 0) (hz : ∀ k, 0 < k → k < N → z k ≤ z' k) :
    ∃ a a', hord x y z 0 N junk = some (some a) ∧ hord x y z' 0 N junk = some (some a') ∧ a ≤ a' := by
  obtain ⟨v, v1, v2, v3, -⟩ := C64_exact_partial x y z δ N junk hN st
  obtain ⟨w, -, -, w3, w4⟩ := C64_exact_partial x y z' δ N junk hN st
  refine ⟨_, _, v3, w3, angle_strictMono.monotone ?_⟩
  exact (trueSlope_mono (h' := 0) (by linarith) (hz v v1 v2)).trans (w4 v v1 v2)

/-- A row of 30 m cells in which one hill is raised. -/
example (z : Nat → ℝ) (junk : Nat → Nat) :
    ∃ a a', hord (fun i => 0 + i * 30) (fun i => 0 + i * 0) z 0 100 junk = some (some a) ∧
      hord (fun i => 0 + i * 30) (fun i => 0 + i * 0) (fun k => if k = 7 then z k + 12 else z k) 0 100 junk = some (some a') ∧ a ≤ a' :=
  C166_straight_partial _ _ z _ _ 100 junk (by norm_num) (straight_even 0 0 30 0 (Real.sqrt_pos.2 (by norm_num)) 100) (by norm_num)
    (fun k _ _ => by beta_reduce; split <;> linarith)

/-- In any direction, on square cells, the slope after the change is at most 8.3 percent below the slope before it, apart from
the share of the instrument height. -/
theorem C166_line_partial (nx ny : Int) (x y z z' : Int → ℝ) (x0 dx y0 dy : ℝ) (hx : ∀ i, x i = x0 + i * dx)
    (hy : ∀ i, y i = y0 + i * dy) (hdx : dx ≠ 0) (hsq : |dy| = |dx|) (h : ℝ) (hh : 0 ≤ h) (s e : Int × Int)
    (f : Bres.Fits s.1 s.2 e.1 e.2) (hs : Bres.InGrid nx ny s) (junk : Bres.LineData) (mem : Bres.Arrays ℝ) (jh : Nat → Nat)
    (c1 : Int × Int) (hc1 : (Bres.findLine nx ny s.1 s.2 e.1 e.2 junk)[1]? = some c1) (hg1 : Bres.InGrid nx ny c1)
    (h0 : z' (s.2 * nx + s.1) = z (s.2 * nx + s.1)) (hz : ∀ n, z n ≤ z' n) :
    ∃ c c', cellMaxus nx ny x y z s e h junk mem jh = some (correct (some (angle (cellSlope nx x y z h s c)))) ∧
      cellMaxus nx ny x y z' s e h junk mem jh = some (correct (some (angle (cellSlope nx x y z' h s c')))) ∧
      cellSlope nx x y z h s c ≤ 1083 / 1000 * (max (cellSlope nx x y z' h s c') 0 + h / |dx|) := by
  obtain ⟨v, c, v1, v2, v3, v4, -⟩ := C165_square nx ny x y z x0 dx y0 dy hx hy hdx hsq h hh s e f hs junk mem jh c1 hc1 hg1
  obtain ⟨w, c', -, -, -, w4, w5⟩ := C165_square nx ny x y z' x0 dx y0 dy hx hy hdx hsq h hh s e f hs junk mem jh c1 hc1 hg1
  refine ⟨c, c', v4, w4, le_trans ?_ (w5 v c v1 v2 v3)⟩
  unfold cellSlope
  rw [h0]
  exact div_le_div_of_nonneg_right (by linarith [hz (c.2 * nx + c.1)]) (Real.sqrt_nonneg _)

/-- A hill is built on a grid of 50 m cells. -/
example (z : Int → ℝ) (mem : Bres.Arrays ℝ) (jh : Nat → Nat) :
    ∃ c c', cellMaxus 20 20 (fun i => 0 + i * 50) (fun i => 0 + i * 50) z (2, 3) (9, 6) 0 (Bres.initLine 0 0 0 0) mem jh =
        some (correct (some (angle (cellSlope 20 (fun i => 0 + i * 50) (fun i => 0 + i * 50) z 0 (2, 3) c)))) ∧
      cellSlope 20 (fun i => 0 + i * 50) (fun i => 0 + i * 50) z 0 (2, 3) c ≤
        1083 / 1000 * (max (cellSlope 20 (fun i => 0 + i * 50) (fun i => 0 + i * 50) (fun n => if n = 65 then z n + 30 else z n) 0 (2, 3) c') 0 + 0 / |50|) := by
  obtain ⟨c, c', h1, -, h3⟩ := C166_line_partial 20 20 (fun i => 0 + i * 50) (fun i => 0 + i * 50) z
    (fun n => if n = 65 then z n + 30 else z n) 0 50 0 50 (fun _ => rfl) (fun _ => rfl) (by norm_num) rfl 0 le_rfl (2, 3) (9, 6)
    (by constructor <;> decide) (by unfold Bres.InGrid; decide) (Bres.initLine 0 0 0 0) mem jh (3, 3) (by decide)
    (by unfold Bres.InGrid; decide) (by norm_num) (fun n => by beta_reduce; split <;> linarith)
  exact ⟨c, c', h1, h3⟩

/-! ### Raising a cell can lower the horizon -/

/-- The terrain before: the second cell is lower than in `kneeZ`. -/
noncomputable def dipZ : Nat → ℝ := fun i => if i = 0 then 0 else if i = 1 then 0.5 else 2.414

theorem knee_line : Line (run bentX bentY) (fun i j => ((j : ℝ) - i) * 1 + (((j - 1 : ℕ) : ℝ) - ((i - 1 : ℕ) : ℝ)) * (√(1 ^ 2 + 1 ^ 2) - 1)) 1 3 := by
  obtain ⟨r1, r2, r3, -⟩ := bent_runs
  have q0 : √(1 ^ 2 + 1 ^ 2 : ℝ) = √2 := by norm_num
  have q1 : (1 : ℝ) ≤ √2 := Real.le_sqrt_of_sq_le (by norm_num)
  have q2 := Real.sq_sqrt (show (0 : ℝ) ≤ 2 by norm_num)
  have q5 : √5 ≤ 1 + √2 := by
    rw [Real.sqrt_le_left (by linarith)]
    nlinarith
  have q5' : 1 ≤ √5 := Real.le_sqrt_of_sq_le (by norm_num)
  refine ⟨one_pos, ?_, ?_, ?_, ?_, ?_⟩
  · intro i j hij hj
    interval_cases j <;> interval_cases i
    · rw [r1]
    · rw [r3]; exact q5'
    · rw [r2]; exact q1
  · intro i j hij hj
    interval_cases j <;> interval_cases i
    · rw [r1]; norm_num
    · rw [r3, q0]; norm_num; linarith
    · rw [r2, q0]; norm_num
  · intro i j k _ _ _
    ring
  · intro i j k hij hjk hk
    obtain rfl : k = 2 := by omega
    obtain rfl : j = 1 := by omega
    obtain rfl : i = 0 := by omega
    rw [r1, r2, r3]; exact q5
  · intro i j k hij hjk hk
    obtain rfl : k = 2 := by omega
    obtain rfl : j = 1 := by omega
    obtain rfl : i = 0 := by omega
    rw [r1, r3]; exact q5'

/-- Three points: when the slope to the second is less than the slope from there to the third, the third is taken. -/
theorem horizonC_third {x y z : Nat → ℝ} {h a b : ℝ} (junk : Nat → Nat) (hA : slope x y z h 0 1 = .fin a)
    (hB : slope x y z h 1 2 = .fin b) (hab : a < b) : ∃ H, horizonC x y z h 3 junk = some H ∧ H 0 = 2 := by
  unfold horizonC
  obtain ⟨v, hv, h1, h2⟩ := search_some 3 (initH 3 junk) (cmpC x y z h (initH 3 junk) 1).1
    (cmpC x y z h (initH 3 junk) 1).2 1 (fun j hj hj' => by omega) rfl 3 2 (by omega) (by omega) (by omega)
  have hv2 : v = 2 := by omega
  subst hv2
  let H : Nat → Nat := fun k => if k = 1 then 2 else initH 3 junk k
  have hs : search 3 H (cmpC x y z h H 0).1 (cmpC x y z h H 0).2 3 1 = some 2 := by
    unfold search
    have e1 : (cmpC x y z h H 0).1 1 = .fin a := hA
    have e2 : (cmpC x y z h H 0).2 1 = .fin b := hB
    rw [e1, e2, if_pos (show (Num.fin a).lt (Num.fin b) from hab), if_neg (by norm_num)]
    obtain ⟨v, hv, h1, h2⟩ := search_some 3 H (cmpC x y z h H 0).1 (cmpC x y z h H 0).2 1 (fun j hj hj' => by omega) rfl 2 2
      (by omega) (by omega) (by omega)
    have : v = 2 := by omega
    rw [← this] at hv ⊢
    show search 3 H _ _ 2 2 = some v
    rw [this] at hv ⊢
    exact hv
  refine ⟨fun k => if k = 0 then 2 else H k, ?_, rfl⟩
  show outer 3 (cmpC x y z h) 2 (initH 3 junk) = _
  unfold outer
  simp only [hv]
  unfold outer
  rw [show search 3 (fun k => if k = 1 then 2 else initH 3 junk k) (cmpC x y z h (fun k => if k = 1 then 2 else initH 3 junk k) 0).1
    (cmpC x y z h (fun k => if k = 1 then 2 else initH 3 junk k) 0).2 3 (0 + 1) = some 2 from hs]
  simp only [outer]
  rfl

/-- Raising the second of the three cells from 0.5 to 1 lowers the horizon of the first. -/
theorem C166_fails : ¬ C166_full := by
  intro hf
  obtain ⟨k1, -, -⟩ := C165_sharp (fun _ => 0)
  obtain ⟨r1, r2, r3, -⟩ := bent_runs
  have n1 : run bentX bentY 0 1 ≠ 0 := by rw [r1]; norm_num
  have q2 : (0 : ℝ) < √2 := Real.sqrt_pos.2 (by norm_num)
  have q2' : √2 ≤ 1.5 := by rw [Real.sqrt_le_left (by norm_num)]; norm_num
  have n2 : run bentX bentY 1 2 ≠ 0 := by rw [r2]; exact q2.ne'
  have n3 : run bentX bentY 0 2 ≠ 0 := by rw [r3]; exact (Real.sqrt_pos.2 (by norm_num)).ne'
  have s1 : S dipZ (run bentX bentY) 0 0 1 = 0.5 := by unfold S dipZ; rw [r1]; norm_num
  have s2 : 1 < S dipZ (run bentX bentY) 0 1 2 := by
    unfold S dipZ
    rw [r2, lt_div_iff₀ q2]
    norm_num at q2' ⊢
    linarith
  obtain ⟨H, h1, h2⟩ := horizonC_third (x := bentX) (y := bentY) (z := dipZ) (h := 0) (fun _ => 0) (slope_fin n1) (slope_fin n2)
    (by rw [s1]; refine lt_trans ?_ s2; norm_num)
  have e : hord bentX bentY dipZ 0 3 (fun _ => 0) = some (some (angle (trueSlope bentX bentY dipZ 0 2))) := by
    unfold hord
    rw [h1]
    simp only [Option.map_some, h2]
    rw [slope_fin n3, degrees_fin, trueSlope_eq]
  have := hf bentX bentY dipZ kneeZ _ 1 3 (fun _ => 0) _ _ (by norm_num) knee_line (by norm_num [dipZ, kneeZ])
    (fun k => by unfold dipZ kneeZ; split <;> [skip; split] <;> norm_num) e k1
  rw [angle_strictMono.le_iff_le, trueSlope_eq, trueSlope_eq] at this
  have t1 : S kneeZ (run bentX bentY) 0 0 1 = 1 := by unfold S kneeZ; rw [r1]; norm_num
  have t3 : 1 < S dipZ (run bentX bentY) 0 0 2 := by
    unfold S dipZ
    rw [r3, lt_div_iff₀ (Real.sqrt_pos.2 (by norm_num))]
    have : √5 ≤ 2.2361 := by rw [Real.sqrt_le_left (by norm_num)]; norm_num
    norm_num at this ⊢
    linarith
  linarith

/-! ### Datum and units -/

/-- The level from which elevations are counted does not matter. -/
theorem C166_datum (x y z : Nat → ℝ) (h c : ℝ) (N : Nat) (junk : Nat → Nat) :
    hord x y (fun k => z k + c) h N junk = hord x y z h N junk := by
  have e : Horizon.slope x y (fun k => z k + c) h = Horizon.slope x y z h := by
    funext i j
    unfold Horizon.slope
    congr 1
    ring
  unfold hord horizonC cmpC
  rw [e]

/-- Multiplying a `double` by a positive number. -/
def times (a : ℝ) : Num → Num
  | .fin r => .fin (a * r)
  | .ninf => .ninf
  | .pinf => .pinf
  | .nan => .nan

theorem times_lt {a : ℝ} (ha : 0 < a) (u v : Num) : (times a u).lt (times a v) ↔ u.lt v := by
  cases u <;> cases v <;> simp [times, Num.lt, ha]

theorem search_times {a : ℝ} (ha : 0 < a) (N : Nat) (H : Nat → Nat) (A B : Nat → Num) (fuel j : Nat) :
    search N H (fun j => times a (A j)) (fun j => times a (B j)) fuel j = search N H A B fuel j := by
  induction fuel generalizing j with
  | zero => rfl
  | succ fuel ih =>
    unfold search
    simp only [ih]
    by_cases h1 : (A j).lt (B j)
    · rw [if_pos h1, if_pos ((times_lt ha _ _).2 h1)]
    · rw [if_neg h1, if_neg (fun h => h1 ((times_lt ha _ _).1 h))]
      by_cases h2 : (B j).lt (A j)
      · rw [if_pos h2, if_pos ((times_lt ha _ _).2 h2)]
      · rw [if_neg h2, if_neg (fun h => h2 ((times_lt ha _ _).1 h))]

theorem outer_times {a : ℝ} (ha : 0 < a) (N : Nat) (c : (Nat → Nat) → Nat → (Nat → Num) × (Nat → Num)) (i : Nat) (H : Nat → Nat) :
    outer N (fun H i => (fun j => times a ((c H i).1 j), fun j => times a ((c H i).2 j))) i H = outer N c i H := by
  induction i generalizing H with
  | zero => rfl
  | succ i ih =>
    unfold outer
    simp only [search_times ha, ih]

theorem slope_times {a : ℝ} (ha : 0 < a) (x y z : Nat → ℝ) (h : ℝ) (i j : Nat) :
    slope x y (fun k => a * z k) (a * h) i j = times a (slope x y z h i j) := by
  unfold Horizon.slope Num.div
  rw [show a * z j - (a * h + a * z i) = a * (z j - (h + z i)) by ring]
  generalize z j - (h + z i) = t
  by_cases hr : run x y i j = 0
  · rw [if_pos hr, if_pos hr]
    rcases lt_trichotomy t 0 with h1 | h1 | h1
    · rw [if_neg (mul_neg_of_pos_of_neg ha h1).ne, if_neg (mul_neg_of_pos_of_neg ha h1).not_gt, if_neg h1.ne, if_neg h1.not_gt]
      rfl
    · rw [h1, mul_zero, if_pos rfl]; rfl
    · rw [if_neg (mul_pos ha h1).ne', if_pos (mul_pos ha h1), if_neg h1.ne', if_pos h1]; rfl
  · rw [if_neg hr, if_neg hr]
    show Num.fin _ = Num.fin _
    rw [mul_div_assoc]

/-- With elevations and instrument height `a` times as large the same point is taken, and the slope is `a` times as large. -/
theorem C166_scale (x y z : Nat → ℝ) (h a : ℝ) (ha : 0 < a) (N : Nat) (junk : Nat → Nat) :
    horizonC x y (fun k => a * z k) (a * h) N junk = horizonC x y z h N junk ∧
      hord x y (fun k => a * z k) (a * h) N junk =
        (horizonC x y z h N junk).map fun H => degrees (times a (slope x y z h 0 (H 0))) := by
  have e : horizonC x y (fun k => a * z k) (a * h) N junk = horizonC x y z h N junk := by
    unfold horizonC
    rw [← outer_times ha N (cmpC x y z h)]
    congr 1
    funext H i
    unfold cmpC
    simp only [slope_times ha]
  refine ⟨e, ?_⟩
  unfold hord
  rw [e]
  simp only [slope_times ha]

/-- Feet instead of metres. -/
example (x y z : Nat → ℝ) (junk : Nat → Nat) :
    horizonC x y (fun k => 3.28084 * z k) (3.28084 * 3) 40 junk = horizonC x y z 3 40 junk :=
  (C166_scale x y z 3 3.28084 (by norm_num) 40 junk).1

end Verif.HorizonBent
