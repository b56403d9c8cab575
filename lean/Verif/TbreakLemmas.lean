import Verif.Tbreak
import Verif.HorizonProps
import Verif.WindowProps

/-!
Slopes along a row, a column or a diagonal of the grid, for any height of the instrument.
-/

namespace Verif.Tbreak

open Verif.Horizon Verif.Window

/-- The cell `k` steps `u` away from `s`. -/
def ray (s u : Int × Int) (k : Int) : Int × Int := (s.1 + k * u.1, s.2 + k * u.2)

/-- A step to one of the eight neighbours. -/
def Step (u : Int × Int) : Prop := |u.1| ≤ 1 ∧ |u.2| ≤ 1 ∧ (u.1 ≠ 0 ∨ u.2 ≠ 0)

/-- The length of a step. -/
noncomputable def stepLen (dx dy : ℝ) (u : Int × Int) : ℝ := Real.sqrt ((u.1 * dx) ^ 2 + (u.2 * dy) ^ 2)

/-- The slope from the instrument at `s` to the ground `k` steps away. -/
noncomputable def raySlope (nx : Int) (dx dy : ℝ) (z : Int → ℝ) (s u : Int × Int) (h : ℝ) (k : Nat) : ℝ :=
  (z ((ray s u k).2 * nx + (ray s u k).1) - z (s.2 * nx + s.1) - h) / (k * stepLen dx dy u)

theorem step_cases {u : Int × Int} (hu : Step u) :
    (u.1 = -1 ∨ u.1 = 0 ∨ u.1 = 1) ∧ (u.2 = -1 ∨ u.2 = 0 ∨ u.2 = 1) ∧ (u.1 ≠ 0 ∨ u.2 ≠ 0) := by
  obtain ⟨a, b, c⟩ := hu
  rw [abs_le] at a b
  omega

theorem span_ray {s u : Int × Int} (hu : Step u) (n : Nat) : Bres.span s (ray s u n) = n := by
  unfold Bres.span ray
  simp only [add_sub_cancel_left, abs_mul, Nat.abs_cast]
  obtain ⟨a, b, c⟩ := step_cases hu
  rcases a with a | a | a <;> rcases b with b | b | b <;> simp [a, b] <;> simp [a, b] at c

theorem ray_cell {s u : Int × Int} (hu : Step u) {n : Nat} (hn : 0 < n) {k : Int} {c : Int × Int}
    (h : Bres.NearLine s (ray s u n) k c) : c = ray s u k := by
  obtain ⟨h1, h2⟩ := h
  rw [span_ray hu] at h1 h2
  have key : ∀ a b w : Int, 2 * |(n : Int) * (a - b) - k * (b + n * w - b)| ≤ n → a = b + k * w := by
    intro a b w h
    rw [show (n : Int) * (a - b) - k * (b + n * w - b) = n * (a - b - k * w) by ring, abs_mul, Nat.abs_cast] at h
    by_contra hne
    have : 1 ≤ |a - b - k * w| := by
      have : 0 < |a - b - k * w| := abs_pos.2 (by omega)
      omega
    have hn' : (0 : Int) < n := by exact_mod_cast hn
    nlinarith
  exact Prod.ext (key _ _ _ h1) (key _ _ _ h2)

theorem stepLen_pos {dx dy : ℝ} (hx : dx ≠ 0) (hy : dy ≠ 0) {u : Int × Int} (hu : Step u) : 0 < stepLen dx dy u := by
  unfold stepLen
  apply Real.sqrt_pos.2
  rcases hu.2.2 with h | h
  · have : ((u.1 : ℝ) * dx) ≠ 0 := mul_ne_zero (by exact_mod_cast h) hx
    have := sq_nonneg ((u.2 : ℝ) * dy)
    positivity
  · have : ((u.2 : ℝ) * dy) ≠ 0 := mul_ne_zero (by exact_mod_cast h) hy
    have := sq_nonneg ((u.1 : ℝ) * dx)
    positivity

/-- A ray that is in the grid at two places is in it between. -/
theorem ray_between {nx ny : Int} {s u : Int × Int} (hu : Step u) {k m : Nat} (hs : Bres.InGrid nx ny s)
    (hk : Bres.InGrid nx ny (ray s u k)) (hm : m ≤ k) : Bres.InGrid nx ny (ray s u m) := by
  obtain ⟨a, b, _⟩ := step_cases hu
  obtain ⟨s1, s2, s3, s4⟩ := hs
  obtain ⟨k1, k2, k3, k4⟩ := hk
  unfold Bres.InGrid ray at *
  simp only at *
  rcases a with a | a | a <;> rcases b with b | b | b <;> rw [a] at k1 k2 ⊢ <;> rw [b] at k3 k4 ⊢ <;> omega

/-- The value of a cell for a search along a row, a column or a diagonal of an even grid: the angle of one of
the cells searched, which no other exceeds in slope by more than the height divided by the step. -/
theorem ray_bound (nx ny : Int) (x y z : Int → ℝ) (x0 y0 dx dy : ℝ) (hx : ∀ i, x i = x0 + i * dx) (hy : ∀ i, y i = y0 + i * dy)
    (hdx : dx ≠ 0) (hdy : dy ≠ 0) (s u : Int × Int) (hu : Step u) (n : Nat) (hn : 0 < n)
    (f : Bres.Fits s.1 s.2 (ray s u n).1 (ray s u n).2) (hs : Bres.InGrid nx ny s) (hnext : Bres.InGrid nx ny (ray s u 1))
    (h : ℝ) (hh : 0 ≤ h) (junk : Bres.LineData) (mem : Bres.Arrays ℝ) (jh : Nat → Nat) :
    ∃ v : Nat, 0 < v ∧ v ≤ n ∧ v < 500 ∧ Bres.InGrid nx ny (ray s u v) ∧
      cellMaxus nx ny x y z s (ray s u n) h junk mem jh = some (correct (some (angle (raySlope nx dx dy z s u h v)))) ∧
      ∀ k : Nat, 0 < k → k ≤ n → k < 500 → Bres.InGrid nx ny (ray s u k) →
        raySlope nx dx dy z s u h k ≤ raySlope nx dx dy z s u h v + h / stepLen dx dy u := by
  set e := ray s u n with he
  obtain ⟨hhead, hnear, _, hlen, hend⟩ := Bres.C62_line_partial nx ny s e f junk
  obtain ⟨q1, q2, q3, q4⟩ := Bres.C85_profile nx ny x y z { mem with n := 0 } rfl s e junk hs
  have hsp : Bres.span s e = n := span_ray hu n
  have hmax : (Bres.findLine nx ny s.1 s.2 e.1 e.2 junk).length ≤ n + 1 := by
    obtain ⟨t, L, ht, hpL, h1, h2, h3, h5⟩ := Bres.findLine_eq nx ny s e f junk
    rw [hpL]
    rw [hsp] at h2
    simp; omega
  set p := Bres.findLine nx ny s.1 s.2 e.1 e.2 junk with hp
  set r := Bres.fill nx ny x y z { mem with n := 0 } 0 p with hr
  have hcell : ∀ (k : Nat) c, p[k]? = some c → c = ray s u k := fun k c hc => ray_cell hu hn (hnear k c hc)
  have hin : ∀ k : Nat, k < 500 → k ≤ n → Bres.InGrid nx ny (ray s u k) → k < r.n := by
    intro k hk hk2 hk3
    have hkp : k < p.length := by
      rcases hend with ⟨_, hl⟩ | hl | ⟨c, hc, hout⟩
      · rw [hsp] at hl; omega
      · omega
      · by_contra hge
        rw [List.getLast?_eq_getElem?] at hc
        have hcc := hcell _ c hc
        apply hout
        rw [hcc]
        obtain ⟨g1, g2, g3, g4⟩ := ray_between hu hs hk3 (m := p.length - 1) (by omega)
        exact ⟨g1, g2.le, g3, g4.le⟩
    by_contra hge
    have hc : p[k]? = some p[k] := List.getElem?_eq_getElem hkp
    have := q4 k p[k] (by omega) hc
    rw [hcell k _ hc] at this
    exact this hk3
  have hrn : 2 ≤ r.n := by
    have := hin 1 (by omega) (by omega) (by exact_mod_cast hnext)
    omega
  have hval : ∀ k : Nat, k < r.n → Bres.InGrid nx ny (ray s u k) ∧ r.x k = x (ray s u k).1 ∧ r.y k = y (ray s u k).2 ∧
      r.z k = z ((ray s u k).2 * nx + (ray s u k).1) := by
    intro k hk
    obtain ⟨c, hc, hg, _, _, c1, c2, c3⟩ := q3 k hk
    rw [hcell k c hc] at c1 c2 c3 hg
    exact ⟨hg, c1, c2, c3⟩
  have hrun : ∀ i j : Nat, i < j → j < r.n → run r.x r.y i j = ((j : ℝ) - i) * stepLen dx dy u := by
    intro i j hij hj
    unfold run stepLen
    obtain ⟨_, a1, a2, _⟩ := hval i (by omega)
    obtain ⟨_, b1, b2, _⟩ := hval j hj
    rw [a1, a2, b1, b2, hx, hx, hy, hy]
    have hp : (0 : ℝ) ≤ (j : ℝ) - i := by
      have : (i : ℝ) ≤ j := by exact_mod_cast hij.le
      linarith
    unfold ray
    push_cast
    rw [← Real.sqrt_sq hp, ← Real.sqrt_mul (sq_nonneg _)]
    congr 1
    ring
  have hδ := stepLen_pos hdx hdy hu
  have st : Straight (run r.x r.y) (stepLen dx dy u) r.n := by
    refine ⟨hδ, ?_, ?_⟩
    · intro i j k h1 h2 h3
      rw [hrun i k (by omega) h3, hrun i j h1 (by omega), hrun j k h2 h3]; ring
    · intro i j hij hj
      rw [hrun i j hij hj]
      have : (1 : ℝ) ≤ (j : ℝ) - i := by
        have : (i : ℝ) + 1 ≤ j := by exact_mod_cast hij
        linarith
      nlinarith
  obtain ⟨v, v1, v2, v3, v4⟩ := C64_bound_partial r.x r.y r.z h (stepLen dx dy u) r.n jh hrn hh st
  have hslope : ∀ k : Nat, 0 < k → k < r.n → trueSlope r.x r.y r.z h k = raySlope nx dx dy z s u h k := by
    intro k hk hk'
    rw [trueSlope_eq]
    unfold S raySlope
    rw [hrun 0 k hk hk', (hval k hk').2.2.2, (hval 0 (by omega)).2.2.2]
    simp [ray]
  refine ⟨v, v1, by omega, by omega, (hval v v2).1, ?_, ?_⟩
  · unfold cellMaxus
    show (hord r.x r.y r.z h r.n jh).map correct = _
    rw [v3, hslope v v1 v2]
    rfl
  · intro k hk hk2 hk3 hk4
    have := hin k hk3 hk2 hk4
    rw [← hslope k hk this, ← hslope v v1 v2]
    exact v4 k hk this

/-- The arc tangent grows no faster than its argument. -/
theorem arctan_lip {a b c : ℝ} (h : a ≤ b + c) (hc : 0 ≤ c) : Real.arctan a ≤ Real.arctan b + c := by
  rcases le_total a b with h1 | h1
  · have := Real.arctan_strictMono.monotone h1; linarith
  · have hd : ∀ x y : ℝ, x ≤ y → Real.arctan y - Real.arctan x ≤ 1 * (y - x) := by
      intro x y hxy
      refine Convex.image_sub_le_mul_sub_of_deriv_le (convex_univ) Real.continuous_arctan.continuousOn
        Real.differentiable_arctan.differentiableOn ?_ x (by trivial) y (by trivial) hxy
      intro w _
      rw [Real.deriv_arctan]
      have : 0 < 1 + w ^ 2 := by positivity
      rw [div_le_one this]
      nlinarith [sq_nonneg w]
    have := hd b a h1
    linarith

end Verif.Tbreak
