import Verif.HorizonFloatLemmas
import Verif.CoordFloatProps
import Verif.DiskFloatProps
import Verif.RestartFloatProps
import Mathlib.Analysis.Calculus.MeanValue
import Mathlib.Analysis.SpecialFunctions.Trigonometric.ArctanDeriv

/-!
Properties of the horizon search with rounding (C164). The specification is `Horizon.trueSlope` and `Horizon.angle`.
-/

namespace Verif.HorizonFloat

open Horizon (Num S Straight Forward trueSlope trueSlope_eq angle)
open LuFloat (Error)

/-- Claimed: on a straight profile, seen from the ground, the point that the search chooses is the highest. -/
def C164_full : Prop :=
  ∀ (x y z : Nat → ℝ) (δ : ℝ) (N : Nat) (junk : Nat → Nat), 2 ≤ N → Straight (Horizon.run x y) δ N →
    ∃ H, horizon (IdwFloat.binary 53) x y z 0 N junk = some H ∧
      ∀ k, 0 < k → k < N → trueSlope x y z 0 k ≤ trueSlope x y z 0 (H 0)

/-- Without rounding this is the search of `Horizon`. -/
theorem C164_exact (x y z : Nat → ℝ) (h : ℝ) (N : Nat) (junk : Nat → Nat) :
    hord id x y z h N junk = Horizon.hord x y z h N junk := rfl

/-- On a straight profile the search ends, and it reports the slope to one of the points, up to an error `ε` of about 12
roundings of the largest slope there can be. No point is seen above what it reports by more than the part
`h / δ` of the instrument height and `4 N` such errors. So the errors do not build up faster than the length
of the line, whatever the terrain. -/
theorem C164_bound_partial {u : ℝ} {rnd : ℝ → ℝ} (er : Error u rnd) (hu : u ≤ 1 / 100) (x y z : Nat → ℝ) (h δ Z : ℝ) (N : Nat)
    (junk : Nat → Nat) (hN : 2 ≤ N) (hh : 0 ≤ h) (st : Straight (Horizon.run x y) δ N) (hz : ∀ k, k < N → |z k| ≤ Z) :
    ∃ v s, 0 < v ∧ v < N ∧ hord rnd x y z h N junk = some (some (angle s)) ∧
      |s - trueSlope x y z h v| ≤ 12 * u * ((2 * Z + h) / δ) ∧
      ∀ k, 0 < k → k < N → trueSlope x y z h k ≤ s + h / δ + 4 * N * (12 * u * ((2 * Z + h) / δ)) := by
  have hZ : 0 ≤ Z := (abs_nonneg _).trans (hz 0 (by omega))
  have h0 := er.nonneg
  have hε : 0 ≤ 12 * u * ((2 * Z + h) / δ) := mul_nonneg (by linarith) (div_nonneg (by linarith) st.pos.le)
  have kn : Known (Horizon.run x y) z h (12 * u * ((2 * Z + h) / δ)) N (slope rnd x y z h) :=
    ⟨fun i j hij hj => slope_known er hu hh (hz i (by omega)) (hz j hj) st.pos (st.min i j hij hj)⟩
  obtain ⟨H, h1, h2, hU⟩ := outer_under hN st hh hε kn junk
  obtain ⟨v1, v2⟩ := h2.1 0 (by omega) (by omega)
  obtain ⟨s, hs, es⟩ := kn.known 0 (H 0) v1 v2
  refine ⟨H 0, s, v1, v2, ?_, ?_, ?_⟩
  · unfold hord horizon
    have : cmp rnd x y z h = fun H i => (fun j => slope rnd x y z h i j, fun j => slope rnd x y z h j (H j)) := rfl
    rw [this, h1, Option.map_some, hs, Horizon.degrees_fin]
  · rw [trueSlope_eq]; exact es
  · intro k hk hk'
    have rk : 0 < Horizon.run x y 0 k := lt_of_lt_of_le st.pos (st.min 0 k hk hk')
    have := hU k hk hk'
    rw [trueSlope_eq]
    have h3 : S z (Horizon.run x y) h 0 k ≤
        S z (Horizon.run x y) h 0 (H 0) + (h / δ + 2 * (12 * u * ((2 * Z + h) / δ)) * (2 * ((N : ℝ) - 1))) := by
      unfold S at *
      rw [div_le_iff₀ rk]; exact this
    rw [_root_.abs_le] at es
    generalize 12 * u * ((2 * Z + h) / δ) = ε at *
    linarith [es.1, es.2]

theorem arctan_sub_le {a b : ℝ} (h : a ≤ b) : Real.arctan b - Real.arctan a ≤ b - a := by
  have := image_sub_le_mul_sub_of_deriv_le (f := Real.arctan) (C := 1) Real.differentiable_arctan
    (fun x => by
      rw [Real.deriv_arctan, div_le_one (by positivity)]
      nlinarith [sq_nonneg x]) h
  linarith

theorem angle_sub_le {a b : ℝ} {e : ℝ} (he : 0 ≤ e) (h : b ≤ a + e) : angle b ≤ angle a + 58 * e := by
  unfold angle
  have h1 : Real.arctan b ≤ Real.arctan a + e := by
    have h2 := Real.arctan_strictMono.monotone h
    have h3 := arctan_sub_le (show a ≤ a + e by linarith)
    linarith
  have h4 : Real.arctan b / 3.141592654 ≤ (Real.arctan a + e) / 3.141592654 :=
    div_le_div_of_nonneg_right h1 (by norm_num)
  have h5 : (Real.arctan a + e) / 3.141592654 * 180 = Real.arctan a / 3.141592654 * 180 + e * (180 / 3.141592654) := by ring
  have h6 : e * (180 / 3.141592654) ≤ e * 58 := mul_le_mul_of_nonneg_left (by norm_num) he
  linarith

/-- With doubles, cells of 10 m or more, elevations within 9000 m and at most 1000 points on a straight line, the angle that
the search reports from the ground is within a millionth of a degree of the largest. -/
theorem C164_double_partial (x y z : Nat → ℝ) (δ : ℝ) (N : Nat) (junk : Nat → Nat) (hN : 2 ≤ N) (hN' : N ≤ 1000)
    (hδ : 10 ≤ δ) (st : Straight (Horizon.run x y) δ N) (hz : ∀ k, k < N → |z k| ≤ 9000) :
    ∃ a, hord (IdwFloat.binary 53) x y z 0 N junk = some (some a) ∧
      (∃ v, 0 < v ∧ v < N ∧ |a - angle (trueSlope x y z 0 v)| ≤ 1 / 10 ^ 6) ∧
      ∀ k, 0 < k → k < N → angle (trueSlope x y z 0 k) ≤ a + 1 / 10 ^ 6 := by
  obtain ⟨v, s, v1, v2, h1, h2, h3⟩ := C164_bound_partial LuFloat.error_double (by norm_num) x y z 0 δ 9000 N junk hN
    le_rfl st hz
  have hW : 12 * (1 / 2 : ℝ) ^ 53 * ((2 * 9000 + 0) / δ) ≤ 12 * (1 / 2 : ℝ) ^ 53 * 1800 := by
    refine mul_le_mul_of_nonneg_left ?_ (by positivity)
    rw [div_le_iff₀ st.pos]; linarith
  have hNr : (N : ℝ) ≤ 1000 := by exact_mod_cast hN'
  have hW0 : 0 ≤ 12 * (1 / 2 : ℝ) ^ 53 * ((2 * 9000 + 0) / δ) :=
    mul_nonneg (by positivity) (div_nonneg (by norm_num) st.pos.le)
  have hNW : 4 * (N : ℝ) * (12 * (1 / 2 : ℝ) ^ 53 * ((2 * 9000 + 0) / δ)) ≤ 4 * 1000 * (12 * (1 / 2 : ℝ) ^ 53 * 1800) :=
    mul_le_mul (by linarith) hW hW0 (by norm_num)
  have small : 4 * 1000 * (12 * (1 / 2 : ℝ) ^ 53 * 1800) ≤ 1 / 10 ^ 8 := by norm_num
  have small' : 12 * (1 / 2 : ℝ) ^ 53 * 1800 ≤ 1 / 10 ^ 8 := by norm_num
  refine ⟨angle s, h1, ⟨v, v1, v2, ?_⟩, fun k hk hk' => ?_⟩
  · rw [_root_.abs_le] at h2 ⊢
    have a1 := angle_sub_le (a := s) (b := trueSlope x y z 0 v) (e := 1 / 10 ^ 8) (by norm_num) (by linarith)
    have a2 := angle_sub_le (a := trueSlope x y z 0 v) (b := s) (e := 1 / 10 ^ 8) (by norm_num) (by linarith)
    constructor <;> linarith
  · have := h3 k hk hk'
    have a1 := angle_sub_le (a := s) (b := trueSlope x y z 0 k) (e := 1 / 10 ^ 8) (by norm_num)
      (by rw [zero_div] at this; linarith)
    linarith

/-- Cells of 30 m along a diagonal, with a ridge. -/
example (junk : Nat → Nat) : ∃ a, hord (IdwFloat.binary 53) (fun i => 0 + i * 30) (fun i => 0 + i * 30)
    (fun i => if i = 7 then 2500 else 2000) 0 300 junk = some (some a) ∧
    angle (trueSlope (fun i => 0 + i * 30) (fun i => 0 + i * 30) (fun i => if i = 7 then 2500 else 2000) 0 7) ≤
      a + 1 / 10 ^ 6 := by
  have st := Horizon.straight_even 0 0 30 30 (Real.sqrt_pos.2 (by norm_num)) 300
  obtain ⟨a, h1, -, h2⟩ := C164_double_partial (fun i => 0 + i * 30) (fun i => 0 + i * 30)
    (fun i => if i = 7 then 2500 else 2000) _ 300 junk (by norm_num) (by norm_num)
    (by
      refine Real.le_sqrt_of_sq_le ?_
      norm_num) st
    (fun k _ => by beta_reduce; split <;> norm_num [abs_of_pos])
  exact ⟨a, h1, h2 7 (by norm_num) (by norm_num)⟩

/-! ### Rounding can change the point -/

local notation "rd" => IdwFloat.binary 53

theorem rd_int (n : ℤ) (hn : |n| ≤ 2 ^ 53) : rd (n : ℝ) = n := by
  have := CoordFloat.binary_exact 52 n 0 hn
  simpa using this

/-- A row of cells one apart. -/
def rowX : Nat → ℝ := fun i => i
def rowY : Nat → ℝ := fun _ => 0

theorem run_row (i j : Nat) (hij : i < j) (hj : j < 100) : run rd rowX rowY i j = ((j - i : ℕ) : ℝ) := by
  obtain ⟨n, rfl⟩ : ∃ n, j = i + n := ⟨j - i, by omega⟩
  have hn : n < 100 := by omega
  have e1 : rowX (i + n) - rowX i = ((n : ℤ) : ℝ) := by unfold rowX; push_cast; ring
  have e2 : rowY (i + n) - rowY i = ((0 : ℤ) : ℝ) := by unfold rowY; norm_num
  have hb : |(n : ℤ)| ≤ 2 ^ 53 := by rw [abs_of_nonneg (by omega)]; omega
  have hb2 : |((n * n : ℕ) : ℤ)| ≤ 2 ^ 53 := by
    rw [abs_of_nonneg (by omega)]
    have : n * n ≤ 100 * 100 := Nat.mul_le_mul hn.le hn.le
    omega
  unfold run
  rw [e1, e2, rd_int _ hb, rd_int _ (by norm_num)]
  have e3 : ((n : ℤ) : ℝ) * ((n : ℤ) : ℝ) = (((n * n : ℕ) : ℤ) : ℝ) := by push_cast; ring
  have e4 : ((0 : ℤ) : ℝ) * ((0 : ℤ) : ℝ) = ((0 : ℤ) : ℝ) := by norm_num
  rw [e3, e4, rd_int _ hb2, rd_int _ (by norm_num)]
  rw [show (((n * n : ℕ) : ℤ) : ℝ) + ((0 : ℤ) : ℝ) = (((n * n : ℕ) : ℤ) : ℝ) by norm_num, rd_int _ hb2]
  rw [show (((n * n : ℕ) : ℤ) : ℝ) = (n : ℝ) ^ 2 by push_cast; ring, Real.sqrt_sq (Nat.cast_nonneg n),
    show (n : ℝ) = ((n : ℤ) : ℝ) by push_cast; rfl, rd_int _ hb]
  congr 1
  omega

theorem slope_row {z : Nat → ℝ} (i j : Nat) (hij : i < j) (hj : j < 100) (hz : rd (z i) = z i) :
    slope rd rowX rowY z 0 i j = .fin (rd (rd (z j - z i) / ((j - i : ℕ) : ℝ))) := by
  have hp : ((j - i : ℕ) : ℝ) ≠ 0 := by
    have : (j - i : ℕ) ≠ 0 := by omega
    exact_mod_cast this
  unfold slope div rise
  rw [run_row i j hij hj, if_neg hp, zero_add, hz]

/-- Six cells: the third and the last are seen under nearly the same angle, the rest is low. -/
noncomputable def twinZ : Nat → ℝ := fun i =>
  if i = 0 then -2 + 1 / 2 ^ 51 else if i = 2 then -(1 / 2 ^ 53) else if i = 5 then 3 - 1 / 2 ^ 50 else -8

theorem twin_exact (i : Nat) : rd (twinZ i) = twinZ i := by
  unfold twinZ
  split
  · have := CoordFloat.binary_exact 52 (-(2 ^ 52 - 1)) (-51) (by norm_num)
    rw [show (-2 + 1 / 2 ^ 51 : ℝ) = ((-(2 ^ 52 - 1) : ℤ) : ℝ) * (2 : ℝ) ^ (-51 : ℤ) by norm_num]
    exact this
  · split
    · have := CoordFloat.binary_exact 52 (-1) (-53) (by norm_num)
      rw [show (-(1 / 2 ^ 53) : ℝ) = ((-1 : ℤ) : ℝ) * (2 : ℝ) ^ (-53 : ℤ) by norm_num]
      exact this
    · split
      · have := CoordFloat.binary_exact 52 (3 * 2 ^ 50 - 1) (-50) (by norm_num)
        rw [show (3 - 1 / 2 ^ 50 : ℝ) = ((3 * 2 ^ 50 - 1 : ℤ) : ℝ) * (2 : ℝ) ^ (-50 : ℤ) by norm_num]
        exact this
      · have := rd_int (-8) (by norm_num)
        norm_num at this ⊢
        exact this

/-- The slope to the third cell is rounded up. -/
theorem twin_02 : slope rd rowX rowY twinZ 0 0 2 = .fin (1 - 1 / 2 ^ 52) := by
  rw [slope_row 0 2 (by norm_num) (by norm_num) (twin_exact 0)]
  congr 1
  have e : rd (twinZ 2 - twinZ 0) = 2 - 1 / 2 ^ 51 := by
    rw [show twinZ 2 - twinZ 0 = 2 - 5 / 2 ^ 53 by norm_num [twinZ],
      RestartFloat.binary_eval 53 (by norm_num) 0 (by norm_num) (by norm_num) (2 ^ 53 - 2) (by norm_num) (by norm_num)]
    norm_num
  rw [e, show (2 - 1 / 2 ^ 51) / ((2 - 0 : ℕ) : ℝ) = ((2 ^ 52 - 1 : ℤ) : ℝ) * (2 : ℝ) ^ (-52 : ℤ) by norm_num,
    CoordFloat.binary_exact 52 (2 ^ 52 - 1) (-52) (by norm_num)]
  norm_num

/-- The slope from the third cell to the last is rounded down. -/
theorem twin_25 : slope rd rowX rowY twinZ 0 2 5 = .fin (1 - 3 / 2 ^ 53) := by
  rw [slope_row 2 5 (by norm_num) (by norm_num) (twin_exact 2)]
  congr 1
  have e : rd (twinZ 5 - twinZ 2) = 3 - 1 / 2 ^ 50 := by
    rw [show twinZ 5 - twinZ 2 = 3 - 7 / 2 ^ 53 by norm_num [twinZ],
      RestartFloat.binary_eval 53 (by norm_num) 1 (by norm_num) (by norm_num) (3 * 2 ^ 51 - 2) (by norm_num) (by norm_num)]
    norm_num
  rw [e, RestartFloat.binary_eval 53 (by norm_num) (-1) (by norm_num) (by norm_num) (2 ^ 53 - 3) (by norm_num) (by norm_num)]
  norm_num

theorem rd_ge {a : ℝ} (n : ℤ) (hn : |n| ≤ 2 ^ 53) (h : (n : ℝ) ≤ a) : (n : ℝ) ≤ rd a := by
  have := DiskFloat.binary_mono 52 h
  rwa [rd_int n hn] at this

theorem rd_le {a : ℝ} (n : ℤ) (hn : |n| ≤ 2 ^ 53) (h : a ≤ (n : ℝ)) : rd a ≤ (n : ℝ) := by
  have := DiskFloat.binary_mono 52 h
  rwa [rd_int n hn] at this

/-- A slope that is clearly up. -/
theorem slope_up {z : Nat → ℝ} (i j : Nat) (hij : i < j) (hj : j < 6) (hz : rd (z i) = z i) (h : 7 ≤ z j - z i) :
    ∃ s, slope rd rowX rowY z 0 i j = .fin s ∧ 1 ≤ s := by
  refine ⟨_, slope_row i j hij (by omega) hz, ?_⟩
  have h1 := rd_ge 7 (by norm_num) (show ((7 : ℤ) : ℝ) ≤ z j - z i by push_cast; exact h)
  have h2 : ((1 : ℤ) : ℝ) ≤ rd (z j - z i) / ((j - i : ℕ) : ℝ) := by
    have : ((j - i : ℕ) : ℝ) ≤ 7 := by exact_mod_cast (by omega : j - i ≤ 7)
    have : (0 : ℝ) < ((j - i : ℕ) : ℝ) := by exact_mod_cast (by omega : 0 < j - i)
    rw [le_div_iff₀ this]
    push_cast at h1 ⊢
    linarith
  have := rd_ge 1 (by norm_num) h2
  simpa using this

/-- A slope that is not up. -/
theorem slope_down {z : Nat → ℝ} (i j : Nat) (hij : i < j) (hj : j < 6) (hz : rd (z i) = z i) (h : z j - z i ≤ 0) :
    ∃ s, slope rd rowX rowY z 0 i j = .fin s ∧ s ≤ 0 := by
  refine ⟨_, slope_row i j hij (by omega) hz, ?_⟩
  have h1 := rd_le 0 (by norm_num) (show z j - z i ≤ ((0 : ℤ) : ℝ) by push_cast; exact h)
  have h2 : rd (z j - z i) / ((j - i : ℕ) : ℝ) ≤ ((0 : ℤ) : ℝ) := by
    push_cast at h1 ⊢
    exact div_nonpos_of_nonpos_of_nonneg h1 (Nat.cast_nonneg _)
  have := rd_le 0 (by norm_num) h2
  simpa using this

theorem down_up {z : Nat → ℝ} {i j k l : Nat} (h1 : ∃ s, slope rd rowX rowY z 0 i j = .fin s ∧ s ≤ 0)
    (h2 : ∃ s, slope rd rowX rowY z 0 k l = .fin s ∧ 1 ≤ s) :
    (slope rd rowX rowY z 0 i j).lt (slope rd rowX rowY z 0 k l) := by
  obtain ⟨s, e, h⟩ := h1
  obtain ⟨s', e', h'⟩ := h2
  rw [e, e']
  show s < s'
  linarith

theorem search_last {N : Nat} {H : Nat → Nat} {A B : Nat → Num} (n : Nat) (h : H (N - 1) = N - 1) :
    Horizon.search N H A B (n + 1) (N - 1) = some (N - 1) := by
  unfold Horizon.search
  simp only [if_true, h]
  split
  · rfl
  · split <;> rfl

theorem search_on {N : Nat} {H : Nat → Nat} {A B : Nat → Num} (n j : Nat) (hj : j ≠ N - 1) (h : (A j).lt (B j)) :
    Horizon.search N H A B (n + 1) j = Horizon.search N H A B n (H j) := by
  conv_lhs => unfold Horizon.search
  rw [if_pos h, if_neg hj]

theorem search_here {N : Nat} {H : Nat → Nat} {A B : Nat → Num} (n j : Nat) (h : ¬ (A j).lt (B j)) (h' : (B j).lt (A j)) :
    Horizon.search N H A B (n + 1) j = some j := by
  unfold Horizon.search
  rw [if_neg h, if_pos h']

theorem outer_step {N : Nat} {c : (Nat → Nat) → Nat → (Nat → Num) × (Nat → Num)} (i : Nat) (H : Nat → Nat) (v : Nat)
    (h : Horizon.search N H (c H i).1 (c H i).2 N (i + 1) = some v) :
    Horizon.outer N c (i + 1) H = Horizon.outer N c i (fun k => if k = i then v else H k) := by
  conv_lhs => unfold Horizon.outer
  rw [h]

/-- The search stops at the third cell. -/
theorem twin_horizon (junk : Nat → Nat) : ∃ H, horizon rd rowX rowY twinZ 0 6 junk = some H ∧ H 0 = 2 := by
  have up45 := slope_up (z := twinZ) 4 5 (by norm_num) (by norm_num) (twin_exact _) (by norm_num [twinZ])
  have up35 := slope_up (z := twinZ) 3 5 (by norm_num) (by norm_num) (twin_exact _) (by norm_num [twinZ])
  have up12 := slope_up (z := twinZ) 1 2 (by norm_num) (by norm_num) (twin_exact _) (by norm_num [twinZ])
  have dn34 := slope_down (z := twinZ) 3 4 (by norm_num) (by norm_num) (twin_exact _) (by norm_num [twinZ])
  have dn23 := slope_down (z := twinZ) 2 3 (by norm_num) (by norm_num) (twin_exact _) (by norm_num [twinZ])
  have dn01 := slope_down (z := twinZ) 0 1 (by norm_num) (by norm_num) (twin_exact _) (by norm_num [twinZ])
  have g12 : ¬ (slope rd rowX rowY twinZ 0 1 2).lt (slope rd rowX rowY twinZ 0 2 5) ∧
      (slope rd rowX rowY twinZ 0 2 5).lt (slope rd rowX rowY twinZ 0 1 2) := by
    obtain ⟨s, e, h⟩ := up12
    rw [twin_25, e]
    constructor
    · show ¬ s < _
      rw [not_lt]
      refine le_trans ?_ h
      norm_num
    · show _ < s
      refine lt_of_lt_of_le ?_ h
      norm_num
  have g02 : ¬ (slope rd rowX rowY twinZ 0 0 2).lt (slope rd rowX rowY twinZ 0 2 5) ∧
      (slope rd rowX rowY twinZ 0 2 5).lt (slope rd rowX rowY twinZ 0 0 2) := by
    rw [twin_25, twin_02]
    constructor
    · show ¬ (1 - 1 / 2 ^ 52 : ℝ) < 1 - 3 / 2 ^ 53
      norm_num
    · show (1 - 3 / 2 ^ 53 : ℝ) < 1 - 1 / 2 ^ 52
      norm_num
  unfold horizon
  rw [outer_step 4 _ 5 (search_last 5 (by simp [Horizon.initH]))]
  rw [outer_step 3 _ 5 (by
    rw [search_on 5 4 (by norm_num) (by exact down_up dn34 up45)]
    exact search_last 4 (by simp [Horizon.initH]))]
  rw [outer_step 2 _ 5 (by
    rw [search_on 5 3 (by norm_num) (by exact down_up dn23 up35)]
    exact search_last 4 (by simp [Horizon.initH]))]
  rw [outer_step 1 _ 2 (search_here 5 2 (by exact g12.1) (by exact g12.2))]
  rw [outer_step 0 _ 2 (by
    rw [search_on 5 1 (by norm_num) (by exact down_up dn01 up12)]
    exact search_here 4 2 (by exact g02.1) (by exact g02.2))]
  exact ⟨_, rfl, by simp⟩

theorem twin_straight : Straight (Horizon.run rowX rowY) 1 6 := by
  have := Horizon.straight_even 0 0 1 0 (by norm_num) 6
  have e1 : (fun i : Nat => (0 : ℝ) + i * 1) = rowX := by funext i; simp [rowX]
  have e2 : (fun i : Nat => (0 : ℝ) + i * 0) = rowY := by funext i; simp [rowY]
  rw [e1, e2] at this
  simpa using this

theorem twin_true (k : Nat) (hk : 0 < k) : trueSlope rowX rowY twinZ 0 k = (twinZ k - twinZ 0) / k := by
  unfold trueSlope
  congr 1
  · ring
  · unfold rowX rowY
    simp

/-- Six cells of a row, seen from the ground: the search takes the third cell though the last one is seen higher, and the
slope that it reports is larger than the slope to any cell. (Ties are rounded up here; rounding them to
even, as a processor does, gives the same.) -/
theorem C164_fails (junk : Nat → Nat) : ¬ C164_full ∧
    hord rd rowX rowY twinZ 0 6 junk = some (some (angle (1 - 1 / 2 ^ 52))) ∧
    ∀ k, 0 < k → k < 6 → trueSlope rowX rowY twinZ 0 k < 1 - 1 / 2 ^ 52 := by
  refine ⟨fun hf => ?_, ?_, ?_⟩
  · obtain ⟨H, h1, h2⟩ := hf rowX rowY twinZ 1 6 junk (by norm_num) twin_straight
    obtain ⟨H', h3, h4⟩ := twin_horizon junk
    rw [h3] at h1
    rw [← Option.some.inj h1, h4] at h2
    have := h2 5 (by norm_num) (by norm_num)
    rw [twin_true 5 (by norm_num), twin_true 2 (by norm_num)] at this
    norm_num [twinZ] at this
  · obtain ⟨H', h3, h4⟩ := twin_horizon junk
    unfold hord
    rw [h3, Option.map_some, h4, twin_02, Horizon.degrees_fin]
  · intro k hk hk'
    rw [twin_true k hk]
    interval_cases k <;> norm_num [twinZ]

end Verif.HorizonFloat
