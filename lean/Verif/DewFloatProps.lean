import Verif.DewFloat
import Verif.DiskFloatProps
import Verif.DewpointBrentProps

/-!
C159: what the `float` in the dew-point loop costs: never more than 2^-15 degrees, the order of the cells is kept, the dew point stays
below the air temperature and goes into the files unchanged; but the share of snow can jump.
-/

namespace Verif.DewFloat
open Verif.Vapor

/-- The temperatures at which the rows of the table of the first snow density model meet. -/
noncomputable def edges : List ℝ := [-5, -3, -3 / 2, -1 / 2, 0, 1 / 2]

/-- Claimed: keeping the dew point in a `float` changes the share of snow only a little. -/
def C159_full : Prop := ∀ x : ℝ, 0 < x → x ≤ 390 →
  |(Nasde.classify (some (toCelsius x))).1 - (Nasde.classify (some (x - freeze))).1| ≤ 1 / 1000

/-! ### Auxiliary -/

private theorem near24 (x : ℝ) : |single x - x| ≤ (1 / 2) ^ 24 * |x| := IdwFloat.C144_nearest 23 x
private theorem near53 (x : ℝ) : |IdwFloat.binary 53 x - x| ≤ (1 / 2) ^ 53 * |x| := IdwFloat.C144_nearest 52 x

private theorem single_eval {x : ℝ} {z : ℤ} (k : ℤ) (hz : |z| ≤ 2 ^ 24) (h : x = z * (2 : ℝ) ^ k) : single x = x := by
  rw [h]; exact CoordFloat.binary_exact 23 z k hz

/-- A number that has been rounded to a `float` has 24 binary digits. -/
theorem single_short (x : ℝ) : DiskFloat.Short (single x) := by
  unfold single IdwFloat.binary
  refine ⟨_, _, ?_, rfl⟩
  by_cases hx : x = 0
  · subst hx; simp
  have hpos : 0 < |x| := abs_pos.2 hx
  have h2 : |x| < (2 : ℝ) ^ (Int.log 2 |x| + 1) := by exact_mod_cast Int.lt_zpow_succ_log_self (b := 2) (by norm_num) |x|
  set l := Int.log 2 |x|
  set a := x * (2 : ℝ) ^ (((24 : ℕ) : ℤ) - 1 - l) with ha
  have h3 : |a| < 2 ^ 24 := by
    rw [ha, abs_mul, abs_of_pos (by positivity : (0 : ℝ) < 2 ^ (((24 : ℕ) : ℤ) - 1 - l))]
    refine (mul_lt_mul_of_pos_right h2 (by positivity)).trans_le (le_of_eq ?_)
    rw [← zpow_add₀ (by norm_num), show l + 1 + (((24 : ℕ) : ℤ) - 1 - l) = ((24 : ℕ) : ℤ) by ring, zpow_natCast]
  have h4 := abs_sub_round a
  have h5 : |(round a : ℝ)| < 2 ^ 24 + 1 := by
    rw [_root_.abs_lt] at h3 ⊢
    rw [_root_.abs_le] at h4
    constructor <;> linarith
  have h6 : |round a| < 2 ^ 24 + 1 := by exact_mod_cast h5
  omega

private theorem freeze53 : |IdwFloat.binary 53 freeze - freeze| ≤ (1 / 2) ^ 44 := by
  refine (near53 freeze).trans ?_
  unfold freeze
  rw [abs_of_pos (by norm_num)]
  norm_num

/-! ### What the conversion costs -/

/-- Up to 390 K the converted dew point is within 2^-15 degrees of the solver's. -/
theorem C159_error (x : ℝ) (h0 : 0 ≤ x) (h1 : x ≤ 390) : |toCelsius x - (x - freeze)| ≤ (1 / 2) ^ 15 := by
  unfold toCelsius
  have a := near24 x
  rw [abs_of_nonneg h0] at a
  have f := freeze53
  have hf : freeze = 27316 / 100 := rfl
  set F := IdwFloat.binary 53 freeze
  set s := single x
  have b := near53 (s - F)
  set d := IdwFloat.binary 53 (s - F)
  have c := near24 d
  set r := single d
  rw [hf] at f ⊢
  rw [_root_.abs_le] at a f
  have hd : |s - F| ≤ |x - 27316 / 100| + (1 / 2) ^ 24 * x + (1 / 2) ^ 44 := by
    have e : s - F = (x - 27316 / 100) + ((s - x) - (F - 27316 / 100)) := by ring
    rw [e]
    refine (abs_add_le _ _).trans ?_
    have : |(s - x) - (F - 27316 / 100)| ≤ (1 / 2) ^ 24 * x + (1 / 2) ^ 44 := by
      rw [_root_.abs_le]; constructor <;> linarith [a.1, a.2, f.1, f.2]
    linarith
  have hm : |x - 27316 / 100| + x ≤ 50685 / 100 := by
    rcases abs_cases (x - 27316 / 100) with ⟨e, -⟩ | ⟨e, -⟩ <;> rw [e] <;> linarith
  have hs : |s - F| ≤ 510 := hd.trans (by nlinarith [abs_nonneg (x - 27316 / 100)])
  have hb : |d - (s - F)| ≤ (1 / 2) ^ 53 * 510 := b.trans (by gcongr)
  have hd2 : |d| ≤ |x - 27316 / 100| + (1 / 2) ^ 24 * x + (1 / 2) ^ 44 + (1 / 2) ^ 53 * 510 := by
    have e : d = (s - F) + (d - (s - F)) := by ring
    rw [e]
    refine (abs_add_le _ _).trans ?_
    linarith
  have hc : |r - d| ≤ (1 / 2) ^ 24 * (|x - 27316 / 100| + (1 / 2) ^ 24 * x + (1 / 2) ^ 44 + (1 / 2) ^ 53 * 510) := c.trans (by gcongr)
  rw [_root_.abs_le] at hb hc
  rw [_root_.abs_le]
  constructor <;> nlinarith [hb.1, hb.2, hc.1, hc.2, a.1, a.2, f.1, f.2, hm, h0, h1]

/-- A warmer dew point is never converted to a colder one. -/
theorem C159_monotone {x y : ℝ} (h : x ≤ y) : toCelsius x ≤ toCelsius y :=
  DiskFloat.binary_mono 23 (DiskFloat.binary_mono 52 (sub_le_sub_right (DiskFloat.binary_mono 23 h) _))

/-- A dew point that was not replaced goes into a file of either precision as it is. -/
theorem C159_file (p : RestartFloat.Precision) (x ta : ℝ) (h : toCelsius x < ta) :
    p.cast (below ta (toCelsius x)) = toCelsius x := by
  unfold below
  rw [if_neg (not_le.2 h)]
  exact DiskFloat.cast_short p (single_short _)

/-- The dew point of a cell is below its air temperature, also in floating point. -/
theorem C159_below (ta d : ℝ) (h : |ta| ≤ 1000) : below ta d < ta := by
  unfold below
  split_ifs with hd
  · have a := near53 (2 / 10)
    have b := near53 (ta - IdwFloat.binary 53 (2 / 10))
    set c := IdwFloat.binary 53 (2 / 10)
    rw [abs_of_pos (by norm_num : (0 : ℝ) < 2 / 10), _root_.abs_le] at a
    rw [_root_.abs_le] at h
    have e : |ta - c| ≤ 1001 := by rw [_root_.abs_le]; constructor <;> nlinarith [a.1, a.2]
    have b' := b.trans (mul_le_mul_of_nonneg_left e (by positivity))
    rw [_root_.abs_le] at b'
    nlinarith [a.1, a.2, b'.1, b'.2]
  · exact not_le.1 hd

/-- With the solver: for the saturation vapour pressure of a temperature up to 380 K the result is within twice the tolerance, and the
rounding, of that temperature in Celsius. -/
theorem C159_solved_partial (T t : ℝ) (hT : 0 < T) (hT2 : T ≤ 380) (h20 : 20 ≤ sat T) (hs : sat T ≤ 3 / 2 * seaLevel) (ht : 1 / 5000 ≤ t)
    (ht2 : t ≤ 1) :
    ∃ N d, (∀ n, N ≤ n → dewCelsius n t (sat T) = some d) ∧ |d - (T - freeze)| < 2 * (1 + (1 / 2) ^ 24) * t + (1 / 2) ^ 14 := by
  have a := near24 t
  rw [abs_of_nonneg (by linarith : 0 ≤ t), _root_.abs_le] at a
  have s1 : 1 / 10000 ≤ single t := by nlinarith [a.1]
  have s2 : single t ≤ 2 := by nlinarith [a.2]
  obtain ⟨N, x, h1, h2⟩ := Dewpoint.C43_range_partial T (single t) hT (by linarith) h20 hs s1 (by linarith)
  obtain ⟨N', a', b', x', q1, q2, q3, q4, -, -, q5⟩ := Dewpoint.C43_found (sat T) (single t) (C41_positive T) hs s1
  have ex : x' = x := by
    have e1 := h1 (max N N') (le_max_left _ _)
    rw [(q5 (max N N') (le_max_right _ _)).2.2] at e1
    cases e1; rfl
  subst ex
  have hx0 : 0 ≤ x' := by linarith
  rw [abs_of_nonneg hx0] at h2
  have hx1 : x' ≤ 390 := by
    have := (abs_lt.1 h2).2
    nlinarith
  refine ⟨N, toCelsius x', fun n hn => ?_, ?_⟩
  · show (Dewpoint.dewPoint n (sat T) (22204460492503131 / 10 ^ 32) (single t)).map _ = _
    rw [h1 n hn]; rfl
  · have e := C159_error x' hx0 hx1
    rw [_root_.abs_le] at e
    rw [_root_.abs_lt] at h2 ⊢
    constructor <;> nlinarith [h2.1, h2.2, e.1, e.2, a.1, a.2]

/-! ### The share of snow -/

private theorem classify_same {a b : ℝ} (h : ∀ θ ∈ edges, a < θ ↔ b < θ) : Nasde.classify (some a) = Nasde.classify (some b) := by
  have h' : ∀ θ ∈ edges, θ ≤ a ↔ θ ≤ b := fun θ hθ => by rw [← not_lt, ← not_lt, h θ hθ]
  simp only [edges, List.mem_cons, List.not_mem_nil, or_false, forall_eq_or_imp, forall_eq] at h h'
  obtain ⟨k1, k2, k3, k4, k5, k6⟩ := h
  obtain ⟨l1, l2, l3, l4, l5, l6⟩ := h'
  refine List.foldl_ext _ _ _ fun acc r hr => ?_
  have e : r.hits (some a) = r.hits (some b) := by
    simp only [Nasde.table, List.mem_cons, List.not_mem_nil, or_false] at hr
    rcases hr with rfl | rfl | rfl | rfl | rfl | rfl | rfl <;>
      simp [Nasde.TableRow.hits, k1, k2, k3, k4, k5, k6, l1, l2, l3, l4, l5, l6, -one_div]
  rw [e]

/-- The table gives the same share and density as for the solver's dew point unless this is within 2^-15 degrees of one of its edges. -/
theorem C159_table_partial (x : ℝ) (h0 : 0 ≤ x) (h1 : x ≤ 390) (h : ∀ θ ∈ edges, (1 / 2) ^ 15 < |x - freeze - θ|) :
    Nasde.classify (some (toCelsius x)) = Nasde.classify (some (x - freeze)) := by
  have e := C159_error x h0 h1
  rw [_root_.abs_le] at e
  refine classify_same fun θ hθ => ?_
  have := h θ hθ
  rcases abs_cases (x - freeze - θ) with ⟨q, -⟩ | ⟨q, -⟩ <;> rw [q] at this <;> constructor <;> intro <;> linarith [e.1, e.2]

private theorem percent_lip {a b : ℝ} (h : a ≤ b) :
    0 ≤ Nasde.percentSnow 0 a - Nasde.percentSnow 0 b ∧ Nasde.percentSnow 0 a - Nasde.percentSnow 0 b ≤ 3 / 4 * (b - a) := by
  unfold Nasde.percentSnow
  simp only
  split_ifs <;> constructor <;> first | linarith | (exfalso; grind) |
    (have hb : 1 < b := by by_contra; grind
     linarith)

/-- The models that take the share of snow from a continuous function change it by less than 2^-15. -/
theorem C159_share (x : ℝ) (h0 : 0 ≤ x) (h1 : x ≤ 390) :
    |Nasde.percentSnow 0 (toCelsius x) - Nasde.percentSnow 0 (x - freeze)| ≤ 3 / 4 * (1 / 2) ^ 15 := by
  have e := C159_error x h0 h1
  rw [_root_.abs_le] at e ⊢
  rcases le_total (toCelsius x) (x - freeze) with h | h <;>
    · have := percent_lip h
      constructor <;> linarith [this.1, this.2, e.1, e.2]

/-! ### The full claim is false -/

/-- A dew point just below 0.5 degrees, a quarter snow, is converted to one above, rain. -/
theorem C159_fails : ¬ C159_full := by
  intro h
  have := h (27366 / 100 - 1 / 10 ^ 6) (by norm_num) (by norm_num)
  have s : single (27366 / 100 - 1 / 10 ^ 6) = 8967291 * (2 : ℝ) ^ (-15 : ℤ) := by
    have := RestartFloat.binary_eval 24 (x := 27366 / 100 - 1 / 10 ^ 6) (by norm_num) 8 (by norm_num) (by norm_num) 8967291
      (by norm_num) (by norm_num)
    unfold single
    rw [this]; norm_num
  have f := freeze53
  rw [_root_.abs_le] at f
  have hf : freeze = 27316 / 100 := rfl
  have g : (1 / 2 : ℝ) ≤ single (27366 / 100 - 1 / 10 ^ 6) - IdwFloat.binary 53 freeze := by
    rw [s, zpow_neg]
    norm_num at f ⊢
    rw [hf] at f ⊢
    linarith [f.2]
  have k : (1 / 2 : ℝ) ≤ toCelsius (27366 / 100 - 1 / 10 ^ 6) := by
    have g1 := DiskFloat.binary_mono 52 g
    have e1 : IdwFloat.binary 53 (1 / 2) = 1 / 2 := by
      have := CoordFloat.binary_exact 52 1 (-1) (by norm_num)
      norm_num at this ⊢
      exact this
    have g2 := DiskFloat.binary_mono 23 g1
    have e2 : IdwFloat.binary 24 (1 / 2) = 1 / 2 := by
      have := CoordFloat.binary_exact 23 1 (-1) (by norm_num)
      norm_num at this ⊢
      exact this
    norm_num only at e1 e2 g1 g2 ⊢
    rw [e1, e2] at g2
    exact g2
  have c1 : (Nasde.classify (some (toCelsius (27366 / 100 - 1 / 10 ^ 6)))).1 = 0 := by
    rw [classify_same (b := 1 / 2) fun θ hθ => ?_]
    · norm_num [Nasde.classify, Nasde.table, Nasde.TableRow.hits]
    · have q : θ ≤ 1 / 2 := by
        simp only [edges, List.mem_cons, List.not_mem_nil, or_false] at hθ
        rcases hθ with rfl | rfl | rfl | rfl | rfl | rfl <;> norm_num
      exact ⟨fun w => absurd w (not_lt.2 (q.trans k)), fun w => absurd w (not_lt.2 q)⟩
  have c2 : (Nasde.classify (some ((27366 / 100 - 1 / 10 ^ 6 : ℝ) - freeze))).1 = 1 / 4 := by
    rw [hf]
    norm_num [Nasde.classify, Nasde.table, Nasde.TableRow.hits]
  rw [c1, c2] at this
  norm_num at this

example : |toCelsius 300 - (300 - freeze)| ≤ (1 / 2) ^ 15 := C159_error 300 (by norm_num) (by norm_num)

/-- The freezing point, with the default tolerance. -/
example : ∃ N d, (∀ n, N ≤ n → dewCelsius n (1 / 100) (sat freeze) = some d) ∧ |d - (freeze - freeze)| < 2 * (1 + (1 / 2) ^ 24) * (1 / 100) + (1 / 2) ^ 14 := by
  have h : sat freeze = 61071 / 100 := by unfold sat; rw [if_neg (lt_irrefl _), satIce_freeze]
  exact C159_solved_partial freeze (1 / 100) (by norm_num [freeze]) (by norm_num [freeze]) (by rw [h]; norm_num)
    (by rw [h]; norm_num [seaLevel]) (by norm_num) (by norm_num)

/-- The replaced dew point of a cell at 10 degrees. -/
example : below 10 12 < 10 := C159_below 10 12 (by norm_num)

/-- A failed solver gives a dew point of about -273.16 degrees. -/
example : |toCelsius 0 - (-27316 / 100)| ≤ (1 / 2) ^ 15 := by
  have := C159_error 0 (by norm_num) (by norm_num)
  unfold freeze at this
  norm_num at this ⊢
  exact this

example : Nasde.classify (some (toCelsius 272)) = Nasde.classify (some (272 - freeze)) := by
  refine C159_table_partial 272 (by norm_num) (by norm_num) fun θ hθ => ?_
  unfold freeze
  simp only [edges, List.mem_cons, List.not_mem_nil, or_false] at hθ
  rcases hθ with rfl | rfl | rfl | rfl | rfl | rfl <;> norm_num [abs_of_neg, abs_of_pos]

end Verif.DewFloat
