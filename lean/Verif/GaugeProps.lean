import Verif.PrecipProps
import Mathlib.Analysis.Convex.SpecificFunctions.Basic

/-! C174: how the undercatch correction responds to wind, shield and phase
(`smrf/envphys/precip.py:12-96`). -/

namespace Verif.Precip

/-- The name of a gauge. -/
def gaugeName (shielded : Bool) : String :=
  if shielded then "us_nws_8_shielded" else "us_nws_8_unshielded"

/-- What a gauge of a given kind makes of a reading, from the station's temperature and wind: a network
of one station. -/
noncomputable def corrected (shielded : Bool) (t w p : ℝ) : Except Err (Option ℝ) :=
  adjustStation ⟨fun _ => some (some w), fun _ => some (some t), fun _ => some (gaugeName shielded),
    none⟩ "S" (some p)

theorem corrected_eq (sh : Bool) (t w p : ℝ) (hw : 0 ≤ w) :
    corrected sh t w p = .ok (some (p / (documentedCatch sh t w / 100))) :=
  C33_documented _ "S" p t w sh hw rfl rfl (.inl (by cases sh <;> rfl))

theorem catch_pos (sh : Bool) (t w : ℝ) : 0 < documentedCatch sh t w := by
  have h6 : min w 6 ≤ 6 := min_le_right _ _
  unfold documentedCatch
  split
  · split <;> positivity
  · split <;> linarith

/-- A larger catch gives a smaller corrected reading. -/
theorem corrected_le (sh sh' : Bool) (t t' w w' p q q' : ℝ) (hw : 0 ≤ w) (hw' : 0 ≤ w')
    (hp : 0 ≤ p) (hc : documentedCatch sh' t' w' ≤ documentedCatch sh t w)
    (h : corrected sh t w p = .ok (some q)) (h' : corrected sh' t' w' p = .ok (some q')) :
    q ≤ q' := by
  rw [corrected_eq _ _ _ _ hw] at h
  rw [corrected_eq _ _ _ _ hw'] at h'
  simp only [Except.ok.injEq, Option.some.injEq] at h h'
  rw [← h, ← h']
  have := catch_pos sh' t' w'
  exact div_le_div_of_nonneg_left hp (by linarith) (by linarith)

theorem corrected_lt (sh sh' : Bool) (t t' w w' p q q' : ℝ) (hw : 0 ≤ w) (hw' : 0 ≤ w')
    (hp : 0 < p) (hc : documentedCatch sh' t' w' < documentedCatch sh t w)
    (h : corrected sh t w p = .ok (some q)) (h' : corrected sh' t' w' p = .ok (some q')) :
    q < q' := by
  rw [corrected_eq _ _ _ _ hw] at h
  rw [corrected_eq _ _ _ _ hw'] at h'
  simp only [Except.ok.injEq, Option.some.injEq] at h h'
  rw [← h, ← h']
  have := catch_pos sh' t' w'
  exact div_lt_div_of_pos_left hp (by linarith) (by linarith)

/-- More wind never lowers the corrected reading, and from 6 m/s on it does not change it. -/
theorem C174_windier (sh : Bool) (t w w' p q q' : ℝ) (hw : 0 ≤ w) (hww : w ≤ w') (hp : 0 ≤ p)
    (h : corrected sh t w p = .ok (some q)) (h' : corrected sh t w' p = .ok (some q')) :
    q ≤ q' ∧ (6 ≤ w → q' = q) := by
  have hw' : 0 ≤ w' := le_trans hw hww
  constructor
  · refine corrected_le sh sh t t w w' p q q' hw hw' hp ?_ h h'
    have hm : min w 6 ≤ min w' 6 := min_le_min_right _ hww
    have h0 : 0 ≤ min w 6 := le_min hw (by norm_num)
    unfold documentedCatch
    split
    · split
      · have := Real.rpow_le_rpow h0 hm (show (0 : ℝ) ≤ 175 / 100 by norm_num)
        exact Real.exp_le_exp.2 (by linarith)
      · have := Real.rpow_le_rpow h0 hm (show (0 : ℝ) ≤ 128 / 100 by norm_num)
        exact Real.exp_le_exp.2 (by linarith)
    · split <;> linarith
  · intro h6
    have e : documentedCatch sh t w' = documentedCatch sh t w := by
      unfold documentedCatch
      rw [min_eq_right h6, min_eq_right (le_trans h6 hww)]
    rw [corrected_eq _ _ _ _ hw] at h
    rw [corrected_eq _ _ _ _ hw', e] at h'
    rw [h] at h'
    simp only [Except.ok.injEq, Option.some.injEq] at h'
    exact h'.symm

/-- A gauge without shield is corrected at least as much as one with a shield, in every wind and for
rain and snow. -/
theorem C174_shield (t w p q q' : ℝ) (hw : 0 ≤ w) (hp : 0 ≤ p)
    (h : corrected true t w p = .ok (some q)) (h' : corrected false t w p = .ok (some q')) :
    q ≤ q' := by
  refine corrected_le true false t t w w p q q' hw hw hp ?_ h h'
  have h0 : 0 ≤ min w 6 := le_min hw (by norm_num)
  have h6 : min w 6 ≤ 6 := min_le_right _ _
  unfold documentedCatch
  generalize min w 6 = v at h0 h6
  simp only [Bool.false_eq_true, if_false, if_true]
  by_cases ht : t < -1 / 2
  · simp only [ht, if_true]
    refine Real.exp_le_exp.2 ?_
    have key : v ^ (175 / 100 : ℝ) ≤ 4 * v ^ (128 / 100 : ℝ) := by
      rcases eq_or_lt_of_le h0 with e | e
      · rw [← e, Real.zero_rpow (by norm_num), Real.zero_rpow (by norm_num)]; norm_num
      · have e1 : v ^ (175 / 100 : ℝ) = v ^ (47 / 100 : ℝ) * v ^ (128 / 100 : ℝ) := by
          rw [← Real.rpow_add e]; norm_num
        have e2 : v ^ (47 / 100 : ℝ) ≤ 4 := by
          have a1 : v ^ (47 / 100 : ℝ) ≤ 16 ^ (47 / 100 : ℝ) :=
            Real.rpow_le_rpow h0 (by linarith) (by norm_num)
          have a2 : (16 : ℝ) ^ (47 / 100 : ℝ) ≤ 16 ^ (1 / 2 : ℝ) :=
            Real.rpow_le_rpow_of_exponent_le (by norm_num) (by norm_num)
          have a3 : (16 : ℝ) ^ (1 / 2 : ℝ) = 4 := by
            rw [← Real.sqrt_eq_rpow, show (16 : ℝ) = 4 ^ 2 by norm_num, Real.sqrt_sq (by norm_num)]
          linarith
        rw [e1]
        exact mul_le_mul_of_nonneg_right e2 (Real.rpow_nonneg h0 _)
    linarith
  · simp only [ht, if_false]
    linarith

/-! ### Snow against rain -/

theorem exp_461 : Real.exp (461 / 100) ≤ 10049 / 100 ∧ 10047 / 100 ≤ Real.exp (461 / 100) := by
  have e : Real.exp (461 / 100) = Real.exp (46 / 10) * Real.exp (1 / 100) := by
    rw [← Real.exp_add]; norm_num
  have h1 : Real.exp (46 / 10) ^ 5 = Real.exp 1 ^ 23 := by
    rw [← Real.exp_nat_mul, ← Real.exp_nat_mul]; norm_num
  have u : Real.exp (46 / 10) ≤ 994845 / 10000 := by
    have h2 : Real.exp 1 ^ 23 ≤ (2.7182818286 : ℝ) ^ 23 :=
      pow_le_pow_left₀ (Real.exp_pos 1).le Real.exp_one_lt_d9.le 23
    have h3 : (2.7182818286 : ℝ) ^ 23 ≤ (994845 / 10000) ^ 5 := by norm_num
    exact le_of_pow_le_pow_left₀ (n := 5) (by norm_num) (by norm_num) (by rw [h1]; exact le_trans h2 h3)
  have l : 99484 / 1000 ≤ Real.exp (46 / 10) := by
    have h2 : (2.7182818283 : ℝ) ^ 23 ≤ Real.exp 1 ^ 23 :=
      pow_le_pow_left₀ (by norm_num) Real.exp_one_gt_d9.le 23
    have h3 : (99484 / 1000 : ℝ) ^ 5 ≤ (2.7182818283 : ℝ) ^ 23 := by norm_num
    exact le_of_pow_le_pow_left₀ (n := 5) (by norm_num) (Real.exp_pos _).le
      (by rw [h1]; exact le_trans h3 h2)
  have l2 : 101 / 100 ≤ Real.exp (1 / 100) := by
    have := Real.add_one_le_exp (1 / 100 : ℝ); linarith
  have u2 : Real.exp (1 / 100) ≤ 100 / 99 := by
    have h4 := Real.add_one_le_exp (-(1 / 100) : ℝ)
    have h5 : Real.exp (1 / 100) * Real.exp (-(1 / 100)) = 1 := by
      rw [← Real.exp_add]; norm_num
    have := Real.exp_pos (1 / 100)
    nlinarith
  rw [e]
  constructor
  · have := mul_le_mul u u2 (Real.exp_pos _).le (by norm_num)
    linarith
  · have := mul_le_mul l l2 (by norm_num) (Real.exp_pos _).le
    linarith

/-- An upper bound of the fitted exponential. -/
theorem exp_upper (x B : ℝ) (hx : 0 ≤ x) (h : 10049 / 100 ≤ B * (1 + x + x ^ 2 / 2)) :
    Real.exp (461 / 100 - x) ≤ B := by
  have h1 := Real.quadratic_le_exp_of_nonneg hx
  have h2 := exp_461.1
  have hB : 0 < B := by
    by_contra hn
    have : B * (1 + x + x ^ 2 / 2) ≤ 0 :=
      mul_nonpos_of_nonpos_of_nonneg (not_lt.1 hn) (by positivity)
    linarith
  rw [Real.exp_sub, div_le_iff₀ (Real.exp_pos _)]
  have := mul_le_mul_of_nonneg_left h1 hB.le
  linarith

/-- A power above one lies above its tangent. -/
theorem tangent (p a c w : ℝ) (hp : 1 ≤ p) (ha : 0 < a) (hw : 0 ≤ w) (hc0 : 0 ≤ c) (hc : c ≤ a ^ p)
    (hpos : 0 ≤ 1 + p * (w / a - 1)) : c * (1 + p * (w / a - 1)) ≤ w ^ p := by
  have h1 : 1 + p * (w / a - 1) ≤ (1 + (w / a - 1)) ^ p :=
    one_add_mul_self_le_rpow_one_add (by have := div_nonneg hw ha.le; linarith) hp
  have h2 : w ^ p = a ^ p * (1 + (w / a - 1)) ^ p := by
    rw [show 1 + (w / a - 1) = w / a by ring, Real.div_rpow hw ha.le]
    have := Real.rpow_pos_of_pos ha p
    field_simp
  rw [h2]
  exact mul_le_mul hc h1 hpos (le_trans hc0 hc)

/-- An exponential of a line that is below a line at both ends of an interval is below it inside. -/
theorem chord (A B M N l h w : ℝ) (hlh : l < h) (hl : l ≤ w) (hh : w ≤ h)
    (el : Real.exp (A - B * l) ≤ M - N * l) (eh : Real.exp (A - B * h) ≤ M - N * h) :
    Real.exp (A - B * w) ≤ M - N * w := by
  have hd : 0 < h - l := by linarith
  have a0 : 0 ≤ (h - w) / (h - l) := div_nonneg (by linarith) hd.le
  have b0 : 0 ≤ (w - l) / (h - l) := div_nonneg (by linarith) hd.le
  have ab : (h - w) / (h - l) + (w - l) / (h - l) = 1 := by field_simp; ring
  have hcv := convexOn_exp.2 (Set.mem_univ (A - B * l)) (Set.mem_univ (A - B * h)) a0 b0 ab
  simp only [smul_eq_mul] at hcv
  have ew : w = (h - w) / (h - l) * l + (w - l) / (h - l) * h := by field_simp; ring
  generalize (h - w) / (h - l) = a at *
  generalize (w - l) / (h - l) = b at *
  have e1 : a * (A - B * l) + b * (A - B * h) = A - B * w := by
    have : A = (a + b) * A := by rw [ab]; ring
    rw [ew]
    linear_combination (ab) * A
  have e2 : a * (M - N * l) + b * (M - N * h) = M - N * w := by
    rw [ew]
    linear_combination (ab) * M
  rw [e1] at hcv
  have h1 := mul_le_mul_of_nonneg_left el a0
  have h2 := mul_le_mul_of_nonneg_left eh b0
  linarith

/-- One piece of the comparison of the two curves. `c` is a rational below `a ^ p`. -/
theorem piece (k p a c M N l h v : ℝ) (hk : 0 ≤ k) (hp : 1 ≤ p) (ha : 0 < a) (hc0 : 0 ≤ c)
    (hc : c ≤ a ^ p) (hl0 : 0 ≤ l) (hlh : l < h) (hl : l ≤ v) (hh : v ≤ h)
    (hpos : 0 ≤ 1 + p * (l / a - 1))
    (el : 10049 / 100 ≤ (M - N * l) * (1 + k * (c * (1 + p * (l / a - 1))) +
      (k * (c * (1 + p * (l / a - 1)))) ^ 2 / 2))
    (eh : 10049 / 100 ≤ (M - N * h) * (1 + k * (c * (1 + p * (h / a - 1))) +
      (k * (c * (1 + p * (h / a - 1)))) ^ 2 / 2)) :
    Real.exp (461 / 100 - k * v ^ p) ≤ M - N * v := by
  have mono : ∀ x, l ≤ x → 0 ≤ 1 + p * (x / a - 1) := by
    intro x hx
    have h1 : l / a ≤ x / a := div_le_div_of_nonneg_right hx ha.le
    have := mul_le_mul_of_nonneg_left h1 (by linarith : (0 : ℝ) ≤ p)
    linarith
  have ht := tangent p a c v hp ha (by linarith) hc0 hc (mono v hl)
  have hkt := mul_le_mul_of_nonneg_left ht hk
  have e : ∀ x, 461 / 100 - k * (c * (1 + p * (x / a - 1))) =
      (461 / 100 - k * c * (1 - p)) - k * c * p / a * x := by
    intro x; field_simp; ring
  have bl := exp_upper _ _ (mul_nonneg hk (mul_nonneg hc0 (mono l le_rfl))) el
  have bh := exp_upper _ _ (mul_nonneg hk (mul_nonneg hc0 (mono h hlh.le))) eh
  rw [e] at bl bh
  have := chord _ _ M N l h v hlh hl hh bl bh
  rw [← e] at this
  exact le_trans (Real.exp_le_exp.2 (by linarith)) this

/-- Without shield: at every wind up to 6 m/s snow is caught no better than rain. -/
theorem bare_curves (v : ℝ) (h0 : 0 ≤ v) (h6 : v ≤ 6) :
    Real.exp (461 / 100 - 16 / 100 * v ^ (128 / 100 : ℝ)) ≤ 10077 / 100 - 834 / 100 * v := by
  have pw : ∀ a c : ℝ, 0 < a → 0 ≤ c → c ^ 25 ≤ a ^ 32 → c ≤ a ^ (128 / 100 : ℝ) := by
    intro a c ha hc h
    have h1 : (a ^ (128 / 100 : ℝ)) ^ 25 = a ^ 32 := by
      rw [← Real.rpow_natCast, ← Real.rpow_mul ha.le, ← Real.rpow_natCast]; norm_num
    exact le_of_pow_le_pow_left₀ (n := 25) (by norm_num) (Real.rpow_nonneg ha.le _) (by rw [h1]; exact h)
  rcases le_or_gt v (33 / 1000) with h1 | h1
  · have h2 : Real.exp (461 / 100 - 16 / 100 * v ^ (128 / 100 : ℝ)) ≤ Real.exp (461 / 100) :=
      Real.exp_le_exp.2 (by have := Real.rpow_nonneg h0 (128 / 100 : ℝ); linarith)
    have := exp_461.1
    linarith
  rcases le_or_gt v (8 / 100) with h2 | h2
  · exact piece _ _ (5 / 100) (216 / 10000) _ _ (33 / 1000) (8 / 100) v (by norm_num) (by norm_num)
      (by norm_num) (by norm_num) (pw _ _ (by norm_num) (by norm_num) (by norm_num)) (by norm_num)
      (by norm_num) h1.le h2 (by norm_num) (by norm_num) (by norm_num)
  rcases le_or_gt v (4 / 10) with h3 | h3
  · exact piece _ _ (2 / 10) (127 / 1000) _ _ (8 / 100) (4 / 10) v (by norm_num) (by norm_num)
      (by norm_num) (by norm_num) (pw _ _ (by norm_num) (by norm_num) (by norm_num)) (by norm_num)
      (by norm_num) h2.le h3 (by norm_num) (by norm_num) (by norm_num)
  · exact piece _ _ 1 1 _ _ (4 / 10) 6 v (by norm_num) (by norm_num)
      (by norm_num) (by norm_num) (pw _ _ (by norm_num) (by norm_num) (by norm_num)) (by norm_num)
      (by norm_num) h3.le h6 (by norm_num) (by norm_num) (by norm_num)

/-- With a shield: the same from 1.6 m/s on. -/
theorem shielded_curves (v : ℝ) (h0 : 16 / 10 ≤ v) (h6 : v ≤ 6) :
    Real.exp (461 / 100 - 4 / 100 * v ^ (175 / 100 : ℝ)) ≤ 10104 / 100 - 562 / 100 * v := by
  have pw : (227 / 100 : ℝ) ≤ (16 / 10) ^ (175 / 100 : ℝ) := by
    have h1 : (((16 : ℝ) / 10) ^ (175 / 100 : ℝ)) ^ 4 = (16 / 10) ^ 7 := by
      rw [← Real.rpow_natCast, ← Real.rpow_mul (by norm_num), ← Real.rpow_natCast]; norm_num
    exact le_of_pow_le_pow_left₀ (n := 4) (by norm_num) (by positivity) (by rw [h1]; norm_num)
  exact piece _ _ (16 / 10) (227 / 100) _ _ (16 / 10) 6 v (by norm_num) (by norm_num)
    (by norm_num) (by norm_num) pw (by norm_num)
    (by norm_num) h0 h6 (by norm_num) (by norm_num) (by norm_num)

/-- With a shield, between 0.4 and 1.25 m/s, snow is caught better than rain. -/
theorem shielded_light (v : ℝ) (h0 : 4 / 10 ≤ v) (h1 : v ≤ 125 / 100) :
    10104 / 100 - 562 / 100 * v < Real.exp (461 / 100 - 4 / 100 * v ^ (175 / 100 : ℝ)) := by
  have key : 4019 / 1000 * v ^ (175 / 100 : ℝ) < 562 / 100 * v - 57 / 100 := by
    rcases le_or_gt v 1 with h | h
    · have h2 : v ^ (175 / 100 : ℝ) ≤ v ^ (1 : ℝ) :=
        Real.rpow_le_rpow_of_exponent_ge (by linarith) h (by norm_num)
      rw [Real.rpow_one] at h2
      linarith
    · have h2 : v ^ (175 / 100 : ℝ) ≤ v ^ (2 : ℝ) :=
        Real.rpow_le_rpow_of_exponent_le h.le (by norm_num)
      rw [show (2 : ℝ) = ((2 : ℕ) : ℝ) by norm_num, Real.rpow_natCast] at h2
      nlinarith
  have h2 := exp_461.2
  have h3 := Real.add_one_le_exp (-(4 / 100 * v ^ (175 / 100 : ℝ)))
  rw [sub_eq_add_neg (461 / 100 : ℝ), Real.exp_add]
  generalize v ^ (175 / 100 : ℝ) = u at *
  have hu : 0 ≤ -(4 / 100 * u) + 1 := by linarith
  have h4 := mul_le_mul h2 h3 hu (Real.exp_pos _).le
  linarith

/-- C174 as stated, the part on the phase: the colder of two readings, both below and above the
threshold, is corrected at least as much. -/
def C174_full : Prop :=
  ∀ (sh : Bool) (t t' w p q q' : ℝ), 0 ≤ w → 0 ≤ p → t ≤ t' →
    corrected sh t w p = .ok (some q) → corrected sh t' w p = .ok (some q') → q' ≤ q

/-- Colder air never lowers the corrected reading of a gauge without shield, nor that of a shielded
gauge in a wind of at least 1.6 m/s. Missing: a shielded gauge in weaker wind
(`C174_light_fails`). -/
theorem C174_colder_partial (sh : Bool) (t t' w p q q' : ℝ) (hw : 0 ≤ w) (hp : 0 ≤ p) (ht : t ≤ t')
    (hs : sh = true → 16 / 10 ≤ w)
    (h : corrected sh t w p = .ok (some q)) (h' : corrected sh t' w p = .ok (some q')) : q' ≤ q := by
  refine corrected_le sh sh t' t w w p q' q hw hw hp ?_ h' h
  have h0 : 0 ≤ min w 6 := le_min hw (by norm_num)
  have h6 : min w 6 ≤ 6 := min_le_right _ _
  unfold documentedCatch
  by_cases a : t' < -1 / 2
  · rw [if_pos a, if_pos (lt_of_le_of_lt ht a)]
  · rw [if_neg a]
    by_cases b : t < -1 / 2
    · rw [if_pos b]
      cases sh with
      | true => exact shielded_curves _ (le_min (hs rfl) (by norm_num)) h6
      | false => exact bare_curves _ h0 h6
    · rw [if_neg b]

/-- A shielded gauge in a light wind, 0.4 to 1.25 m/s: the rain reading is raised more than the snow
reading, so the corrected precipitation grows when the air warms through -0.5 C. -/
theorem C174_light_fails (t t' w p q q' : ℝ) (h0 : 4 / 10 ≤ w) (h1 : w ≤ 125 / 100) (hp : 0 < p)
    (ht : t < -1 / 2) (ht' : -1 / 2 ≤ t') (h : corrected true t w p = .ok (some q))
    (h' : corrected true t' w p = .ok (some q')) : q < q' := by
  refine corrected_lt true true t t' w w p q q' (by linarith) (by linarith) hp ?_ h h'
  unfold documentedCatch
  rw [if_pos ht, if_neg (not_lt.2 ht'), min_eq_left (by linarith)]
  exact shielded_light w h0 h1

theorem C174_fails : ¬ C174_full := by
  intro h
  have e := corrected_eq true (-1) 1 10 (by norm_num)
  have e' := corrected_eq true 0 1 10 (by norm_num)
  have h1 := h true (-1) 0 1 10 _ _ (by norm_num) (by norm_num) (by norm_num) e e'
  have h2 := C174_light_fails (-1) 0 1 10 _ _ (by norm_num) (by norm_num) (by norm_num) (by norm_num)
    (by norm_num) e e'
  exact absurd h1 (not_le.2 h2)

/-- A station with a temperature of NaN is corrected as if it rained, whatever it was. -/
theorem C174_unknown_temp (g : Gauges) (sta : String) (p w t : ℝ) (sh : Bool)
    (hw : g.wind sta = some (some w)) (hg : g.gauge sta = some (gaugeName sh))
    (hn : g.temp sta = some none) (ht : -1 / 2 ≤ t) :
    adjustStation g sta (some p) = corrected sh t w p := by
  have h2 : isSnowing (some t) = false := by
    unfold isSnowing; simp only [decide_eq_false_iff_not, not_lt]; exact ht
  unfold corrected adjustStation gaugeType
  simp only [hn, hw, hg, h2]
  rfl

/-- Gauges of both kinds in a wind of 3 m/s, snow at -4 C and rain at 2 C. -/
example : ∃ a b c d, corrected true (-4) 3 10 = .ok (some a) ∧ corrected true 2 3 10 = .ok (some b) ∧
    corrected false (-4) 3 10 = .ok (some c) ∧ corrected false 2 3 10 = .ok (some d) ∧
    b ≤ a ∧ d ≤ c ∧ a ≤ c ∧ b ≤ d := by
  have ea := corrected_eq true (-4) 3 10 (by norm_num)
  have eb := corrected_eq true 2 3 10 (by norm_num)
  have ec := corrected_eq false (-4) 3 10 (by norm_num)
  have ed := corrected_eq false 2 3 10 (by norm_num)
  exact ⟨_, _, _, _, ea, eb, ec, ed,
    C174_colder_partial true (-4) 2 3 10 _ _ (by norm_num) (by norm_num) (by norm_num)
      (fun _ => by norm_num) ea eb,
    C174_colder_partial false (-4) 2 3 10 _ _ (by norm_num) (by norm_num) (by norm_num)
      (fun h => by cases h) ec ed,
    C174_shield (-4) 3 10 _ _ (by norm_num) (by norm_num) ea ec,
    C174_shield 2 3 10 _ _ (by norm_num) (by norm_num) eb ed⟩

/-- The same snow in a stronger wind, and beyond the cap. -/
example : ∃ a b c, corrected true (-4) 3 10 = .ok (some a) ∧ corrected true (-4) 7 10 = .ok (some b) ∧
    corrected true (-4) 9 10 = .ok (some c) ∧ a ≤ b ∧ c = b := by
  have ea := corrected_eq true (-4) 3 10 (by norm_num)
  have eb := corrected_eq true (-4) 7 10 (by norm_num)
  have ec := corrected_eq true (-4) 9 10 (by norm_num)
  exact ⟨_, _, _, ea, eb, ec,
    (C174_windier true (-4) 3 7 10 _ _ (by norm_num) (by norm_num) (by norm_num) ea eb).1,
    (C174_windier true (-4) 7 9 10 _ _ (by norm_num) (by norm_num) (by norm_num) eb ec).2 (by norm_num)⟩

/-- A station without a temperature at the hour. -/
example : adjustStation ⟨fun _ => some (some 3), fun _ => some none,
    fun _ => some "us_nws_8_unshielded", none⟩ "A" (some 10) = corrected false 5 3 10 :=
  C174_unknown_temp _ "A" 10 3 5 false rfl rfl rfl (by norm_num)

end Verif.Precip
