import Verif.GaugeProps

/-! C185: what errors in the station's reading, wind and temperature do to the reading corrected for
undercatch (`smrf/envphys/precip.py:12-96`). -/

namespace Verif.Precip

/-- The claim at full strength: one rate bounds the relative change of the corrected reading for errors
in the wind and in the temperature together. -/
def C185_full : Prop :=
  ∃ L : ℝ, ∀ (sh : Bool) (t t' w w' p q q' : ℝ), 0 ≤ w → 0 ≤ w' → 0 ≤ p →
    corrected sh t w p = .ok (some q) → corrected sh t' w' p = .ok (some q') →
    |q' - q| ≤ p * (L * (|t' - t| + |w' - w|))

/-- The rate per m/s of wind at which the correction can change: with or without shield, for snow or
rain. -/
noncomputable def windRate (shielded snow : Bool) : ℝ :=
  match shielded, snow with
  | true, true => 27 / 100
  | false, true => 34 / 100
  | true, false => 84 / 1000
  | false, false => 165 / 1000

theorem six_power (n m : ℕ) (hm : m ≠ 0) (C : ℝ) (hC : 0 ≤ C) (h : (6 : ℝ) ^ n ≤ C ^ m) (v : ℝ)
    (h0 : 0 ≤ v) (h6 : v ≤ 6) : v ^ ((n : ℝ) / m) ≤ C := by
  have a1 : v ^ ((n : ℝ) / m) ≤ 6 ^ ((n : ℝ) / m) :=
    Real.rpow_le_rpow h0 h6 (by positivity)
  refine le_trans a1 (le_of_pow_le_pow_left₀ hm hC ?_)
  rw [← Real.rpow_natCast, ← Real.rpow_mul (by norm_num), div_mul_cancel₀ _ (by exact_mod_cast hm),
    Real.rpow_natCast]
  exact h

theorem three_quarters (v : ℝ) (h0 : 0 ≤ v) (h6 : v ≤ 6) : v ^ (175 / 100 - 1 : ℝ) ≤ 385 / 100 := by
  have := six_power 3 4 (by norm_num) (385 / 100) (by norm_num) (by norm_num) v h0 h6
  rw [show (175 / 100 - 1 : ℝ) = ((3 : ℕ) : ℝ) / ((4 : ℕ) : ℝ) by norm_num]
  exact this

theorem seven_25ths (v : ℝ) (h0 : 0 ≤ v) (h6 : v ≤ 6) : v ^ (128 / 100 - 1 : ℝ) ≤ 166 / 100 := by
  have := six_power 7 25 (by norm_num) (166 / 100) (by norm_num) (by norm_num) v h0 h6
  rw [show (128 / 100 - 1 : ℝ) = ((7 : ℕ) : ℝ) / ((25 : ℕ) : ℝ) by norm_num]
  exact this

/-- A power above 1 rises at most with the slope at its right end. -/
theorem power_rise (a v v' : ℝ) (ha : 1 ≤ a) (h0 : 0 ≤ v) (h : v ≤ v') :
    v' ^ a - v ^ a ≤ a * v' ^ (a - 1) * (v' - v) := by
  rcases eq_or_lt_of_le (le_trans h0 h) with e | hp
  · have e' : v = v' := by linarith
    rw [e']; simp
  · have hs : -1 ≤ v / v' - 1 := by
      have := div_nonneg h0 hp.le; linarith
    have hb := one_add_mul_self_le_rpow_one_add hs ha
    rw [show 1 + (v / v' - 1) = v / v' by ring, Real.div_rpow h0 hp.le] at hb
    have hpow : 0 < v' ^ a := Real.rpow_pos_of_pos hp a
    rw [le_div_iff₀ hpow] at hb
    have e1 : v' ^ a = v' ^ (a - 1) * v' := by
      rw [← Real.rpow_add_one hp.ne']; ring_nf
    have e2 : (1 + a * (v / v' - 1)) * v' ^ a
        = v' ^ a - a * v' ^ (a - 1) * (v' - v) := by
      rw [e1]
      have : v / v' * v' = v := div_mul_cancel₀ _ hp.ne'
      linear_combination a * v' ^ (a - 1) * this
    linarith

/-- The catch falls at most at the given rate with the wind. -/
theorem catch_fall (sh : Bool) (t w w' : ℝ) (h0 : 0 ≤ w) (h : w ≤ w') :
    documentedCatch sh t w ≤
      documentedCatch sh t w' * Real.exp (windRate sh (decide (t < -1 / 2)) * (w' - w)) := by
  have hv0 : 0 ≤ min w 6 := le_min h0 (by norm_num)
  have hv : min w 6 ≤ min w' 6 := min_le_min_right _ h
  have hv6 : min w' 6 ≤ 6 := min_le_right _ _
  have hd : min w' 6 - min w 6 ≤ w' - w := by
    rcases le_total w 6 with a | a
    · rw [min_eq_left a]; have := min_le_left w' 6; linarith
    · rw [min_eq_right a]; linarith
  unfold documentedCatch
  generalize min w 6 = v at hv0 hv hd
  generalize min w' 6 = v' at hv hd hv6
  have h0' : 0 ≤ v' := le_trans hv0 hv
  have hdd : 0 ≤ v' - v := by linarith
  by_cases ht : t < -1 / 2
  · cases sh
    · simp only [ht, if_true, decide_true, windRate, Bool.false_eq_true, if_false]
      rw [← Real.exp_add]
      refine Real.exp_le_exp.2 ?_
      have a1 := power_rise (128 / 100) v v' (by norm_num) hv0 hv
      have a2 := mul_le_mul_of_nonneg_right (seven_25ths v' h0' hv6) hdd
      nlinarith
    · simp only [ht, if_true, decide_true, windRate]
      rw [← Real.exp_add]
      refine Real.exp_le_exp.2 ?_
      have a1 := power_rise (175 / 100) v v' (by norm_num) hv0 hv
      have a2 := mul_le_mul_of_nonneg_right (three_quarters v' h0' hv6) hdd
      nlinarith
  · have hx (r : ℝ) := Real.add_one_le_exp (r * (w' - w))
    cases sh
    · simp only [ht, if_false, decide_false, windRate, Bool.false_eq_true]
      have := mul_le_mul_of_nonneg_left (hx (165 / 1000))
        (show (0 : ℝ) ≤ 10077 / 100 - 834 / 100 * v' by linarith)
      have h2 : 0 ≤ w' - w := by linarith
      nlinarith
    · simp only [ht, if_false, decide_false, windRate, if_true]
      have := mul_le_mul_of_nonneg_left (hx (84 / 1000))
        (show (0 : ℝ) ≤ 10104 / 100 - 562 / 100 * v' by linarith)
      have h2 : 0 ≤ w' - w := by linarith
      nlinarith

/-- Part: while the phase is the same, an error in the wind changes the corrected reading at most by a
factor that depends only on the error, whatever the wind. -/
theorem C185_wind_partial (sh : Bool) (t w w' p q q' : ℝ) (hw : 0 ≤ w) (hw' : 0 ≤ w') (hp : 0 ≤ p)
    (h : corrected sh t w p = .ok (some q)) (h' : corrected sh t w' p = .ok (some q')) :
    q' ≤ q * Real.exp (windRate sh (decide (t < -1 / 2)) * |w' - w|) := by
  rcases le_total w w' with e | e
  · rw [corrected_eq _ _ _ _ hw] at h
    rw [corrected_eq _ _ _ _ hw'] at h'
    simp only [Except.ok.injEq, Option.some.injEq] at h h'
    rw [← h, ← h', abs_of_nonneg (by linarith)]
    have c1 := catch_pos sh t w
    have c2 := catch_pos sh t w'
    rw [div_mul_eq_mul_div, div_le_div_iff₀ (by linarith) (by linarith)]
    have := mul_le_mul_of_nonneg_left (catch_fall sh t w w' hw e) hp
    nlinarith
  · have h1 := (C174_windier sh t w' w p q' q hw' e hp h' h).1
    have hq : 0 ≤ q := by
      rw [corrected_eq _ _ _ _ hw] at h
      simp only [Except.ok.injEq, Option.some.injEq] at h
      rw [← h]
      have := catch_pos sh t w
      positivity
    have hr : 0 ≤ windRate sh (decide (t < -1 / 2)) * |w' - w| := by
      refine mul_nonneg ?_ (abs_nonneg _)
      cases sh <;> cases decide (t < -1 / 2) <;> norm_num [windRate]
    have := Real.one_le_exp hr
    nlinarith

/-- The catch is never below a fifth. -/
theorem catch_floor (sh : Bool) (t w : ℝ) (h0 : 0 ≤ w) : 20 ≤ documentedCatch sh t w := by
  have hv0 : 0 ≤ min w 6 := le_min h0 (by norm_num)
  have hv6 : min w 6 ≤ 6 := min_le_right _ _
  unfold documentedCatch
  generalize min w 6 = v at hv0 hv6
  have key (x : ℝ) (hx : x ≤ 15936 / 10000) : 20 ≤ Real.exp (461 / 100 - x) := by
    have h1 : Real.exp x ≤ 5023 / 1000 := by
      refine le_trans (Real.exp_le_exp.2 (show x ≤ 16 / 10 by linarith)) ?_
      refine le_of_pow_le_pow_left₀ (n := 5) (by norm_num) (by norm_num) ?_
      rw [← Real.exp_nat_mul, show ((5 : ℕ) : ℝ) * (16 / 10) = ((8 : ℕ) : ℝ) * 1 by norm_num,
        Real.exp_nat_mul]
      refine le_trans (pow_le_pow_left₀ (Real.exp_pos 1).le Real.exp_one_lt_d9.le 8) ?_
      norm_num
    rw [Real.exp_sub, le_div_iff₀ (Real.exp_pos _)]
    have := exp_461.2
    linarith
  by_cases ht : t < -1 / 2
  · simp only [ht, if_true]
    cases sh
    · simp only [Bool.false_eq_true, if_false]
      refine key _ ?_
      have a1 := power_rise (128 / 100) 0 v (by norm_num) le_rfl hv0
      rw [Real.zero_rpow (by norm_num)] at a1
      have e : v ^ (128 / 100 : ℝ) ≤ v ^ (128 / 100 - 1 : ℝ) * v := by
        rcases eq_or_lt_of_le hv0 with e | e
        · rw [← e, Real.zero_rpow (by norm_num)]; simp
        · rw [← Real.rpow_add_one e.ne']; ring_nf; exact le_rfl
      have a2 := mul_le_mul (seven_25ths v hv0 hv6) hv6 hv0 (by norm_num)
      linarith
    · simp only [if_true]
      refine key _ ?_
      have e : v ^ (175 / 100 : ℝ) ≤ v ^ (175 / 100 - 1 : ℝ) * v := by
        rcases eq_or_lt_of_le hv0 with e | e
        · rw [← e, Real.zero_rpow (by norm_num)]; simp
        · rw [← Real.rpow_add_one e.ne']; ring_nf; exact le_rfl
      have a2 := mul_le_mul (three_quarters v hv0 hv6) hv6 hv0 (by norm_num)
      linarith
  · simp only [ht, if_false]
    split <;> linarith

/-- An error in the reading itself grows at most five times. -/
theorem C185_reading (sh : Bool) (t w p p' q q' : ℝ) (hw : 0 ≤ w)
    (h : corrected sh t w p = .ok (some q)) (h' : corrected sh t w p' = .ok (some q')) :
    |q' - q| ≤ 5 * |p' - p| := by
  rw [corrected_eq _ _ _ _ hw] at h h'
  simp only [Except.ok.injEq, Option.some.injEq] at h h'
  have c := catch_floor sh t w hw
  have c0 : 0 < documentedCatch sh t w / 100 := by linarith
  rw [← h, ← h', ← sub_div, abs_div, abs_of_pos c0, div_le_iff₀ c0]
  have := abs_nonneg (p' - p)
  nlinarith

/-- Just below the temperature of -0.5 degrees the corrected reading of a gauge without shield in strong
wind is higher by one and a half times the reading, however small the difference in temperature. -/
theorem C185_phase_fails (e p : ℝ) (he : 0 < e) (hp : 0 ≤ p) :
    ∃ q q', corrected false (-1 / 2) 6 p = .ok (some q) ∧
      corrected false (-1 / 2 - e) 6 p = .ok (some q') ∧ q + 3 / 2 * p ≤ q' := by
  refine ⟨_, _, corrected_eq _ _ _ _ (by norm_num), corrected_eq _ _ _ _ (by norm_num), ?_⟩
  have c1 : documentedCatch false (-1 / 2) 6 = 5073 / 100 := by
    unfold documentedCatch; norm_num
  have c2 : documentedCatch false (-1 / 2 - e) 6 ≤ 28 := by
    have ht : -1 / 2 - e < -1 / 2 := by linarith
    unfold documentedCatch
    simp only [ht, if_true, Bool.false_eq_true, if_false, min_self]
    have hx : 96 / 10 ≤ (6 : ℝ) ^ (128 / 100 : ℝ) := by
      refine le_of_pow_le_pow_left₀ (n := 25) (by norm_num) (by positivity) ?_
      rw [← Real.rpow_natCast ((6 : ℝ) ^ (128 / 100 : ℝ)), ← Real.rpow_mul (by norm_num),
        show (128 / 100 : ℝ) * ((25 : ℕ) : ℝ) = ((32 : ℕ) : ℝ) by norm_num, Real.rpow_natCast]
      norm_num
    refine exp_upper _ _ (by positivity) ?_
    nlinarith
  have c3 := catch_pos false (-1 / 2 - e) 6
  rw [c1]
  have h1 : p * (100 / 28) ≤ p / (documentedCatch false (-1 / 2 - e) 6 / 100) := by
    rw [le_div_iff₀ (by linarith)]
    nlinarith
  have h2 : p / (5073 / 100 / 100) ≤ p * (2 : ℝ) := by
    rw [div_le_iff₀ (by norm_num)]
    linarith
  linarith

theorem C185_fails : ¬ C185_full := by
  rintro ⟨L, h⟩
  obtain ⟨q, q', h1, h2, h3⟩ := C185_phase_fails (1 / (1 + |L|)) 1 (by positivity) zero_le_one
  have hb := h false _ _ 6 6 1 q q' (by norm_num) (by norm_num) zero_le_one h1 h2
  have e1 : |(-1 / 2 - 1 / (1 + |L|)) - (-1 / 2 : ℝ)| = 1 / (1 + |L|) := by
    rw [show (-1 / 2 - 1 / (1 + |L|)) - (-1 / 2 : ℝ) = -(1 / (1 + |L|)) by ring, abs_neg,
      abs_of_nonneg (by positivity)]
  rw [e1, sub_self, abs_zero, add_zero, one_mul] at hb
  have h4 : L * (1 / (1 + |L|)) ≤ 1 := by
    rw [mul_one_div, div_le_one (by positivity)]
    have := le_abs_self L
    linarith
  have h5 := le_abs_self (q' - q)
  linarith

/-- A gauge without shield reads 4 mm of snow in wind of 3 m/s; were the wind 4 m/s, the corrected
reading would be higher by no more than the factor `exp 0.34`. -/
example : ∃ q q', corrected false (-3) 3 4 = .ok (some q) ∧ corrected false (-3) 4 4 = .ok (some q') ∧
    q' ≤ q * Real.exp (34 / 100) := by
  refine ⟨_, _, corrected_eq _ _ _ _ (by norm_num), corrected_eq _ _ _ _ (by norm_num), ?_⟩
  have := C185_wind_partial false (-3) 3 4 4 _ _ (by norm_num) (by norm_num) (by norm_num)
    (corrected_eq _ _ _ _ (by norm_num)) (corrected_eq _ _ _ _ (by norm_num))
  have e : windRate false (decide ((-3 : ℝ) < -1 / 2)) * |(4 : ℝ) - 3| = 34 / 100 := by
    rw [show decide ((-3 : ℝ) < -1 / 2) = true from decide_eq_true (by norm_num)]
    norm_num [windRate]
  rwa [e] at this

/-- Rain of 4 mm read as 5 mm in wind of 2 m/s. -/
example : ∃ q q', corrected true 3 2 4 = .ok (some q) ∧ corrected true 3 2 5 = .ok (some q') ∧
    q ≠ q' ∧ |q' - q| ≤ 5 := by
  refine ⟨_, _, corrected_eq _ _ _ _ (by norm_num), corrected_eq _ _ _ _ (by norm_num), ?_, ?_⟩
  · norm_num [documentedCatch]
  · have := C185_reading true 3 2 4 5 _ _ (by norm_num) (corrected_eq _ _ _ _ (by norm_num))
      (corrected_eq _ _ _ _ (by norm_num))
    norm_num at this ⊢
    exact this

end Verif.Precip
