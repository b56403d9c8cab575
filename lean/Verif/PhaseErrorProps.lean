import Verif.DenserProps

/-!
How much an error in the temperature of the precipitation can change the phase of the precipitation and the density of the new snow (C183). No new model:
smrf/envphys/snow.py 36-75 and nasde_model/*.py as modelled in `Nasde`.
-/

namespace Verif.Nasde

/-- C183 in full for a model: a factor for which an error in the temperature (up to 1 degree, above which there is no snow) of a cell with precipitation changes the fraction of snow by at most the factor times the error, and the
density of the snow by at most 1000 times that. -/
def C183_full (m : String) : Prop :=
  ∃ L : ℝ, ∀ (temp temp' precip : Unit → ℝ) (r r' : (Unit → ℝ) × (Unit → ℝ)), 0 < precip () → temp () ≤ 1 → temp' () ≤ 1 →
    phaseAndDensity temp precip m = .ok r → phaseAndDensity temp' precip m = .ok r' →
    |r'.2 () - r.2 ()| ≤ L * |temp' () - temp ()| ∧ |r'.1 () - r.1 ()| ≤ 1000 * L * |temp' () - temp ()|

variable {ι : Type} [Fintype ι]

theorem fraction_near (s t : ℝ) : |fraction t - fraction s| ≤ 3 / 4 * |t - s| := by
  unfold fraction
  have h := C30_no_jumps (0 : ℝ) (max (-10) t) (max (-10) s) (by norm_num)
  have e : max (1 / 2 : ℝ) (3 / 4 / (0 + 1)) = 3 / 4 := by norm_num
  rw [e] at h
  refine h.trans (mul_le_mul_of_nonneg_left ?_ (by norm_num))
  have := abs_max_sub_max_le_abs t s (-10 : ℝ)
  rwa [max_comm t, max_comm s] at this

theorem piecewise_images {temp precip : ι → ℝ} {r : (ι → ℝ) × (ι → ℝ)} (h : phaseAndDensity temp precip "piecewise_susong1999" = .ok r) (i : ι) :
    r.1 i = uncompacted (temp i) ∧ r.2 i = fraction (temp i) := by
  unfold phaseAndDensity at h
  rw [if_neg (by decide), if_pos rfl] at h
  cases h
  simp only [check_fst, check_snd]
  exact ⟨rfl, rfl⟩

/-- In the two models with a line between snow and rain, an error in the temperature changes the fraction of snow by at most three quarters per degree, and so the mass
of the snow by at most three quarters of the precipitation per degree; the other cells may be anything. Missing: the table of Susong 1999. -/
theorem C183_fraction_partial (m : String) (hm : m ≠ "susong1999") (temp temp' precip : ι → ℝ) (r r' : (ι → ℝ) × (ι → ℝ))
    (h : phaseAndDensity temp precip m = .ok r) (h' : phaseAndDensity temp' precip m = .ok r') (i : ι) (hp : 0 < precip i) :
    |r'.2 i - r.2 i| ≤ 3 / 4 * |temp' i - temp i| ∧ |precip i * r'.2 i - precip i * r.2 i| ≤ 3 / 4 * precip i * |temp' i - temp i| := by
  have key : |r'.2 i - r.2 i| ≤ 3 / 4 * |temp' i - temp i| := by
    rcases model_known h with rfl | rfl | rfl
    · exact absurd rfl hm
    · rw [(piecewise_images h i).2, (piecewise_images h' i).2]
      exact fraction_near _ _
    · rw [marks_fraction h i hp, marks_fraction h' i hp]
      exact fraction_near _ _
  refine ⟨key, ?_⟩
  rw [← mul_sub, abs_mul, abs_of_pos hp]
  have := mul_le_mul_of_nonneg_left key hp.le
  linarith

theorem sixteen : (16 : ℝ) ^ (7 / 4 : ℝ) = 128 := by
  rw [show (16 : ℝ) = 2 ^ (4 : ℝ) by norm_num, ← Real.rpow_mul (by norm_num)]
  norm_num

theorem log_sixteen : Real.log 16 ≤ 28 / 10 := by
  rw [show (16 : ℝ) = 2 ^ 4 by norm_num, Real.log_pow]
  have := Real.log_two_lt_d9
  push_cast
  linarith

theorem exponent_step (s t : ℝ) (h0 : -10 ≤ s) (h : s ≤ t) :
    exponent 0 (-10) (min 0 t) - exponent 0 (-10) (min 0 s) ≤ 75 / 1000 * (t - s) := by
  have e : ∀ x : ℝ, exponent 0 (-10) (min 0 x) = 7 / 4 + 75 / 1000 * min 0 x := by
    intro x
    unfold exponent
    have := min_le_left (0 : ℝ) x
    simp only
    rw [if_neg (by norm_num; linarith)]
    ring
  rw [e, e]
  rcases le_total 0 t with ht | ht <;> rcases le_total 0 s with hs | hs
  · rw [min_eq_left ht, min_eq_left hs]; linarith
  · rw [min_eq_left ht, min_eq_right hs]; linarith
  · rw [min_eq_right ht, min_eq_left hs]; linarith
  · rw [min_eq_right ht, min_eq_right hs]; linarith

/-- Between -10 and 1 degrees the density rises by at most 122 kg/m3 per degree. -/
theorem uncompacted_rise (s t : ℝ) (h0 : -10 ≤ s) (h : s ≤ t) (h1 : t ≤ 1) : uncompacted t - uncompacted s ≤ 122 * (t - s) := by
  unfold uncompacted density
  rw [max_eq_right h0, max_eq_right (h0.trans h), sub_zero, sub_zero]
  have hs : 0 < s + 15 := by linarith
  have ht : 0 < t + 15 := by linarith
  have est := exponent_step s t h0 h
  have b := exponent_bounds 0 (-10) (min 0 t) (by norm_num) (le_min (by norm_num) (h0.trans h))
  have bs := exponent_bounds 0 (-10) (min 0 s) (by norm_num) (le_min (by norm_num) h0)
  have top : (t + 15) ^ exponent 0 (-10) (min 0 t) ≤ 128 := by
    rw [← sixteen]
    exact (Real.rpow_le_rpow_of_exponent_le (by linarith) b.2).trans (Real.rpow_le_rpow ht.le (by linarith) (by norm_num))
  have low : 0 < (t + 15) ^ exponent 0 (-10) (min 0 t) := Real.rpow_pos_of_pos ht _
  generalize exponent 0 (-10) (min 0 t) = et at *
  generalize exponent 0 (-10) (min 0 s) = es at *
  have lg0 : 0 ≤ Real.log (s + 15) := Real.log_nonneg (by linarith)
  have lg1 : Real.log (s + 15) ≤ 28 / 10 := (Real.log_le_log hs (by linarith)).trans log_sixteen
  have lg2 : Real.log (t + 15) - Real.log (s + 15) ≤ (t - s) / 5 := by
    rw [← Real.log_div ht.ne' hs.ne']
    refine (Real.log_le_sub_one_of_pos (div_pos ht hs)).trans ?_
    rw [div_sub_one hs.ne', div_le_div_iff₀ hs (by norm_num)]
    nlinarith
  have hd : Real.log (t + 15) * et - Real.log (s + 15) * es ≤ 56 / 100 * (t - s) := by
    have k1 : (Real.log (t + 15) - Real.log (s + 15)) * et ≤ (t - s) / 5 * (7 / 4) :=
      mul_le_mul lg2 b.2 (by linarith [b.1]) (by linarith)
    have k2 : Real.log (s + 15) * (et - es) ≤ 28 / 10 * (75 / 1000 * (t - s)) :=
      (mul_le_mul_of_nonneg_left est lg0).trans (mul_le_mul_of_nonneg_right lg1 (by linarith))
    linarith
  have step : (t + 15) ^ et - (s + 15) ^ es ≤ (t + 15) ^ et * (56 / 100 * (t - s)) := by
    rw [Real.rpow_def_of_pos ht, Real.rpow_def_of_pos hs]
    have p := Real.exp_pos (Real.log (t + 15) * et)
    have e : Real.exp (Real.log (s + 15) * es) = Real.exp (Real.log (t + 15) * et) * Real.exp (-(Real.log (t + 15) * et - Real.log (s + 15) * es)) := by
      rw [← Real.exp_add]; congr 1; ring
    have q := Real.add_one_le_exp (-(Real.log (t + 15) * et - Real.log (s + 15) * es))
    rw [e]
    have := mul_le_mul_of_nonneg_left q p.le
    have := mul_le_mul_of_nonneg_left hd p.le
    linarith
  have last : (t + 15) ^ et * (56 / 100 * (t - s)) ≤ 128 * (56 / 100 * (t - s)) := mul_le_mul_of_nonneg_right top (by linarith)
  linarith

theorem uncompacted_near (s t : ℝ) (hs : s ≤ 1) (ht : t ≤ 1) : |uncompacted t - uncompacted s| ≤ 122 * |t - s| := by
  have main : ∀ a b : ℝ, a ≤ b → b ≤ 1 → |uncompacted b - uncompacted a| ≤ 122 * |b - a| := by
    intro a b hab hb
    rw [abs_of_nonneg (sub_nonneg.2 (uncompacted_mono a b hab)), abs_of_nonneg (sub_nonneg.2 hab)]
    have e : ∀ x : ℝ, uncompacted x = uncompacted (max (-10) x) := by
      intro x
      unfold uncompacted
      rw [max_eq_right (le_max_left (-10 : ℝ) x)]
    rw [e a, e b]
    refine (uncompacted_rise _ _ (le_max_left _ _) (max_le_max_left _ hab) (max_le (by norm_num) hb)).trans ?_
    have := abs_max_sub_max_le_abs b a (-10 : ℝ)
    rw [max_comm b, max_comm a, abs_of_nonneg (sub_nonneg.2 (max_le_max_left _ hab)), abs_of_nonneg (sub_nonneg.2 hab)] at this
    linarith
  rcases le_total s t with h | h
  · exact main s t h ht
  · rw [abs_sub_comm, abs_sub_comm t]; exact main t s h hs

/-- In the piecewise model an error in the temperature changes the density of the new snow by at most 122 kg/m3 per degree, at the temperatures at which it can snow (up to
1 degree). Missing: the two other models. -/
theorem C183_density_partial (temp temp' precip : ι → ℝ) (r r' : (ι → ℝ) × (ι → ℝ))
    (h : phaseAndDensity temp precip "piecewise_susong1999" = .ok r) (h' : phaseAndDensity temp' precip "piecewise_susong1999" = .ok r') (i : ι)
    (ht : temp i ≤ 1) (ht' : temp' i ≤ 1) : |r'.1 i - r.1 i| ≤ 122 * |temp' i - temp i| := by
  rw [(piecewise_images h i).1, (piecewise_images h' i).1]
  exact uncompacted_near _ _ ht ht'

/-- So the claim holds in full for the piecewise model. -/
theorem C183_piecewise : C183_full "piecewise_susong1999" := by
  refine ⟨3 / 4, ?_⟩
  intro temp temp' precip r r' hp ht ht' h h'
  refine ⟨(C183_fraction_partial _ (by decide) temp temp' precip r r' h h' () hp).1, ?_⟩
  have := C183_density_partial temp temp' precip r r' h h' () ht ht'
  have := abs_nonneg (temp' () - temp ())
  linarith

/-- In the table of Susong 1999 every temperature from -0.5 degrees to just below zero gives three quarters of snow of 200 kg/m3, and zero a quarter of 250 kg/m3. -/
theorem C183_table_fails (temp temp' precip : ι → ℝ) (hp : ∀ i, 0 ≤ precip i) (i : ι) (hpos : 0 < precip i) (h0 : temp' i = 0)
    (hn : temp i < 0) (h2 : -(1 / 2) ≤ temp i) (r r' : (ι → ℝ) × (ι → ℝ)) (h : phaseAndDensity temp precip "susong1999" = .ok r)
    (h' : phaseAndDensity temp' precip "susong1999" = .ok r') : r.2 i = 3 / 4 ∧ r'.2 i = 1 / 4 ∧ r.1 i = 200 ∧ r'.1 i = 250 := by
  obtain ⟨a, -⟩ := C81_density temp precip hp _ r h i hpos
  obtain ⟨b, -⟩ := C81_density temp' precip hp _ r' h' i hpos
  rw [(a rfl).1, (a rfl).2, (b rfl).1, (b rfl).2, h0]
  unfold documented
  rw [if_neg (by linarith), if_neg (by linarith), if_neg (by linarith), if_neg (by linarith), if_pos hn]
  norm_num

/-- In the Marks 2017 model the density of the new snow is at least 50 kg/m3 at every temperature below 1 degree, and zero at 1 degree. -/
theorem C183_marks_fails (temp temp' precip : ι → ℝ) (hp : ∀ i, 0 ≤ precip i) (i : ι) (hpos : 0 < precip i) (hn : temp i < 1) (h1 : 1 ≤ temp' i)
    (r r' : (ι → ℝ) × (ι → ℝ)) (h : phaseAndDensity temp precip "marks2017" = .ok r) (h' : phaseAndDensity temp' precip "marks2017" = .ok r') :
    50 ≤ r.1 i ∧ r'.1 i = 0 := by
  constructor
  · have hf : 0 < fraction (temp i) := by
      have gx : temp i ≤ max 0 ((temp i + 1) / 2) := by
        rcases le_total (temp i) 0 with g | g
        · exact g.trans (le_max_left _ _)
        · exact le_trans (by linarith) (le_max_right _ _)
      refine lt_of_lt_of_le ?_ (fraction_anti (temp i) _ gx)
      clear gx
      have g0 : 0 ≤ max 0 ((temp i + 1) / 2) := le_max_left _ _
      have g1 : max 0 ((temp i + 1) / 2) < 1 := max_lt (by norm_num) (by linarith)
      generalize max 0 ((temp i + 1) / 2) = x at g0 g1
      unfold fraction
      rw [max_eq_right (by linarith)]
      rcases eq_or_lt_of_le g0 with g | g
      · rw [← g, ps_mid _ _ (by norm_num) le_rfl]; norm_num
      · rw [ps_warm _ _ g (by linarith)]
        norm_num
        linarith
    obtain ⟨-, -, c⟩ := C81_density temp precip hp _ r h i hpos
    rw [c rfl hf]
    have u := uncompacted_ge (temp i)
    have o : 0 ≤ overburden (temp i) (precip i) := by
      unfold overburden
      have := (fraction_range (temp i)).1
      positivity
    have m : 0 ≤ metamorphism (temp i) := by
      unfold metamorphism
      have : 0 ≤ (if 100 ≤ uncompacted (temp i) / 1000 * 1000 then Real.exp (-(46 / 1000) * (uncompacted (temp i) / 1000 * 1000 - 100)) else 1 : ℝ) := by
        split <;> positivity
      positivity
    nlinarith
  · unfold phaseAndDensity at h'
    rw [if_neg (by decide), if_neg (by decide), if_pos rfl] at h'
    cases h'
    refine C32_no_snow temp' precip i (.inr ?_)
    unfold fraction
    exact (C30_ends 0 _ (by norm_num)).2 (by rw [max_eq_right (by linarith)]; linarith)

/-- A number that no multiple of a small distance reaches. -/
theorem close_enough (L : ℝ) : ∃ t : ℝ, 0 < t ∧ t ≤ 1 / 2 ∧ L * t < 1 / 2 := by
  refine ⟨1 / (2 * (|L| + 1)), by positivity, ?_, ?_⟩
  · rw [div_le_div_iff₀ (by positivity) (by norm_num)]
    have := abs_nonneg L
    linarith
  · rw [mul_one_div, div_lt_div_iff₀ (by positivity) (by norm_num)]
    have := le_abs_self L
    linarith

theorem C183_fails : ¬ C183_full "susong1999" ∧ ¬ C183_full "marks2017" := by
  constructor
  · rintro ⟨L, hL⟩
    obtain ⟨t, t0, t1, t2⟩ := close_enough L
    obtain ⟨r, hr⟩ := (C81_known (ι := Unit) (fun _ => -t) (fun _ => 5) "susong1999").1 (.inl rfl)
    obtain ⟨r', hr'⟩ := (C81_known (ι := Unit) (fun _ => 0) (fun _ => 5) "susong1999").1 (.inl rfl)
    obtain ⟨a, b, -⟩ := C183_table_fails (fun _ => -t) (fun _ => 0) (fun _ => 5) (fun _ => by norm_num) () (by norm_num) rfl (by simpa using t0)
      (by simpa using t1) r r' hr hr'
    have := (hL _ _ _ r r' (by norm_num) (by linarith) (by norm_num) hr hr').1
    rw [a, b, show (0 : ℝ) - -t = t by ring, abs_of_pos t0] at this
    norm_num [abs_of_neg] at this
    linarith
  · rintro ⟨L, hL⟩
    obtain ⟨t, t0, t1, t2⟩ := close_enough (1000 * L)
    obtain ⟨r, hr⟩ := (C81_known (ι := Unit) (fun _ => 1 - t) (fun _ => 5) "marks2017").1 (.inr (.inr rfl))
    obtain ⟨r', hr'⟩ := (C81_known (ι := Unit) (fun _ => 1) (fun _ => 5) "marks2017").1 (.inr (.inr rfl))
    obtain ⟨a, b⟩ := C183_marks_fails (fun _ => 1 - t) (fun _ => 1) (fun _ => 5) (fun _ => by norm_num) () (by norm_num) (by linarith) le_rfl r r' hr hr'
    have := (hL _ _ _ r r' (by norm_num) (by linarith) le_rfl hr hr').2
    rw [b, show (1 : ℝ) - (1 - t) = t by ring, abs_of_pos t0, zero_sub, abs_neg, abs_of_nonneg (by linarith)] at this
    linarith

/-! ### The hypotheses are met -/

/-- Half a degree of error in one of two cells: at most 37.5 percent of the precipitation. -/
example : ∃ r r' : (Bool → ℝ) × (Bool → ℝ), phaseAndDensity (fun _ => 1 / 4) (fun _ => 20) "marks2017" = .ok r ∧
    phaseAndDensity (fun b => if b then 3 / 4 else 1 / 4) (fun _ => 20) "marks2017" = .ok r' ∧ |20 * r'.2 true - 20 * r.2 true| ≤ 3 / 4 * 20 * |3 / 4 - 1 / 4| := by
  obtain ⟨r, hr⟩ := (C81_known (ι := Bool) (fun _ => 1 / 4) (fun _ => 20) "marks2017").1 (.inr (.inr rfl))
  obtain ⟨r', hr'⟩ := (C81_known (ι := Bool) (fun b => if b then 3 / 4 else 1 / 4) (fun _ => 20) "marks2017").1 (.inr (.inr rfl))
  exact ⟨r, r', hr, hr', (C183_fraction_partial _ (by decide) _ _ _ r r' hr hr' true (by norm_num)).2⟩

/-- The density of the piecewise model. -/
example : ∃ r r' : (Bool → ℝ) × (Bool → ℝ), phaseAndDensity (fun _ => -3) (fun _ => 20) "piecewise_susong1999" = .ok r ∧
    phaseAndDensity (fun b => if b then -2 else -3) (fun _ => 20) "piecewise_susong1999" = .ok r' ∧ |r'.1 true - r.1 true| ≤ 122 * |(-2 : ℝ) - -3| := by
  obtain ⟨r, hr⟩ := (C81_known (ι := Bool) (fun _ => -3) (fun _ => 20) "piecewise_susong1999").1 (.inr (.inl rfl))
  obtain ⟨r', hr'⟩ := (C81_known (ι := Bool) (fun b => if b then -2 else -3) (fun _ => 20) "piecewise_susong1999").1 (.inr (.inl rfl))
  exact ⟨r, r', hr, hr', C183_density_partial _ _ _ r r' hr hr' true (by norm_num) (by norm_num)⟩

end Verif.Nasde
