import Mathlib.Tactic.IntervalCases
import Verif.WetBulbConv
import Verif.VaporDecay
import Verif.VaporSlope

/-!
Helper lemmas: the wet-bulb loop ends within its ten rounds.
-/

namespace Verif.WetBulb
open Verif.Vapor

/-- What the bounds on the relative corrections of ten rounds must satisfy. -/
structure Chain (Ab r c : ℝ) (U m : Nat → ℝ) : Prop where
  first : Ab / (1 + Ab) ≤ U 0
  ok : ∀ n < 9, 0 < U n ∧ U n ≤ 1 ∧ 0 ≤ m n ∧ m n ≤ 1 ∧ m n * U n < 1 ∧ c * U n < 1 ∧
    Real.exp (-(U n * r)) ≤ 1 - m n * U n ∧
    Ab * U n * (1 - m n) / (1 + Ab * (1 - m n * U n)) / (1 - c * U n) ^ 2 ≤ U (n + 1)

theorem newton_ge (xlh ps ea ta t U c : ℝ) (hL : 0 < xlh) (ht : 0 < t) (hc : 4615 / 10 * t ≤ c * xlh)
    (hU0 : 0 ≤ U) (hrel : rel xlh ps ea ta t ≤ U) :
    t * (1 - c * U) ≤ newton xlh ps ea ta t (sat t) := by
  have hg : 0 < xlh / (4615 / 10 * (t * t)) := by positivity
  unfold rel at hrel
  have h1 : t - newton xlh ps ea ta t (sat t) ≤ U / (xlh / (4615 / 10 * (t * t))) := by
    rw [le_div_iff₀ hg, mul_comm]; exact hrel
  have h2 : U / (xlh / (4615 / 10 * (t * t))) ≤ c * U * t := by
    rw [div_div_eq_mul_div, div_le_iff₀ hL]
    have := mul_le_mul_of_nonneg_right hc (mul_nonneg hU0 ht.le)
    linarith
  linarith

/-- The routine's equation: the psychrometer value. -/
noncomputable def psychro (ps ea ta t : ℝ) : ℝ := (t - ta) + ps * (sat t - ea)

theorem psychro_mono (ps ea ta s t : ℝ) (hp : 0 < ps) (hs : 0 < s) (hst : s ≤ t) (ht : t ≤ 1000) :
    psychro ps ea ta s + (t - s) ≤ psychro ps ea ta t := by
  have : sat s ≤ sat t := by
    rcases eq_or_lt_of_le hst with e | e
    · rw [e]
    · exact (C41_increasing s t hs e ht).le
  unfold psychro
  nlinarith [mul_le_mul_of_nonneg_left this hp.le]

/-- A downward correction starts above the dew point. -/
theorem above_dew (xlh ps ta dpt t : ℝ) (hL : 0 < xlh) (hp : 0 < ps) (ht : 0 < t) (hd : dpt ≤ ta) (hta : ta ≤ 1000)
    (h : 0 ≤ t - newton xlh ps (sat dpt) ta t (sat t)) : dpt ≤ t := by
  by_contra hn
  have hn' := not_le.1 hn
  have h1 := psychro_mono ps (sat dpt) ta t dpt hp ht hn'.le (by linarith)
  have h2 : psychro ps (sat dpt) ta dpt ≤ 0 := by unfold psychro; simp; linarith
  have hA := slopeA_pos xlh ps t hL hp ht
  rw [corr_eq] at h
  have h3 : (t - ta) + ps * (sat t - sat dpt) < 0 := by unfold psychro at h1 h2; linarith
  have := div_neg_of_neg_of_pos h3 (show 0 < 1 + slopeA xlh ps t by linarith)
  linarith

theorem go_returns (xlh ps ta dpt tol B Ab r c : ℝ) (U m : Nat → ℝ) (hL : 0 < xlh) (hp : 0 < ps)
    (hd : 0 < dpt) (hdt : dpt ≤ ta) (hta' : ta ≤ 1000) (hc0 : 0 ≤ c) (hc1 : c < 1)
    (htol : 0 < tol) (hB : 0 < B)
    (hsat : ∀ t t', 0 < t' → t' ≤ t → t ≤ ta → sat t' ≤ sat t * Real.exp (-(B * (1 / t' - 1 / t))))
    (hA : ∀ t, 0 < t → t ≤ ta → slopeA xlh ps t ≤ Ab)
    (hr : r ≤ B * (4615 / 10) / xlh) (hc : 4615 / 10 * ta ≤ c * xlh) (hch : Chain Ab r c U m)
    (hlast : U 9 * (4615 / 10 * (ta * ta)) ≤ tol * xlh) (h90 : 0 ≤ U 9) (h91 : U 9 ≤ 1)
    (k : Nat) (hk : k ≤ 9) :
    ∀ (t esat dti : ℝ), dpt * (1 - c) ≤ t → t ≤ ta → (t = ta → esat = sat ta) → tol < dti →
      rel xlh ps (sat dpt) ta t ≤ U (9 - k) →
      ∃ w v j, go xlh ps (sat dpt) ta tol (k + 1) (9 - k) t esat dti = .value v (w - v) j ∧ 0 < v ∧
        dpt * (1 - c) ≤ w ∧ w ≤ ta ∧ v = newton xlh ps (sat dpt) ta w (sat w) ∧ w - v ≤ tol := by
  have hlo : 0 < dpt * (1 - c) := mul_pos hd (by linarith)
  have posn : ∀ t V, dpt * (1 - c) ≤ t → t ≤ ta → 0 ≤ V → V ≤ 1 → rel xlh ps (sat dpt) ta t ≤ V →
      0 < newton xlh ps (sat dpt) ta t (sat t) := by
    intro t V h1 h2 h3 h4 h5
    have ht : 0 < t := by linarith
    refine lt_of_lt_of_le ?_ (newton_ge xlh ps (sat dpt) ta t V c hL ht (by linarith) h3 h5)
    apply mul_pos ht
    have := mul_le_mul_of_nonneg_left h4 hc0
    linarith
  induction k with
  | zero =>
    intro t esat dti ht0 hta hes h hrel
    have ht : 0 < t := by linarith
    rw [go.eq_def]
    simp only
    have he : (if t ≠ ta then satiC t else some esat) = some (sat t) := by
      by_cases h2 : t = ta
      · rw [if_neg (by simpa using h2), hes h2, h2]
      · rw [if_pos h2]; unfold satiC; rw [if_neg (not_le.2 ht)]
    rw [if_pos h, he]
    simp only
    rw [go.eq_def]
    simp only
    have hg : 0 < xlh / (4615 / 10 * (t * t)) := by positivity
    have hs : t - newton xlh ps (sat dpt) ta t (sat t) ≤ tol := by
      unfold rel at hrel
      have h1 : t - newton xlh ps (sat dpt) ta t (sat t) ≤ U 9 / (xlh / (4615 / 10 * (t * t))) := by
        rw [le_div_iff₀ hg, mul_comm]; exact hrel
      refine le_trans h1 ?_
      rw [div_div_eq_mul_div, div_le_iff₀ hL]
      have htt : t * t ≤ ta * ta := mul_le_mul hta hta ht.le (by linarith)
      refine le_trans (mul_le_mul_of_nonneg_left ?_ h90) hlast
      linarith
    rw [if_neg (not_lt.2 hs)]
    exact ⟨t, _, _, rfl, posn t (U 9) ht0 hta h90 h91 hrel, ht0, hta, rfl, hs⟩
  | succ k ih =>
    intro t esat dti ht0 hta hes h hrel
    have ht : 0 < t := by linarith
    rw [go.eq_def]
    simp only
    have he : (if t ≠ ta then satiC t else some esat) = some (sat t) := by
      by_cases h2 : t = ta
      · rw [if_neg (by simpa using h2), hes h2, h2]
      · rw [if_pos h2]; unfold satiC; rw [if_neg (not_le.2 ht)]
    rw [if_pos h, he]
    simp only
    obtain ⟨o1, o2, o3, o4, o5, o6, o7, o8⟩ := hch.ok (9 - (k + 1)) (by omega)
    have en : 9 - (k + 1) + 1 = 9 - k := by omega
    rw [en] at o8 ⊢
    by_cases hs : tol < t - newton xlh ps (sat dpt) ta t (sat t)
    · have hpos : 0 < t - newton xlh ps (sat dpt) ta t (sat t) := by linarith
      have hct : 4615 / 10 * t ≤ c * xlh := by linarith
      have hexp : Real.exp (-(U (9 - (k + 1)) * (B * (4615 / 10) / xlh))) ≤
          1 - m (9 - (k + 1)) * U (9 - (k + 1)) := by
        refine le_trans (Real.exp_le_exp.2 ?_) o7
        have := mul_le_mul_of_nonneg_left hr o1.le
        linarith
      have st := rel_step xlh ps (sat dpt) ta t B Ab _ _ c hL hp ht hB
        (fun t' h1 h2 => hsat t t' h1 h2 hta) (hA t ht hta) o1 o2 o3 o4 o5 hexp hct o6 hpos hrel
      have hge := newton_ge xlh ps (sat dpt) ta t _ c hL ht hct o1.le hrel
      have hda := above_dew xlh ps ta dpt t hL hp ht hdt hta' hpos.le
      have hlow : dpt * (1 - c) ≤ newton xlh ps (sat dpt) ta t (sat t) := by
        refine le_trans ?_ hge
        have := mul_le_mul_of_nonneg_left o2 hc0
        exact mul_le_mul hda (by linarith) (by linarith) ht.le
      refine ih (by omega) _ _ _ hlow (by linarith) ?_ hs (le_trans st.2 o8)
      intro e
      exfalso
      linarith
    · rw [go.eq_def]
      simp only
      rw [if_neg hs]
      exact ⟨t, _, _, rfl, posn t _ ht0 hta o1.le o2 hrel, ht0, hta, rfl, not_lt.1 hs⟩

/-- Upper bound for `exp (-x)`. -/
theorem exp_neg_bound (x y : ℝ) (hx : 0 ≤ x) (h : 1 ≤ y * (1 + x + x ^ 2 / 2 + x ^ 3 / 6 + x ^ 4 / 24))
    (hy : 0 < y) : Real.exp (-x) ≤ y := by
  have h2 := Real.sum_le_exp_of_nonneg hx 5
  simp only [Finset.sum_range_succ, Finset.sum_range_zero, Nat.factorial] at h2
  rw [Real.exp_neg]
  have h3 : 1 + x + x ^ 2 / 2 + x ^ 3 / 6 + x ^ 4 / 24 ≤ Real.exp x := by
    refine le_trans (le_of_eq ?_) h2
    norm_num
  rw [inv_le_iff_one_le_mul₀ (Real.exp_pos x)]
  exact le_trans h (mul_le_mul_of_nonneg_left h3 hy.le)

/-- Bounds for air between 300 and 320.2 K. -/
noncomputable def hotU : Nat → ℝ
  | 0 => 9573 / 10 ^ 4
  | 1 => 9301 / 10 ^ 4
  | 2 => 8696 / 10 ^ 4
  | 3 => 7450 / 10 ^ 4
  | 4 => 5291 / 10 ^ 4
  | 5 => 2631 / 10 ^ 4
  | 6 => 776 / 10 ^ 4
  | 7 => 145 / 10 ^ 4
  | 8 => 223 / 10 ^ 5
  | _ => 330 / 10 ^ 6

noncomputable def hotM : Nat → ℝ
  | 0 => 5795 / 10 ^ 4
  | 1 => 5854 / 10 ^ 4
  | 2 => 5988 / 10 ^ 4
  | 3 => 6277 / 10 ^ 4
  | 4 => 6824 / 10 ^ 4
  | 5 => 7591 / 10 ^ 4
  | 6 => 8196 / 10 ^ 4
  | 7 => 8417 / 10 ^ 4
  | _ => 8461 / 10 ^ 4

theorem hot_chain : Chain (224 / 10) (8469 / 10000) (627 / 10000) hotU hotM := by
  refine ⟨by norm_num [hotU], fun n hn => ?_⟩
  interval_cases n <;> simp only [hotU, hotM] <;>
    refine ⟨by norm_num, by norm_num, by norm_num, by norm_num, by norm_num, by norm_num,
      exp_neg_bound _ _ (by norm_num) (by norm_num) (by norm_num), by norm_num⟩

/-- Bounds for air between freezing and 300 K. -/
noncomputable def coldU : Nat → ℝ
  | 0 => 9039 / 10 ^ 4
  | 1 => 7263 / 10 ^ 4
  | 2 => 4597 / 10 ^ 4
  | 3 => 1939 / 10 ^ 4
  | 4 => 500 / 10 ^ 4
  | 5 => 926 / 10 ^ 5
  | 6 => 155 / 10 ^ 5
  | 7 => 253 / 10 ^ 6
  | 8 => 4111 / 10 ^ 8
  | _ => 668 / 10 ^ 8

noncomputable def coldM : Nat → ℝ
  | 0 => 5787 / 10 ^ 4
  | 1 => 6177 / 10 ^ 4
  | 2 => 6833 / 10 ^ 4
  | 3 => 7584 / 10 ^ 4
  | 4 => 8038 / 10 ^ 4
  | 5 => 8172 / 10 ^ 4
  | 6 => 8198 / 10 ^ 4
  | 7 => 8203 / 10 ^ 4
  | _ => 8203 / 10 ^ 4

theorem cold_chain : Chain (94 / 10) (8204 / 10000) (573 / 10000) coldU coldM := by
  refine ⟨by norm_num [coldU], fun n hn => ?_⟩
  interval_cases n <;> simp only [coldU, coldM] <;>
    refine ⟨by norm_num, by norm_num, by norm_num, by norm_num, by norm_num, by norm_num,
      exp_neg_bound _ _ (by norm_num) (by norm_num) (by norm_num), by norm_num⟩

/-- Bounds for air up to freezing. -/
noncomputable def iceU : Nat → ℝ
  | 0 => 6775 / 10 ^ 4
  | 1 => 2438 / 10 ^ 4
  | 2 => 440 / 10 ^ 4
  | 3 => 489 / 10 ^ 5
  | 4 => 482 / 10 ^ 6
  | 5 => 4685 / 10 ^ 8
  | 6 => 455 / 10 ^ 8
  | 7 => 45 / 10 ^ 8
  | 8 => 5 / 10 ^ 8
  | _ => 1 / 10 ^ 8

noncomputable def iceM : Nat → ℝ
  | 0 => 6497 / 10 ^ 4
  | 1 => 7732 / 10 ^ 4
  | 2 => 8408 / 10 ^ 4
  | 3 => 8550 / 10 ^ 4
  | 4 => 8566 / 10 ^ 4
  | 5 => 8567 / 10 ^ 4
  | 6 => 8567 / 10 ^ 4
  | 7 => 8567 / 10 ^ 4
  | _ => 8567 / 10 ^ 4

theorem ice_chain : Chain (21 / 10) (8568 / 10000) (451 / 10000) iceU iceM := by
  refine ⟨by norm_num [iceU], fun n hn => ?_⟩
  interval_cases n <;> simp only [iceU, iceM] <;>
    refine ⟨by norm_num, by norm_num, by norm_num, by norm_num, by norm_num, by norm_num,
      exp_neg_bound _ _ (by norm_num) (by norm_num) (by norm_num), by norm_num⟩

theorem frac_bounds {d a : ℝ} (hd : 0 ≤ d) (ha : 0 < a) : 0 ≤ d / (a + d) ∧ d / (a + d) ≤ 1 := by
  constructor
  · positivity
  · rw [div_le_one (by linarith)]; linarith

theorem latent_hot (ta dpt : ℝ) (h1 : 300 ≤ ta) (h2 : ta ≤ 3202 / 10) (h3 : 199 ≤ dpt) (h4 : dpt ≤ ta) :
    2360000 ≤ latent ta dpt ∧ latent ta dpt ≤ 2820000 := by
  have hf : freeze = 27316 / 100 := rfl
  unfold latent lhVap lhFus
  rw [if_neg (by rw [hf]; linarith), hf]
  split
  · rename_i h5
    have e : (27316 / 100 - dpt) / (ta - dpt) = (27316 / 100 - dpt) / ((ta - 27316 / 100) + (27316 / 100 - dpt)) := by
      congr 1; ring
    rw [e]
    obtain ⟨f0, f1⟩ := frac_bounds (show 0 ≤ 27316 / 100 - dpt by linarith)
      (show 0 < ta - 27316 / 100 by linarith)
    have f2 : (27316 / 100 - dpt) / ((ta - 27316 / 100) + (27316 / 100 - dpt)) ≤ 735 / 1000 := by
      rw [div_le_iff₀ (by linarith)]; linarith
    generalize (27316 / 100 - dpt) / ((ta - 27316 / 100) + (27316 / 100 - dpt)) = f at f0 f1 f2
    constructor
    · nlinarith
    · have : f * (333600 + 16667 / 100 * (27316 / 100 - (27316 / 100 + dpt) / 2)) ≤ 735 / 1000 * 339790 := by
        apply mul_le_mul f2 (by linarith) (by linarith) (by norm_num)
      linarith
  · rename_i h5
    constructor <;> linarith

theorem latent_cold (ta dpt : ℝ) (h1 : freeze < ta) (h2 : ta ≤ 300) (h3 : 199 ≤ dpt) (h4 : dpt ≤ ta) :
    2420000 ≤ latent ta dpt ∧ latent ta dpt ≤ 2970000 := by
  have hf : freeze = 27316 / 100 := rfl
  unfold latent lhVap lhFus
  rw [if_neg (not_le.2 h1)]
  rw [hf] at h1 ⊢
  split
  · rename_i h5
    have e : (27316 / 100 - dpt) / (ta - dpt) = (27316 / 100 - dpt) / ((ta - 27316 / 100) + (27316 / 100 - dpt)) := by
      congr 1; ring
    rw [e]
    obtain ⟨f0, f1⟩ := frac_bounds (show 0 ≤ 27316 / 100 - dpt by linarith)
      (show 0 < ta - 27316 / 100 by linarith)
    generalize (27316 / 100 - dpt) / ((ta - 27316 / 100) + (27316 / 100 - dpt)) = f at f0 f1
    constructor
    · nlinarith
    · have : f * (333600 + 16667 / 100 * (27316 / 100 - (27316 / 100 + dpt) / 2)) ≤ 1 * 339790 := by
        apply mul_le_mul f1 (by linarith) (by linarith) (by norm_num)
      linarith
  · rename_i h5
    constructor <;> linarith

theorem latent_ice (ta dpt : ℝ) (h2 : ta ≤ freeze) (h3 : 199 ≤ dpt) (h4 : dpt ≤ ta) :
    2800000 ≤ latent ta dpt ∧ latent ta dpt ≤ 3070000 := by
  have hf : freeze = 27316 / 100 := rfl
  unfold latent lhVap lhFus
  rw [if_pos h2]
  rw [hf] at h2 ⊢
  constructor <;> linarith

/-- `psyc * dedt` is largest at the upper end. -/
theorem slopeA_le (xlh ps t T B : ℝ) (hL : 0 < xlh) (hp : 0 < ps) (ht : 0 < t) (htT : t ≤ T) (hB : 2 * T ≤ B)
    (hsat : sat t ≤ sat T * Real.exp (-(B * (1 / t - 1 / T)))) :
    slopeA xlh ps t ≤ ps * xlh * sat T / (4615 / 10 * (T * T)) := by
  have hT : 0 < T := by linarith
  have hs := C41_positive T
  have h1 : Real.exp (-(B * (1 / t - 1 / T))) ≤ (t / T) ^ 2 := by
    have a : 2 * (T / t - 1) ≤ B * (1 / t - 1 / T) := by
      have e : T / t - 1 = T * (1 / t - 1 / T) := by field_simp
      rw [e, ← mul_assoc]
      apply mul_le_mul_of_nonneg_right hB
      rw [sub_nonneg]; exact one_div_le_one_div_of_le ht htT
    have b : Real.exp (-(T / t - 1)) ≤ t / T := by
      rw [Real.exp_neg]
      have := Real.add_one_le_exp (T / t - 1)
      have e : t / T = (T / t)⁻¹ := by rw [inv_div]
      rw [e]
      exact inv_anti₀ (by positivity) (by linarith)
    calc Real.exp (-(B * (1 / t - 1 / T))) ≤ Real.exp (-(2 * (T / t - 1))) :=
          Real.exp_le_exp.2 (by linarith)
      _ = Real.exp (-(T / t - 1)) ^ 2 := by rw [← Real.exp_nat_mul]; congr 1; push_cast; ring
      _ ≤ (t / T) ^ 2 := pow_le_pow_left₀ (Real.exp_pos _).le b 2
  have h2 : sat t ≤ sat T * (t / T) ^ 2 := le_trans hsat (mul_le_mul_of_nonneg_left h1 hs.le)
  unfold slopeA
  have h3 : ps * (xlh * (sat t / (4615 / 10 * (t * t)))) ≤
      ps * (xlh * (sat T * (t / T) ^ 2 / (4615 / 10 * (t * t)))) := by
    apply mul_le_mul_of_nonneg_left _ hp.le
    apply mul_le_mul_of_nonneg_left _ hL.le
    exact div_le_div_of_nonneg_right h2 (by positivity)
  refine le_trans h3 (le_of_eq ?_)
  field_simp

theorem psyc_pos (xlh press : ℝ) (hL : 0 < xlh) (hp : 0 < press) : 0 < psyc xlh press := by
  unfold psyc; positivity

/-- Bound for the factor of the saturation pressure. -/
theorem factor_le (xlh press hi S T Ab : ℝ) (hL : 0 < xlh) (hhi : xlh ≤ hi) (hP : 50000 ≤ press) (hS0 : 0 < S)
    (s : ℝ) (hs0 : 0 < s) (hs : s ≤ S) (hT : 0 < T)
    (h : 180153 / 289644 * (hi / (1005 * 50000)) * hi * S / (4615 / 10 * (T * T)) ≤ Ab) :
    psyc xlh press * xlh * s / (4615 / 10 * (T * T)) ≤ Ab := by
  refine le_trans (div_le_div_of_nonneg_right ?_ (by positivity)) h
  have hp : 0 < press := by linarith
  have h1 : psyc xlh press ≤ 180153 / 289644 * (hi / (1005 * 50000)) := by
    unfold psyc
    apply mul_le_mul_of_nonneg_left _ (by norm_num)
    apply div_le_div₀ (by linarith) hhi (by norm_num) (by linarith)
  have h0 := psyc_pos xlh press hL hp
  have hi0 : 0 < hi := by linarith
  apply mul_le_mul _ hs hs0.le (by positivity)
  exact mul_le_mul h1 hhi hL.le (by positivity)

/-- `exp (-x) ≤ 1 - x / 2 ...` as needed below. -/
theorem exp_small (u r : ℝ) (h0 : 0 ≤ u) (h1 : u ≤ 1 / 5) (hr : 8 / 10 ≤ r) : u - 1 + Real.exp (-(2 * r * u)) ≤ 0 := by
  have h2 : Real.exp (-(1 / 5 * (16 / 10))) ≤ 1 - 1 * (1 / 5) :=
    exp_neg_bound _ _ (by norm_num) (by norm_num) (by norm_num)
  have h3 := exp_chord (16 / 10) (1 / 5) 1 u (by norm_num) h2 h0 h1
  have h4 : Real.exp (-(2 * r * u)) ≤ Real.exp (-(u * (16 / 10))) := by
    apply Real.exp_le_exp.2; nlinarith
  linarith

/-- Where the value returned lies: the psychrometer value is not negative from `δ` above it and not positive
from `δ` below it. -/
theorem accurate (xlh ps ta dpt w v tol B c : ℝ) (hL : 0 < xlh) (hp : 0 < ps) (hd : 199 ≤ dpt) (hdt : dpt ≤ ta)
    (hta : ta ≤ 330) (hc1 : c ≤ 1 / 10) (htol : 0 < tol) (htol1 : tol < 1) (hB : 16 * ta ≤ B)
    (hsat : ∀ t t', 0 < t' → t' ≤ t → t ≤ ta → sat t' ≤ sat t * Real.exp (-(B * (1 / t' - 1 / t))))
    (hr : 8 / 10 * xlh ≤ B * (4615 / 10)) (hxl : xlh ≤ 3070000)
    (hw0 : dpt * (1 - c) ≤ w) (hw : w ≤ ta) (hv0 : 0 < v) (hv : v = newton xlh ps (sat dpt) ta w (sat w))
    (hs : w - v ≤ tol) (δ : ℝ) (hδ : δ = max tol |w - v|) :
    (∀ t, v + δ ≤ t → t ≤ 1000 → 0 ≤ psychro ps (sat dpt) ta t) ∧
    (∀ t, 0 < t → t ≤ v - δ → psychro ps (sat dpt) ta t ≤ 0) := by
  have hw180 : 179 ≤ w := by nlinarith
  have hw' : 0 < w := by linarith
  have hA := slopeA_pos xlh ps w hL hp hw'
  have hsw := C41_positive w
  have hδ1 : tol ≤ δ := hδ ▸ le_max_left _ _
  have hδ2 : |w - v| ≤ δ := hδ ▸ le_max_right _ _
  have hFw : psychro ps (sat dpt) ta w = (1 + slopeA xlh ps w) * (w - v) := by
    unfold psychro
    have := corr_eq xlh ps (sat dpt) ta w
    rw [← hv] at this
    rw [this, mul_div_cancel₀ _ (by linarith : (1 + slopeA xlh ps w) ≠ 0)]
  have hAe : slopeA xlh ps w = xlh / (4615 / 10 * (w * w)) * (ps * sat w) := by
    unfold slopeA; field_simp
  rcases le_or_gt 0 (w - v) with hpos | hneg
  · constructor
    · intro t h1 h2
      have h3 : w ≤ t := by linarith [le_abs_self (w - v)]
      have h4 := psychro_mono ps (sat dpt) ta w t hp hw' h3 h2
      have h5 : 0 ≤ psychro ps (sat dpt) ta w := by rw [hFw]; positivity
      linarith
    · intro t h1 h2
      have hdw := above_dew xlh ps ta dpt w hL hp hw' hdt (by linarith) (by rw [← hv]; exact hpos)
      have htw : t ≤ w := by linarith
      have h3 := hsat w t h1 htw hw
      -- the sum of the two distances
      have h4 : 2 * (w - v) ≤ w - t := by linarith
      set g := xlh / (4615 / 10 * (w * w)) with hg
      have hg0 : 0 < g := by positivity
      have hu0 : 0 ≤ g * (w - v) := mul_nonneg hg0.le hpos
      have hu1 : g * (w - v) ≤ 1 / 5 := by
        have a : g ≤ 1 / 5 := by
          rw [hg, div_le_iff₀ (by positivity)]
          have : 199 * 199 ≤ w * w := mul_le_mul (by linarith) (by linarith) (by norm_num) hw'.le
          linarith
        have b : w - v ≤ 1 := by linarith
        calc g * (w - v) ≤ 1 / 5 * 1 := mul_le_mul a b hpos (by norm_num)
          _ = 1 / 5 := by norm_num
      have hrr : 8 / 10 ≤ B * (4615 / 10) / xlh := by rw [le_div_iff₀ hL]; exact hr
      have h5 := exp_small _ _ hu0 hu1 hrr
      have h6 : Real.exp (-(B * (1 / t - 1 / w))) ≤ Real.exp (-(2 * (B * (4615 / 10) / xlh) * (g * (w - v)))) := by
        apply Real.exp_le_exp.2
        have e1 : 2 * (B * (4615 / 10) / xlh) * (g * (w - v)) = B * (2 * (w - v) / (w * w)) := by
          rw [hg]; field_simp
        have e2 : 1 / t - 1 / w = (w - t) / (t * w) := by field_simp
        rw [e1, e2]
        have a : 2 * (w - v) / (w * w) ≤ (w - t) / (t * w) := by
          apply div_le_div₀ (by linarith) h4 (by positivity)
          exact mul_le_mul_of_nonneg_right htw hw'.le
        have := mul_le_mul_of_nonneg_left a (show 0 ≤ B by linarith)
        linarith
      have h7 : sat t ≤ sat w * (1 - g * (w - v)) := by
        refine le_trans h3 (mul_le_mul_of_nonneg_left ?_ hsw.le)
        linarith
      have h8 : psychro ps (sat dpt) ta t = psychro ps (sat dpt) ta w - (w - t) - ps * (sat w - sat t) := by
        unfold psychro; ring
      rw [h8, hFw, hAe]
      have h9 : ps * sat t ≤ ps * (sat w * (1 - g * (w - v))) := mul_le_mul_of_nonneg_left h7 hp.le
      have h10 : w - v ≤ w - t := by linarith
      nlinarith
  · constructor
    · intro t h1 h2
      have habs : |w - v| = v - w := by rw [abs_of_neg hneg]; ring
      rw [habs] at hδ2
      set y := v - w with hy
      have hy0 : 0 < y := by rw [hy]; linarith
      have ht0 : w + 2 * y ≤ t := by linarith
      rcases le_or_gt ta t with htt | htt
      · have h3 := psychro_mono ps (sat dpt) ta ta t hp (by linarith) htt h2
        have h4 : 0 ≤ psychro ps (sat dpt) ta ta := by
          unfold psychro
          have : sat dpt ≤ sat ta := by
            rcases eq_or_lt_of_le hdt with e | e
            · rw [e]
            · exact (C41_increasing dpt ta (by linarith) e (by linarith)).le
          have := mul_nonneg hp.le (sub_nonneg.2 this)
          linarith
        linarith
      · set t0 := w + 2 * y with ht0d
        have htp : 0 < t0 := by linarith
        have h3 := psychro_mono ps (sat dpt) ta t0 t hp htp ht0 h2
        have h4 := hsat t0 w hw' (by linarith) (by linarith)
        -- growth from w to t0
        have e2 : 1 / w - 1 / t0 = 2 * y / (w * t0) := by rw [ht0d]; field_simp; ring
        set x := B * (1 / w - 1 / t0) with hx
        have hx0 : 0 ≤ x := by
          rw [hx, e2]; apply mul_nonneg (by linarith); positivity
        have h5 : sat w * (1 + x + x ^ 2 / 2) ≤ sat t0 := by
          have a : Real.exp x * (sat t0 * Real.exp (-x)) = sat t0 := by
            rw [mul_comm, mul_assoc, ← Real.exp_add]; simp
          have b := Real.quadratic_le_exp_of_nonneg hx0
          calc sat w * (1 + x + x ^ 2 / 2) ≤ sat w * Real.exp x := mul_le_mul_of_nonneg_left b hsw.le
            _ = Real.exp x * sat w := mul_comm _ _
            _ ≤ Real.exp x * (sat t0 * Real.exp (-x)) := mul_le_mul_of_nonneg_left h4 (Real.exp_pos x).le
            _ = sat t0 := a
        have hgx : xlh / (4615 / 10 * (w * w)) * y ≤ x + x ^ 2 / 2 := by
          -- with τ = t0 / w and z = B y / w^2: (2 z / τ) (1 + z / τ) ≥ 5 z / 4
          set z := B * y / (w * w) with hz
          set τ := t0 / w with hτ
          have hτ1 : τ = 1 + 2 * (y / w) := by rw [hτ, ht0d]; field_simp
          have hyw : 0 < y / w := by positivity
          have hτ2 : τ ≤ 2 := by
            rw [hτ, div_le_iff₀ hw']; linarith
          have hz1 : 16 * (y / w) ≤ z := by
            have : z = B / w * (y / w) := by rw [hz]; field_simp
            rw [this]
            apply mul_le_mul_of_nonneg_right _ hyw.le
            rw [le_div_iff₀ hw']; linarith
          have hx2 : x * τ = 2 * z := by rw [hx, e2, hz, hτ]; field_simp
          have hz0 : 0 < z := by linarith
          have hl : xlh / (4615 / 10 * (w * w)) * y ≤ 10 / 8 * z := by
            have : xlh / (4615 / 10 * (w * w)) * y = xlh / (4615 / 10) * (y / (w * w)) := by field_simp
            rw [this]
            have e3 : 10 / 8 * z = 10 / 8 * B * (y / (w * w)) := by rw [hz]; ring
            rw [e3]
            apply mul_le_mul_of_nonneg_right _ (by positivity)
            rw [div_le_iff₀ (by norm_num)]; linarith
          refine le_trans hl ?_
          have hxz : z ≤ x := by
            have : x * τ ≤ x * 2 := mul_le_mul_of_nonneg_left hτ2 hx0
            linarith
          rcases le_or_gt τ (16 / 10) with h16 | h16
          · have a : x * τ ≤ x * (16 / 10) := mul_le_mul_of_nonneg_left h16 hx0
            have b := sq_nonneg x
            linarith
          · have a : 48 / 10 ≤ x := by linarith
            have b : 48 / 10 * x ≤ x ^ 2 := by rw [sq]; exact mul_le_mul_of_nonneg_right a hx0
            linarith
        have h6 : psychro ps (sat dpt) ta t0 = psychro ps (sat dpt) ta w + 2 * y + ps * (sat t0 - sat w) := by
          unfold psychro; rw [ht0d]; ring
        have h7 : w - v = -y := by rw [hy]; ring
        have h8 : ps * (sat w * (x + x ^ 2 / 2)) ≤ ps * (sat t0 - sat w) :=
          mul_le_mul_of_nonneg_left (by linarith) hp.le
        have h9 : ps * sat w * (xlh / (4615 / 10 * (w * w)) * y) ≤ ps * sat w * (x + x ^ 2 / 2) :=
          mul_le_mul_of_nonneg_left hgx (by positivity)
        rw [hFw, hAe, h7] at h6
        clear_value x t0 y
        clear h5 h4 hx e2 hgx hAe hFw hsat
        linarith
    · intro t h1 h2
      have habs : |w - v| = v - w := by rw [abs_of_neg hneg]; ring
      rw [habs] at hδ2
      have h4 := psychro_mono ps (sat dpt) ta t w hp h1 (by linarith) (by linarith)
      have h5 : psychro ps (sat dpt) ta w < 0 := by
        rw [hFw]; exact mul_neg_of_pos_of_neg (by linarith) hneg
      linarith

/-- The loop for given bounds. -/
theorem wetbulb_case (ta dpt press tol B Ab r c hi lo S T : ℝ) (U m : Nat → ℝ) (hdpt : 199 ≤ dpt) (hdt : dpt ≤ ta)
    (hTa : ta ≤ T) (hT330 : T ≤ 330) (hP : 50000 ≤ press) (htol : 7 / 1000 ≤ tol) (htol1 : tol < 1)
    (l1 : lo ≤ latent ta dpt) (l2 : latent ta dpt ≤ hi) (hlo : 0 < lo) (hhi : hi ≤ 3070000) (hB : 16 * T ≤ B)
    (hd : ∀ t t', 0 < t' → t' ≤ t → t ≤ T → sat t' ≤ sat t * Real.exp (-(B * (1 / t' - 1 / t))))
    (hS : sat T ≤ S)
    (hAb : 180153 / 289644 * (hi / (1005 * 50000)) * hi * S / (4615 / 10 * (T * T)) ≤ Ab)
    (hr : r * hi ≤ B * (4615 / 10)) (hr0 : 8 / 10 ≤ r) (hc : 4615 / 10 * T ≤ c * lo) (hch : Chain Ab r c U m)
    (hc0 : 0 ≤ c) (hc1 : c ≤ 1 / 10)
    (hlast : U 9 * (4615 / 10 * (T * T)) ≤ 7 / 1000 * lo) (h90 : 0 ≤ U 9) (h91 : U 9 ≤ 1) :
    ∃ ti last n, wetbulb ta dpt press tol = .value ti last n ∧ 0 < ti ∧ last ≤ tol ∧
      (∀ t, ti + max tol |last| ≤ t → t ≤ 1000 → 0 ≤ psychro (psyc (latent ta dpt) press) (sat dpt) ta t) ∧
      (∀ t, 0 < t → t ≤ ti - max tol |last| → psychro (psyc (latent ta dpt) press) (sat dpt) ta t ≤ 0) := by
  have hta : 0 < ta := by linarith
  have hp : 0 < press := by linarith
  have hT : 0 < T := by linarith
  have hL : 0 < latent ta dpt := by linarith
  have hps := psyc_pos _ press hL hp
  have hea := (C41_positive dpt).le
  have hs0 := C41_positive T
  have hA : ∀ t, 0 < t → t ≤ ta → slopeA (latent ta dpt) (psyc (latent ta dpt) press) t ≤ Ab := by
    intro t a b
    refine le_trans (slopeA_le _ _ t T B hL hps a (by linarith) (by linarith) (hd T t a (by linarith) le_rfl)) ?_
    exact factor_le _ press hi S T Ab hL l2 hP (by linarith) _ hs0 hS hT hAb
  have hrl : r * latent ta dpt ≤ B * (4615 / 10) :=
    le_trans (mul_le_mul_of_nonneg_left l2 (by linarith)) hr
  have main := go_returns (latent ta dpt) (psyc (latent ta dpt) press) ta dpt tol B Ab r c U m hL hps
    (by linarith) hdt (by linarith) hc0 (by linarith)
    (by linarith) (by linarith) (fun t t' a b e => hd t t' a b (by linarith)) hA
    (by rw [le_div_iff₀ hL]; exact hrl)
    (by
      refine le_trans ?_ (le_trans hc (mul_le_mul_of_nonneg_left l1 hc0))
      linarith) hch
    (by
      have a : ta * ta ≤ T * T := mul_le_mul hTa hTa hta.le hT.le
      have b : 7 / 1000 * lo ≤ tol * latent ta dpt := mul_le_mul htol l1 hlo.le (by linarith)
      refine le_trans (mul_le_mul_of_nonneg_left ?_ h90) (le_trans hlast b)
      linarith) h90 h91
    9 le_rfl ta (sat ta) 1 (by nlinarith) le_rfl (fun _ => rfl) htol1
    (le_trans (rel_first _ _ _ _ _ Ab hL hps hea hta le_rfl (hA ta hta le_rfl)) hch.first)
  obtain ⟨w, v, j, g1, g2, g3, g4, g5, g6⟩ := main
  obtain ⟨a1, a2⟩ := accurate (latent ta dpt) (psyc (latent ta dpt) press) ta dpt w v tol B c hL hps hdpt hdt
    (by linarith) hc1 (by linarith) htol1 (by linarith) (fun t t' a b e => hd t t' a b (by linarith))
    (by nlinarith) (by linarith) g3 g4 g2 g5 g6 _ rfl
  refine ⟨v, w - v, j, ?_, g2, g6, a1, a2⟩
  unfold wetbulb
  simp only [satiC, if_neg (not_le.2 hta), if_neg (not_le.2 (by linarith : 0 < dpt))]
  exact g1

/-- The routine returns a value for air up to 320.2 K. -/
theorem wetbulb_returns (ta dpt press tol : ℝ) (h1 : 199 ≤ dpt) (h2 : dpt ≤ ta) (h3 : ta ≤ 3202 / 10)
    (hP : 50000 ≤ press) (htol : 7 / 1000 ≤ tol) (htol1 : tol < 1) :
    ∃ ti last n, wetbulb ta dpt press tol = .value ti last n ∧ 0 < ti ∧ last ≤ tol ∧
      (∀ t, ti + max tol |last| ≤ t → t ≤ 1000 → 0 ≤ psychro (psyc (latent ta dpt) press) (sat dpt) ta t) ∧
      (∀ t, 0 < t → t ≤ ti - max tol |last| → psychro (psyc (latent ta dpt) press) (sat dpt) ta t ≤ 0) := by
  rcases le_or_gt 300 ta with hh | hh
  · obtain ⟨l1, l2⟩ := latent_hot ta dpt hh h3 h1 h2
    exact wetbulb_case ta dpt press tol 5175 (224 / 10) (8469 / 10000) (627 / 10000) 2820000 2360000 10720
      (3202 / 10) hotU hotM h1 h2 h3 (by norm_num) hP htol htol1 l1 l2 (by norm_num) (by norm_num) (by norm_num)
      (fun t t' a b e => sat_decay t' t (3202 / 10) (6028 / 1000) 5175 a b e (by norm_num)
        (by norm_num [boil]) (by norm_num [boil]) (by norm_num)) sat_320 (by norm_num) (by norm_num)
      (by norm_num) (by norm_num) hot_chain (by norm_num) (by norm_num) (by norm_num [hotU]) (by norm_num [hotU])
      (by norm_num [hotU])
  · rcases lt_or_ge freeze ta with hf | hf
    · obtain ⟨l1, l2⟩ := latent_cold ta dpt hf hh.le h1 h2
      exact wetbulb_case ta dpt press tol 5280 (94 / 10) (8204 / 10000) (573 / 10000) 2970000 2420000 3560
        300 coldU coldM h1 h2 hh.le (by norm_num) hP htol htol1 l1 l2 (by norm_num) (by norm_num) (by norm_num)
        (fun t t' a b e => sat_decay t' t 300 (6147 / 1000) 5280 a b e (by norm_num)
          (by norm_num [boil]) (by norm_num [boil]) (by norm_num)) sat_300 (by norm_num) (by norm_num)
        (by norm_num) (by norm_num) cold_chain (by norm_num) (by norm_num) (by norm_num [coldU])
        (by norm_num [coldU]) (by norm_num [coldU])
    · obtain ⟨l1, l2⟩ := latent_ice ta dpt hf h1 h2
      have hfr : freeze = 27316 / 100 := rfl
      have hsf : sat freeze ≤ 612 := by
        unfold sat; rw [if_neg (lt_irrefl _), satIce_freeze]; norm_num
      exact wetbulb_case ta dpt press tol 5700 (21 / 10) (8568 / 10000) (451 / 10000) 3070000 2800000 612
        freeze iceU iceM h1 h2 hf (by norm_num [hfr]) hP htol htol1 l1 l2 (by norm_num) (by norm_num)
        (by norm_num [hfr])
        (fun t t' a b e => by
          unfold sat
          rw [if_neg (not_lt.2 e), if_neg (not_lt.2 (le_trans b e))]
          exact satIce_decay t' t 5700 a b e le_rfl) hsf (by norm_num [hfr]) (by norm_num)
        (by norm_num) (by norm_num [hfr]) ice_chain (by norm_num) (by norm_num) (by norm_num [iceU, hfr])
        (by norm_num [iceU]) (by norm_num [iceU])

end Verif.WetBulb
