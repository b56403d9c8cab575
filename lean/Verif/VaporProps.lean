import Verif.Vapor
import Mathlib.Analysis.Complex.ExponentialBounds
import Mathlib.Tactic.Linarith
import Mathlib.Tactic.NormNum
import Mathlib.Tactic.Positivity
import Mathlib.Tactic.FieldSimp
import Mathlib.Tactic.Ring

/-! C40 - C42: dew-point limit, saturation vapor pressure, relative humidity. -/

namespace Verif.Vapor

/-! ### C40 -/

/-- Every cell with a dew point and an air temperature ends strictly below the air temperature; a
dew point already below it is kept as solved from the published vapor pressure. -/
theorem C40_below_air_temp {ι : Type} (lo hi : Option ℝ) (solve : Option ℝ → Option ℝ)
    (wet : Option ((ι → Option ℝ) → (ι → Option ℝ) → ι → Option ℝ)) (img ta : ι → Option ℝ) (i : ι)
    (t d : ℝ) (ht : ta i = some t)
    (hd : solve ((distribute lo hi solve wet img ta).vp i) = some d) :
    ∃ r, (distribute lo hi solve wet img ta).dew i = some r ∧ r < t ∧ (d < t → r = d) ∧
      (t ≤ d → r = t - 1 / 5) := by
  unfold distribute at hd ⊢
  simp only at hd ⊢
  rw [hd, ht]
  unfold limitDew
  simp only
  by_cases h : t ≤ d
  · rw [if_pos h]
    exact ⟨_, rfl, by linarith, fun h' => by linarith, fun _ => by norm_num⟩
  · rw [if_neg h]
    exact ⟨_, rfl, not_le.1 h, fun _ => rfl, fun h' => absurd h' h⟩

/-- Without an air temperature the solved dew point is kept; without a dew point there is none. -/
theorem C40_nan {ι : Type} (lo hi : Option ℝ) (solve : Option ℝ → Option ℝ)
    (wet : Option ((ι → Option ℝ) → (ι → Option ℝ) → ι → Option ℝ)) (img ta : ι → Option ℝ) (i : ι) :
    (ta i = none → (distribute lo hi solve wet img ta).dew i =
      solve ((distribute lo hi solve wet img ta).vp i)) ∧
    ((distribute lo hi solve wet img ta).dew i = none ↔
      solve ((distribute lo hi solve wet img ta).vp i) = none) := by
  unfold distribute limitDew
  simp only
  constructor
  · intro h; rw [h]
    cases solve (Utils.clampCell lo hi (img i)) <;> rfl
  · cases solve (Utils.clampCell lo hi (img i)) <;> cases ta i <;> simp
    split <;> simp

/-- The precipitation temperature is the limited dew point, or the wet-bulb image computed from it. -/
theorem C40_precip_temp {ι : Type} (lo hi : Option ℝ) (solve : Option ℝ → Option ℝ)
    (img ta : ι → Option ℝ) (w : (ι → Option ℝ) → (ι → Option ℝ) → ι → Option ℝ) :
    (distribute lo hi solve none img ta).precipTemp = (distribute lo hi solve none img ta).dew ∧
    (distribute lo hi solve (some w) img ta).precipTemp =
      w ta (distribute lo hi solve none img ta).dew := ⟨rfl, rfl⟩

example : limitDew (some 3) (some 2) = some (2 - 2 / 10) := by
  norm_num [limitDew]

/-! ### C41 -/

theorem freeze_pos : 0 < freeze := by norm_num [freeze]
theorem boil_pos : 0 < boil := by norm_num [boil]
theorem log_ten_pos : 0 < Real.log 10 := Real.log_pos (by norm_num)

/-- Positive at every positive temperature, both formulas. -/
theorem C41_positive (tk : ℝ) : 0 < sat tk := by
  unfold sat satWater satIce
  split
  · exact Real.rpow_pos_of_pos (by norm_num) _
  · exact mul_pos (by norm_num) (Real.rpow_pos_of_pos (by norm_num) _)

theorem iceExp_strict (s t : ℝ) (hs : 0 < s) (hst : s < t) (ht : t ≤ freeze) :
    iceExp s < iceExp t := by
  have ht0 : 0 < t := lt_trans hs hst
  have hf := freeze_pos
  have hu : 1 ≤ freeze / t := (one_le_div ht0).2 ht
  have huv : freeze / t < freeze / s := by
    apply div_lt_div_of_pos_left hf hs hst
  have hlog : Real.log (freeze / t) ≤ Real.log (freeze / s) :=
    Real.log_le_log (by positivity) huv.le
  have hlog' : Real.log (freeze / t) / Real.log 10 ≤ Real.log (freeze / s) / Real.log 10 :=
    div_le_div_of_nonneg_right hlog log_ten_pos.le
  have hinv : t / freeze - s / freeze ≤ freeze / s - freeze / t := by
    have e1 : freeze / s - freeze / t = freeze * (t - s) / (s * t) := by
      field_simp
    have e2 : t / freeze - s / freeze = (t - s) / freeze := by field_simp
    rw [e1, e2, div_le_div_iff₀ hf (mul_pos hs ht0)]
    have h1 : s * t ≤ freeze * freeze :=
      mul_le_mul (le_trans hst.le ht) ht ht0.le hf.le
    nlinarith [sub_pos.2 hst]
  unfold iceExp
  simp only
  rw [mul_div_assoc, mul_div_assoc]
  nlinarith

/-- Strictly increasing over the whole range of the ice formula. -/
theorem C41_ice_increasing (s t : ℝ) (hs : 0 < s) (hst : s < t) (ht : t ≤ freeze) :
    sat s < sat t := by
  unfold sat
  rw [if_neg (not_lt.2 ht), if_neg (not_lt.2 (le_trans hst.le ht))]
  unfold satIce
  have := Real.rpow_lt_rpow_of_exponent_lt (show (1 : ℝ) < 10 by norm_num) (iceExp_strict s t hs hst ht)
  linarith

theorem waterExp_strict (s t : ℝ) (hs : 0 < s) (hst : s < t) (ht : t ≤ 1000) :
    waterExp s < waterExp t := by
  have ht0 : 0 < t := lt_trans hs hst
  have hb := boil_pos
  have huv : boil / t < boil / s := div_lt_div_of_pos_left hb hs hst
  have hu : 37 / 100 ≤ boil / t := by
    rw [le_div_iff₀ ht0]; unfold boil; linarith
  have hu0 : 0 < boil / t := by linarith
  have hlog : Real.log (boil / s) - Real.log (boil / t) ≤ (boil / s - boil / t) / (37 / 100) := by
    rw [← Real.log_div (by linarith) hu0.ne']
    have h1 := Real.log_le_sub_one_of_pos (show 0 < boil / s / (boil / t) by positivity)
    have h2 : boil / s / (boil / t) - 1 = (boil / s - boil / t) / (boil / t) := by
      rw [sub_div, div_self hu0.ne']
    rw [h2] at h1
    refine le_trans h1 ?_
    exact div_le_div_of_nonneg_left (by linarith) (by norm_num) hu
  have hl10 : (2 : ℝ) ≤ Real.log 10 := by
    rw [Real.le_log_iff_exp_le (by norm_num)]
    have h1 : Real.exp 2 = Real.exp 1 * Real.exp 1 := by rw [← Real.exp_add]; norm_num
    have h2 := Real.exp_one_lt_d9
    rw [h1]
    nlinarith [Real.exp_pos 1]
  have hlog' : Real.log (boil / s) / Real.log 10 - Real.log (boil / t) / Real.log 10 ≤
      (boil / s - boil / t) / (37 / 100) / 2 := by
    rw [← sub_div]
    have hnn : 0 ≤ (boil / s - boil / t) / (37 / 100) := by
      apply div_nonneg <;> linarith
    rw [div_le_div_iff₀ (by linarith) (by norm_num)]
    nlinarith
  have h3 : (10 : ℝ) ^ (11344 / 1000 * (1 - t / boil)) ≤ (10 : ℝ) ^ (11344 / 1000 * (1 - s / boil)) := by
    apply Real.rpow_le_rpow_of_exponent_le (by norm_num)
    have : s / boil ≤ t / boil := div_le_div_of_nonneg_right hst.le hb.le
    linarith
  have h4 : (10 : ℝ) ^ (-(349149 / 100000) * (boil / s - 1)) ≤
      (10 : ℝ) ^ (-(349149 / 100000) * (boil / t - 1)) := by
    apply Real.rpow_le_rpow_of_exponent_le (by norm_num)
    linarith
  unfold waterExp
  simp only
  rw [mul_div_assoc, mul_div_assoc]
  have h5 : (boil / s - boil / t) / (37 / 100) / 2 = (boil / s - boil / t) * (50 / 37) := by ring
  rw [h5] at hlog'
  nlinarith

/-- The water formula is strictly increasing too, from freezing to 1000 K. -/
theorem C41_water_increasing (s t : ℝ) (hs : freeze < s) (hst : s < t) (ht : t ≤ 1000) :
    sat s < sat t := by
  unfold sat
  rw [if_pos hs, if_pos (lt_trans hs hst)]
  exact Real.rpow_lt_rpow_of_exponent_lt (by norm_num)
    (waterExp_strict s t (lt_trans freeze_pos hs) hst ht)

theorem log_ten_le : Real.log 10 ≤ 230259 / 100000 := by
  rw [Real.log_le_iff_le_exp (by norm_num)]
  have e : Real.exp (230259 / 100000) = Real.exp 1 * Real.exp 1 * Real.exp (30259 / 100000) := by
    rw [← Real.exp_add, ← Real.exp_add]; norm_num
  have h1 := Real.exp_one_gt_d9
  have h2 := Real.sum_le_exp_of_nonneg (show (0 : ℝ) ≤ 30259 / 100000 by norm_num) 7
  simp only [Finset.sum_range_succ, Finset.sum_range_zero, Nat.factorial] at h2
  have h3 : (13533533 / 10000000 : ℝ) ≤ Real.exp (30259 / 100000) := le_trans (by norm_num) h2
  have h4 : (27182818283 / 10000000000 : ℝ) ≤ Real.exp 1 := by norm_num at h1 ⊢; linarith
  have h5 : (27182818283 / 10000000000 : ℝ) * (27182818283 / 10000000000) ≤ Real.exp 1 * Real.exp 1 :=
    mul_le_mul h4 h4 (by norm_num) (Real.exp_pos 1).le
  have h6 := mul_le_mul h5 h3 (by norm_num) (mul_pos (Real.exp_pos 1) (Real.exp_pos 1)).le
  rw [e]
  refine le_trans ?_ h6
  norm_num

theorem log_ratio_ge : (31190 / 100000 : ℝ) ≤ Real.log (boil / freeze) := by
  rw [Real.le_log_iff_exp_le (div_pos boil_pos freeze_pos)]
  have h := Real.exp_bound' (show (0 : ℝ) ≤ 31190 / 100000 by norm_num) (by norm_num)
    (show 0 < 6 by norm_num)
  refine le_trans h ?_
  simp only [Finset.sum_range_succ, Finset.sum_range_zero, Nat.factorial]
  norm_num [boil, freeze]

theorem log_sea_ge : (51113 / 10000 : ℝ) ≤ Real.log (seaLevel / (61071 / 100)) := by
  rw [Real.le_log_iff_exp_le (by norm_num [seaLevel])]
  have e : Real.exp (51113 / 10000) = Real.exp 1 ^ 5 * Real.exp (1113 / 10000) := by
    rw [← Real.exp_nat_mul, ← Real.exp_add]; norm_num
  have h1 : Real.exp 1 ^ 5 ≤ (2.7182818286 : ℝ) ^ 5 :=
    pow_le_pow_left₀ (Real.exp_pos 1).le Real.exp_one_lt_d9.le 5
  have h2 := Real.exp_bound' (show (0 : ℝ) ≤ 1113 / 10000 by norm_num) (by norm_num)
    (show 0 < 5 by norm_num)
  rw [e]
  refine le_trans (mul_le_mul h1 h2 (Real.exp_pos _).le (by norm_num)) ?_
  simp only [Finset.sum_range_succ, Finset.sum_range_zero, Nat.factorial]
  norm_num [seaLevel]

theorem ten_pow_le : (10 : ℝ) ^ (31 / 10 : ℝ) ≤ 1500 := by
  have h : ((10 : ℝ) ^ (31 / 10 : ℝ)) ^ 10 = 10 ^ 31 := by
    rw [← Real.rpow_natCast, ← Real.rpow_mul (by norm_num), ← Real.rpow_natCast]; norm_num
  exact le_of_pow_le_pow_left₀ (n := 10) (by norm_num) (by norm_num) (by rw [h]; norm_num)

theorem ten_pow_ge : (1 / 20 : ℝ) ≤ (10 : ℝ) ^ (-(13 / 10) : ℝ) := by
  have h : ((10 : ℝ) ^ (13 / 10 : ℝ)) ^ 10 = 10 ^ 13 := by
    rw [← Real.rpow_natCast, ← Real.rpow_mul (by norm_num), ← Real.rpow_natCast]; norm_num
  have h2 : (10 : ℝ) ^ (13 / 10 : ℝ) ≤ 20 :=
    le_of_pow_le_pow_left₀ (n := 10) (by norm_num) (by norm_num) (by rw [h]; norm_num)
  rw [Real.rpow_neg (by norm_num), one_div]
  exact inv_anti₀ (Real.rpow_pos_of_pos (by norm_num) _) h2

/-- At the freezing point the ice formula gives 610.71 Pa and the water formula more. -/
theorem jump_up : satIce freeze < satWater freeze := by
  have hf := freeze_pos
  have hL := log_ten_pos
  have hice : satIce freeze = 100 * (61071 / 10000) := by
    unfold satIce iceExp
    simp only [div_self hf.ne', sub_self, mul_zero, Real.log_one, zero_div, zero_add]
    congr 1
    rw [Real.rpow_def_of_pos (by norm_num), mul_div_cancel₀ _ hL.ne', Real.exp_log (by norm_num)]
  have hlog : Real.log (61071 / 100) / Real.log 10 < waterExp freeze := by
    have h3 : (10 : ℝ) ^ (11344 / 1000 * (1 - freeze / boil)) ≤ 1500 := by
      refine le_trans (Real.rpow_le_rpow_of_exponent_le (by norm_num) ?_) ten_pow_le
      norm_num [freeze, boil]
    have h4 : (1 / 20 : ℝ) ≤ (10 : ℝ) ^ (-(349149 / 100000) * (boil / freeze - 1)) := by
      refine le_trans ten_pow_ge (Real.rpow_le_rpow_of_exponent_le (by norm_num) ?_)
      norm_num [freeze, boil]
    have h5 := log_ratio_ge
    have h6 := log_sea_ge
    have h7 := log_ten_le
    have hsea : Real.log (seaLevel / (61071 / 100)) =
        Real.log seaLevel - Real.log (61071 / 100) :=
      Real.log_div (by norm_num [seaLevel]) (by norm_num)
    rw [hsea] at h6
    have hu : boil / freeze - 1 = 9999 / 27316 := by norm_num [boil, freeze]
    unfold waterExp
    simp only
    generalize (10 : ℝ) ^ (11344 / 1000 * (1 - freeze / boil)) = A at h3 ⊢
    generalize (10 : ℝ) ^ (-(349149 / 100000) * (boil / freeze - 1)) = B at h4 ⊢
    rw [hu, mul_div_assoc]
    have key : (2900815 / 1000000 : ℝ) ≤ 502808 / 100000 * (Real.log (boil / freeze) / Real.log 10) +
        (Real.log seaLevel - Real.log (61071 / 100)) / Real.log 10 := by
      rw [← mul_div_assoc, ← add_div, le_div_iff₀ hL]
      nlinarith
    rw [sub_div] at key
    linarith
  rw [hice]
  have h8 := Real.rpow_lt_rpow_of_exponent_lt (show (1 : ℝ) < 10 by norm_num) hlog
  have h9 : (10 : ℝ) ^ (Real.log (61071 / 100) / Real.log 10) = 61071 / 100 := by
    rw [Real.rpow_def_of_pos (by norm_num), mul_div_cancel₀ _ hL.ne', Real.exp_log (by norm_num)]
  rw [h9] at h8
  unfold satWater
  refine lt_of_eq_of_lt ?_ h8
  norm_num

/-- Strictly increasing across the freezing point: over all temperatures from 0 to 1000 K. -/
theorem C41_increasing (s t : ℝ) (hs : 0 < s) (hst : s < t) (ht : t ≤ 1000) : sat s < sat t := by
  rcases le_or_gt t freeze with h | h
  · exact C41_ice_increasing s t hs hst h
  · rcases lt_or_ge freeze s with h' | h'
    · exact C41_water_increasing s t h' hst ht
    · have h1 : sat s ≤ sat freeze := by
        rcases eq_or_lt_of_le h' with e | e
        · rw [e]
        · exact (C41_ice_increasing s freeze hs e (le_refl _)).le
      have h2 : sat freeze = satIce freeze := by unfold sat; rw [if_neg (lt_irrefl _)]
      have h3 : satWater freeze < satWater t :=
        Real.rpow_lt_rpow_of_exponent_lt (by norm_num) (waterExp_strict freeze t freeze_pos h ht)
      have h4 : sat t = satWater t := by unfold sat; rw [if_pos h]
      have := jump_up
      rw [h4]
      linarith

/-- C41 as stated, the part on rejected temperatures, for the Python function. -/
def C41_full : Prop := ∀ tk : ℝ, tk ≤ 0 → satiPy (some tk) = none

/-- The C function stops for every temperature that is not positive, and for no other; the Python
function returns NaN for negative ones. Missing: exactly 0 K in Python. -/
theorem C41_rejected_partial (tk : ℝ) :
    (satiC tk = none ↔ tk ≤ 0) ∧ (0 < tk → satiC tk = some (sat tk) ∧ satiPy (some tk) = some (sat tk)) ∧
    (tk < 0 → satiPy (some tk) = none) := by
  unfold satiC satiPy
  refine ⟨?_, ?_, ?_⟩
  · by_cases h : tk ≤ 0 <;> simp [h]
  · intro h
    simp [not_le.2 h, not_lt.2 h.le, h.ne']
  · intro h; simp [h]

/-- At 0 K the Python function returns a pressure of zero. -/
theorem C41_zero_kelvin_fails : ¬ C41_full := by
  intro h
  have := h 0 (le_refl _)
  simp [satiPy] at this

example : sat 250 < sat 260 :=
  C41_ice_increasing 250 260 (by norm_num) (by norm_num) (by norm_num [freeze])

/-! ### C42 -/

/-- The units humidity may be given in. -/
inductive Humidity where
  | percent
  | fraction

/-- Relative humidity as a fraction. -/
noncomputable def Humidity.frac : Humidity → ℝ → ℝ
  | .percent, r => r / 100
  | .fraction, r => r

/-- A valid humidity in the unit. -/
def Humidity.Valid : Humidity → ℝ → Prop
  | .percent, r => 0 ≤ r ∧ r ≤ 100
  | .fraction, r => 0 ≤ r ∧ r ≤ 1

/-- The vapor pressure of one station. -/
noncomputable def stationVp (u : Humidity) (x : ℝ × ℝ) : Option ℝ :=
  some (sat (x.1 + 27315 / 100) * u.frac x.2)

/-- The stations as the code holds them. -/
def raw (l : List (ℝ × ℝ)) : List (Option ℝ × Option ℝ) := l.map fun x => (some x.1, some x.2)

/-- C42 as stated: each station gets its saturation pressure times its humidity as a fraction. -/
def C42_full : Prop :=
  ∀ (u : Humidity) (l : List (ℝ × ℝ)), l ≠ [] → (∀ x ∈ l, 0 < x.1 + 27315 / 100 ∧ u.Valid x.2) →
    rh2vp (raw l) = .ok (l.map (stationVp u))

theorem mul_sat (t r : ℝ) (h : 0 < t + 27315 / 100) :
    mulNan (satiPy ((some t).map (· + 27315 / 100))) (some r) = some (sat (t + 27315 / 100) * r) := by
  unfold mulNan satiPy
  simp [not_lt.2 h.le, h.ne']

/-- The conversion is right for every station when the first one shows the unit: at least 1 in a
percent list, below 1 in a fraction list. Missing: the other lists (`C42_dry_first_fails`,
`C42_saturated_first_fails`). -/
theorem C42_conversion_partial (u : Humidity) (x : ℝ × ℝ) (l : List (ℝ × ℝ))
    (hv : ∀ y ∈ x :: l, 0 < y.1 + 27315 / 100)
    (hu : match u with | .percent => 1 ≤ x.2 | .fraction => x.2 < 1) :
    rh2vp (raw (x :: l)) = .ok ((x :: l).map (stationVp u)) := by
  unfold rh2vp raw
  simp only [List.map_cons]
  cases u with
  | percent =>
    have hu' : 1 ≤ x.2 := hu
    simp only [hu', decide_true, if_true, List.map_map]
    congr 2
    · exact mul_sat _ _ (hv x List.mem_cons_self)
    · apply List.map_congr_left
      intro y hy
      exact mul_sat _ _ (hv y (List.mem_cons_of_mem _ hy))
  | fraction =>
    have hu' : ¬ 1 ≤ x.2 := not_le.2 hu
    simp only [hu', decide_false, Bool.false_eq_true, if_false, List.map_map]
    congr 2
    · exact mul_sat _ _ (hv x List.mem_cons_self)
    · apply List.map_congr_left
      intro y hy
      exact mul_sat _ _ (hv y (List.mem_cons_of_mem _ hy))

/-- Permuting the stations permutes the result, when all stations are on one side of 1. -/
theorem C42_order_partial (u : Humidity) (l l' : List (ℝ × ℝ)) (hne : l ≠ []) (hp : l.Perm l')
    (hv : ∀ y ∈ l, 0 < y.1 + 27315 / 100)
    (hu : ∀ y ∈ l, match u with | .percent => 1 ≤ y.2 | .fraction => y.2 < 1) :
    ∃ r r', rh2vp (raw l) = .ok r ∧ rh2vp (raw l') = .ok r' ∧ r.Perm r' := by
  have hne' : l' ≠ [] := by
    rintro rfl; exact hne (List.Perm.eq_nil hp)
  cases l with
  | nil => exact absurd rfl hne
  | cons x l =>
    cases l' with
    | nil => exact absurd rfl hne'
    | cons x' l' =>
      refine ⟨_, _, C42_conversion_partial u x l hv (hu x List.mem_cons_self),
        C42_conversion_partial u x' l' (fun y hy => hv y (hp.mem_iff.2 hy))
          (hu x' (hp.mem_iff.2 List.mem_cons_self)), hp.map _⟩

/-- A percent list whose first station is below 1 percent: every station gets 100 times its vapor
pressure. -/
theorem C42_dry_first_fails (x : ℝ × ℝ) (l : List (ℝ × ℝ)) (h : x.2 < 1)
    (hv : ∀ y ∈ x :: l, 0 < y.1 + 27315 / 100) :
    rh2vp (raw (x :: l)) = .ok ((x :: l).map fun y =>
      some (100 * (sat (y.1 + 27315 / 100) * Humidity.frac .percent y.2))) := by
  rw [C42_conversion_partial .fraction x l hv h]
  congr 1
  apply List.map_congr_left
  intro y _
  unfold stationVp Humidity.frac
  congr 1
  ring

/-- A fraction list whose first station is saturated: every station gets a hundredth of its vapor
pressure. -/
theorem C42_saturated_first_fails (x : ℝ × ℝ) (l : List (ℝ × ℝ)) (h : x.2 = 1)
    (hv : ∀ y ∈ x :: l, 0 < y.1 + 27315 / 100) :
    rh2vp (raw (x :: l)) = .ok ((x :: l).map fun y =>
      some (sat (y.1 + 27315 / 100) * Humidity.frac .fraction y.2 / 100)) := by
  rw [C42_conversion_partial .percent x l hv (by simp only; linarith)]
  congr 1
  apply List.map_congr_left
  intro y _
  unfold stationVp Humidity.frac
  congr 1
  ring

theorem C42_fails : ¬ C42_full := by
  intro h
  have h1 := h .percent [(0, 1 / 2), (0, 80)] (by simp)
    (by intro x hx; simp at hx; rcases hx with rfl | rfl <;> norm_num [Humidity.Valid])
  rw [C42_dry_first_fails (0, 1 / 2) [(0, 80)] (by norm_num)
    (by intro x hx; simp at hx; rcases hx with rfl | rfl <;> norm_num)] at h1
  simp [stationVp, Humidity.frac] at h1
  have := C41_positive (27315 / 100)
  linarith [h1.2]

example : rh2vp (raw [(0, 50), (5, 1 / 2)]) = .ok ([(0, 50), (5, 1 / 2)].map (stationVp .percent)) :=
  C42_conversion_partial .percent _ _
    (by intro x hx; simp at hx; rcases hx with rfl | rfl <;> norm_num) (by norm_num)

end Verif.Vapor
