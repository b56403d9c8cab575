import Verif.SpectrumLemmas
import Verif.AtmosProps

/-!
C124: every band of the solar spectrum has a positive irradiance, bands add up, and the whole spectrum makes the solar constant.
-/

namespace Verif.Spectrum

open Verif.Calendar (DT)
open Verif.Atmos (irradiance)
open MeasureTheory

/-- The claim: bands add up, a band has a positive irradiance, and all the spectrum of the table together is the solar constant to within one
percent. -/
def C124_full : Prop :=
  (∀ a b c : ℝ, solint a b + solint b c = solint a c) ∧
  (∀ a b : ℝ, 0 ≤ a → a < b → b ≤ 1000 → 0 < solint a b) ∧
  |solint 0 1000 - 1368| ≤ 1368 / 100

theorem knots_inc : Inc (akima table) := by decide +kernel

theorem knots_table : (akima table).map (fun k => (k.x, k.y)) = table := by decide +kernel

theorem knots_good : GoodTo 60 (akima table) := by decide +kernel

/-- The points of the spectrum. -/
theorem knots : ∃ a b l, akima table = a :: b :: l ∧ a.x = 0 ∧ Inc (a :: b :: l) := by
  have h := knots_inc
  have e := knots_table
  cases hL : akima table with
  | nil => rw [hL] at e; cases e
  | cons a L =>
    cases L with
    | nil => rw [hL] at e; exact absurd (congrArg List.length e) (by simp only [List.length_map, List.length_singleton]; decide +kernel)
    | cons b l =>
      rw [hL] at h e
      refine ⟨a, b, l, rfl, ?_, h⟩
      have := (List.cons.inj e).1
      rw [(Prod.mk.inj this).1]
      norm_num

/-- C124, the spectrum goes through all points of the table. -/
theorem C124_points (p : ℚ × ℚ) (hp : p ∈ table) : spectrum p.1 = p.2 := by
  obtain ⟨a, b, l, e, _, h⟩ := knots
  rw [← knots_table] at hp
  obtain ⟨k, hk, rfl⟩ := List.mem_map.1 hp
  unfold spectrum
  rw [e] at hk ⊢
  exact eval_knot l a b h k hk

/-- C124, the spectrum has no jumps. -/
theorem C124_continuous : Continuous spectrum := by
  obtain ⟨a, b, l, e, _, h⟩ := knots
  unfold spectrum
  rw [e]
  exact eval_continuous l a b h

/-- C124, the criterion of Akima for the derivative at a point with the slopes `a`, `b` of the two intervals before it and `c`, `d` of the two
after it: where the weights count, it lies between the slopes next to the point, it is the slope before the point if the two intervals before it
are in line, and the slope after it if those are. -/
theorem C124_derivative (eps a b c d : ℚ) (l : List ℚ) (he : 0 ≤ eps) (h : eps < |d - c| + |b - a|) :
    ∃ t r, derivatives eps (a :: b :: c :: d :: l) = t :: r ∧ t ∈ Set.uIcc b c ∧ (a = b → t = b) ∧ (c = d → t = c) := by
  have hp : 0 < |d - c| + |b - a| := by linarith
  refine ⟨_, _, by rw [derivatives, if_pos h], ?_, ?_, ?_⟩
  · rcases le_total b c with hbc | hbc
    · rw [Set.uIcc_of_le hbc]
      constructor
      · rw [le_div_iff₀ hp]; nlinarith [abs_nonneg (b - a), mul_le_mul_of_nonneg_left hbc (abs_nonneg (b - a))]
      · rw [div_le_iff₀ hp]; nlinarith [abs_nonneg (d - c), mul_le_mul_of_nonneg_left hbc (abs_nonneg (d - c))]
    · rw [Set.uIcc_of_ge hbc]
      constructor
      · rw [le_div_iff₀ hp]; nlinarith [abs_nonneg (d - c), mul_le_mul_of_nonneg_left hbc (abs_nonneg (d - c))]
      · rw [div_le_iff₀ hp]; nlinarith [abs_nonneg (b - a), mul_le_mul_of_nonneg_left hbc (abs_nonneg (b - a))]
  · rintro rfl
    rw [sub_self, abs_zero, add_zero] at hp ⊢
    rw [zero_mul, add_zero, mul_div_cancel_left₀ _ hp.ne']
  · rintro rfl
    rw [sub_self, abs_zero, zero_add] at hp ⊢
    rw [zero_mul, zero_add, mul_div_cancel_left₀ _ hp.ne']

example : ∃ t r, derivatives 0 [1, 1, 3, 4] = t :: r ∧ t = 1 := by
  obtain ⟨t, r, h, -, h1, -⟩ := C124_derivative 0 1 1 3 4 [] le_rfl (by norm_num)
  exact ⟨t, r, h, h1 rfl⟩

/-- C124, bands add up. -/
theorem C124_sum (a b c : ℝ) : solint a b + solint b c = solint a c := by
  unfold solint
  rw [← add_mul, intervalIntegral.integral_add_adjacent_intervals (C124_continuous.intervalIntegrable _ _)
    (C124_continuous.intervalIntegrable _ _)]

theorem spectrum_pos (x : ℝ) (h1 : 0 < x) (h2 : x ≤ 60) : 0 < spectrum x := by
  obtain ⟨a, b, l, e, h0, h⟩ := knots
  have g := knots_good
  have hm : ∃ k ∈ (akima table).tail, (60 : ℚ) ≤ k.x := by decide +kernel
  unfold spectrum
  rw [e] at g hm ⊢
  exact eval_pos 60 l a b h g hm x (by rw [h0]; simpa using h1) (by simpa using h2)

/-- C124, every band up to 60 micrometres has a positive irradiance, and a wider band a larger one. Missing: longer waves. -/
theorem C124_positive_partial (a b c d : ℝ) (ha : 0 ≤ a) (hab : a ≤ b) (hbc : b < c) (hcd : c ≤ d) (hd : d ≤ 60) :
    0 < solint b c ∧ solint b c ≤ solint a d ∧ (a < b ∨ c < d → solint b c < solint a d) := by
  have key : ∀ p q : ℝ, 0 ≤ p → p < q → q ≤ 60 → 0 < solint p q := by
    intro p q h1 h2 h3
    unfold solint
    refine mul_pos (intervalIntegral.intervalIntegral_pos_of_pos_on (C124_continuous.intervalIntegrable _ _) ?_ h2) (by norm_num)
    intro x hx
    exact spectrum_pos x (by linarith [hx.1]) (by linarith [hx.2])
  have same : ∀ p : ℝ, solint p p = 0 := by intro p; unfold solint; simp
  have le : ∀ p q : ℝ, 0 ≤ p → p ≤ q → q ≤ 60 → 0 ≤ solint p q := by
    intro p q h1 h2 h3
    rcases h2.lt_or_eq with h | rfl
    · exact (key p q h1 h h3).le
    · rw [same]
  have e : solint a d = solint a b + solint b c + solint c d := by rw [C124_sum, C124_sum]
  have l1 := le a b ha hab (by linarith)
  have l2 := le c d (by linarith) hcd hd
  refine ⟨key b c (by linarith) hbc (by linarith), by linarith, ?_⟩
  rintro (h | h)
  · have := key a b ha h (by linarith); linarith
  · have := key c d (by linarith) h hd; linarith

/-- The integral from zero to a point of the table. -/
theorem solint_area (X : ℚ) (hX : X ∈ table.map Prod.fst) : solint 0 X = area (akima table) X * 1368 := by
  obtain ⟨a, b, l, e, h0, h⟩ := knots
  rw [← knots_table, List.map_map] at hX
  obtain ⟨k, hk, rfl⟩ := List.mem_map.1 hX
  unfold solint spectrum
  rw [e] at hk ⊢
  have := integral_eval l a b h k hk
  rw [h0] at this
  simp only [Rat.cast_zero] at this
  simp only [Function.comp]
  rw [this]

theorem between (p q : ℚ) (c d : ℚ) (hp : p ∈ table.map Prod.fst) (hq : q ∈ table.map Prod.fst)
    (h : c < (area (akima table) q - area (akima table) p) * 1368 ∧ (area (akima table) q - area (akima table) p) * 1368 < d) :
    (c : ℝ) < solint p q ∧ solint p q < d := by
  have e : solint p q = (((area (akima table) q - area (akima table) p) * 1368 : ℚ) : ℝ) := by
    have := C124_sum 0 p q
    rw [solint_area p hp, solint_area q hq] at this
    push_cast
    linarith
  rw [e]
  exact ⟨by exact_mod_cast h.1, by exact_mod_cast h.2⟩

/-- C124, the two bands of the model in watts per square metre at the mean distance of the sun, and both together. -/
theorem C124_bands : 617 < solint 0.28 0.7 ∧ solint 0.28 0.7 < 618 ∧ 671 < solint 0.7 2.8 ∧ solint 0.7 2.8 < 672 ∧
    1288 < solint 0.28 2.8 ∧ solint 0.28 2.8 < 1290 := by
  have h1 := between 0.28 0.7 617 618 (by decide +kernel) (by decide +kernel) (by decide +kernel)
  have h2 := between 0.7 2.8 671 672 (by decide +kernel) (by decide +kernel) (by decide +kernel)
  have h3 := between 0.28 2.8 1288 1290 (by decide +kernel) (by decide +kernel) (by decide +kernel)
  norm_num at h1 h2 h3 ⊢
  exact ⟨h1.1, h1.2, h2.1, h2.2, h3.1, h3.2⟩

/-- C124, on every date: the irradiance of the visible and of the infrared band add up to that of the whole range, which the clouds are
measured with. -/
theorem C124_dates (fuel : Nat) (t : DT) (v i : ℝ) (hv : irradiance solint fuel t [0.28, 0.7] = .ok v)
    (hi : irradiance solint fuel t [0.7, 2.8] = .ok i) : irradiance solint fuel t [0.28, 2.8] = .ok (v + i) := by
  unfold irradiance at hv hi ⊢
  simp only at hv hi ⊢
  cases hE : Sun.ephemeris fuel (Atmos.noon t) with
  | ok x =>
    obtain ⟨d, o, r⟩ := x
    rw [hE] at hv hi
    simp only [Sun.Out.ok.injEq] at hv hi ⊢
    rw [← hv, ← hi, ← C124_sum 0.28 0.7 2.8, add_div]
  | divZero => rw [hE] at hv; cases hv
  | assertion => rw [hE] at hv; cases hv
  | invalid => rw [hE] at hv; cases hv
  | noFuel => rw [hE] at hv; cases hv

/-- C124, for every date from 1900 on both bands have an irradiance, between 594 and 641 and between 646 and 697 watts per square metre. -/
theorem C124_defined (t : DT) (hv : t.Valid) (hy1 : 1900 ≤ t.year) (hy : t.year ≤ 9999) :
    ∃ turns v i, ∀ fuel, turns ≤ fuel → irradiance solint fuel t [0.28, 0.7] = .ok v ∧ irradiance solint fuel t [0.7, 2.8] = .ok i ∧
      594 < v ∧ v < 641 ∧ 646 < i ∧ i < 697 := by
  obtain ⟨a1, a2, b1, b2, -, -⟩ := C124_bands
  obtain ⟨n, v, h1, h2, h3⟩ := Atmos.C102_defined solint t hv hy1 hy 0.28 0.7 (by linarith)
  obtain ⟨m, i, k1, k2, k3⟩ := Atmos.C102_defined solint t hv hy1 hy 0.7 2.8 (by linarith)
  refine ⟨max n m, v, i, fun fuel hf => ⟨h1 fuel (le_of_max_le_left hf), k1 fuel (le_of_max_le_right hf), ?_, ?_, ?_, ?_⟩⟩ <;>
    norm_num at * <;> linarith

/-- C124 does not hold beyond 100 micrometres: the interpolation falls below zero, so that a band there has a negative irradiance and a wider
band a smaller one. -/
theorem C124_negative_fails : solint 100 1000 < 0 ∧ solint 0.28 1000 < solint 0.28 100 ∧
    ∃ x : ℝ, 100 ≤ x ∧ x ≤ 1000 ∧ spectrum x < 0 := by
  have h := between 100 1000 (-1) 0 (by decide +kernel) (by decide +kernel) (by decide +kernel)
  norm_num at h
  refine ⟨h.2, ?_, ?_⟩
  · have := C124_sum 0.28 100 1000
    linarith [h.2]
  · by_contra hc
    push Not at hc
    have : 0 ≤ ∫ x in (100 : ℝ)..1000, spectrum x :=
      intervalIntegral.integral_nonneg (by norm_num) fun x hx => hc x hx.1 hx.2
    have h2 := h.2
    unfold solint at h2
    linarith

/-- C124 does not hold for the sum: the whole table makes 97.4 percent of the solar constant. -/
theorem C124_constant_fails : 0.973 * 1368 < solint 0 1000 ∧ solint 0 1000 < 0.974 * 1368 := by
  have h := between 0 1000 (0.973 * 1368) (0.974 * 1368) (by decide +kernel) (by decide +kernel) (by decide +kernel)
  norm_num at h ⊢
  exact h

theorem C124_fails : ¬ C124_full := by
  rintro ⟨-, h, -⟩
  linarith [h 100 1000 (by norm_num) (by norm_num) le_rfl, C124_negative_fails.1]

/-- Points of the table and a band within the visible one. -/
example : spectrum 0.5 = 1.3994965245309039 ∧ 0 < solint 0.4 0.5 ∧ solint 0.4 0.5 < solint 0.28 0.7 := by
  refine ⟨?_, ?_, ?_⟩
  · have := C124_points (0.5, 1.3994965245309039) (by decide +kernel)
    norm_num at this ⊢
    exact this
  · exact (C124_positive_partial 0.28 0.4 0.5 0.7 (by norm_num) (by norm_num) (by norm_num) (by norm_num) (by norm_num)).1
  · exact (C124_positive_partial 0.28 0.4 0.5 0.7 (by norm_num) (by norm_num) (by norm_num) (by norm_num) (by norm_num)).2.2
      (Or.inl (by norm_num))

/-- The first of April 2019. -/
example : ∃ turns v i, ∀ fuel, turns ≤ fuel → irradiance solint fuel ⟨2019, 4, 1, 3600⟩ [0.28, 0.7] = .ok v ∧
    irradiance solint fuel ⟨2019, 4, 1, 3600⟩ [0.7, 2.8] = .ok i ∧ 594 < v ∧ v < 641 ∧ 646 < i ∧ i < 697 :=
  C124_defined ⟨2019, 4, 1, 3600⟩ ⟨by decide, ⟨30, .short 4 (by decide), by decide, by decide⟩, by decide⟩ (by norm_num) (by norm_num)

end Verif.Spectrum
