import Verif.Grid
import Verif.Wind
import Mathlib.Algebra.Order.Field.Rat
import Mathlib.Analysis.SpecialFunctions.Trigonometric.Basic
import Mathlib.Data.List.Induction
import Mathlib.Tactic.Linarith
import Mathlib.Tactic.NormNum
import Mathlib.Tactic.Ring
import Mathlib.Tactic.FieldSimp
import Mathlib.Tactic.Positivity
import Mathlib.Tactic.LinearCombination

/-!
Gridded data: WRF precipitation (C72), wind components (C73), cloud factor (C74).
-/

namespace Verif.Grid

/-! ### C72 -/

section Precip

variable {K : Type} [Field K] [LinearOrder K] [IsStrictOrderedRing K]

set_option linter.unusedSectionVars false

theorem diffRest_get (a : Option K) (l : List (Option K)) (k : Nat) :
    (diffRest (a :: l))[k]? = match (a :: l)[k]?, (a :: l)[k + 1]? with
      | some x, some y => some (sub? y x)
      | _, _ => none := by
  induction l generalizing a k with
  | nil => simp [diffRest]
  | cons b l ih =>
    cases k with
    | zero => simp [diffRest]
    | succ k => simpa [diffRest] using ih b k

/-- C72: the value of every time after the first is the change of the running total since the time before it, a
missing total making it missing; the value of the first time is 0. There are as many values as totals, and an empty
period is an error. -/
theorem C72_consecutive (totals : List (Option K)) : (wrfPrecip totals = none ↔ totals = []) ∧
    ∀ p, wrfPrecip totals = some p → p.length = totals.length ∧ p[0]? = some (some 0) ∧
      ∀ (k : Nat) x y, totals[k]? = some x → totals[k + 1]? = some y →
        ∃ v, p[k + 1]? = some v ∧ ∀ d, v = some d ↔ ∃ a b, x = some a ∧ y = some b ∧ d = b - a := by
  cases totals with
  | nil => exact ⟨by simp [wrfPrecip], fun p h => by simp [wrfPrecip] at h⟩
  | cons a l =>
    refine ⟨by simp [wrfPrecip], fun p h => ?_⟩
    have h : some 0 :: diffRest (a :: l) = p := Option.some.inj h
    subst h
    have hlen : ∀ (a : Option K) l, (diffRest (a :: l)).length = l.length := by
      intro a l
      induction l generalizing a with
      | nil => rfl
      | cons b l ih => simp [diffRest, ih b]
    refine ⟨by simp [hlen], rfl, fun k x y hx hy => ⟨sub? y x, ?_, ?_⟩⟩
    · rw [List.getElem?_cons_succ, diffRest_get, hx, hy]
    · intro d
      cases x with
      | none => cases y <;> simp [sub?]
      | some a => cases y with
        | none => simp [sub?]
        | some b => simp [sub?, eq_comm]

theorem precip_values (a : K) (l : List K) : wrfPrecip ((a :: l).map some) =
    some ((0 :: (List.zipWith (fun x y => y - x) (a :: l) l)).map some) := by
  unfold wrfPrecip
  simp only [List.map_cons]
  congr 1
  simp only [List.tail_cons, List.cons.injEq, true_and]
  induction l generalizing a with
  | nil => rfl
  | cons b l ih =>
    simp only [List.map_cons, diffRest, sub?]
    rw [ih b]
    rfl

/-- C72: without missing totals the hourly values add up to the change of the running total over the period: after
every number of times their sum is the total minus the first total. -/
theorem C72_sum (a : K) (l : List K) : ∃ p : List K, wrfPrecip ((a :: l).map some) = some (p.map some) ∧
    ∀ (k : Nat) t, (a :: l)[k]? = some t → (p.take (k + 1)).sum = t - a := by
  refine ⟨_, precip_values a l, ?_⟩
  have key : ∀ (l : List K) (a : K) (k : Nat) t, (a :: l)[k]? = some t →
      ((List.zipWith (fun x y => y - x) (a :: l) l).take k).sum = t - a := by
    intro l
    induction l with
    | nil =>
      intro a k t h
      cases k with
      | zero => simp at h; simp [h]
      | succ k => simp at h
    | cons b l ih =>
      intro a k t h
      cases k with
      | zero => simp at h; simp [h]
      | succ k =>
        have := ih b k t (by simpa using h)
        rw [List.zipWith_cons_cons, List.take_succ_cons, List.sum_cons, this]
        ring
  intro k t h
  rw [List.take_succ_cons, List.sum_cons, zero_add]
  exact key l a k t h

/-- C72: if the running total never decreases the hourly values are not negative. -/
theorem C72_nonneg (a : K) (l : List K) (h : (a :: l).Pairwise (· ≤ ·)) :
    ∃ p : List K, wrfPrecip ((a :: l).map some) = some (p.map some) ∧ ∀ v ∈ p, 0 ≤ v := by
  refine ⟨_, precip_values a l, ?_⟩
  have key : ∀ (l : List K) (a : K), (a :: l).Pairwise (· ≤ ·) →
      ∀ v ∈ List.zipWith (fun x y => y - x) (a :: l) l, 0 ≤ v := by
    intro l
    induction l with
    | nil => intro a _ v hv; simp at hv
    | cons b l ih =>
      intro a h v hv
      rw [List.zipWith_cons_cons] at hv
      rcases List.mem_cons.1 hv with rfl | hv
      · have := (List.pairwise_cons.1 h).1 b (by simp)
        linarith
      · exact ih b (List.pairwise_cons.1 h).2 v hv
  intro v hv
  rcases List.mem_cons.1 hv with rfl | hv
  · exact le_refl _
  · exact key l a h v hv

example : wrfPrecip [some (5 : ℚ), some 7, some 7, none, some 9] = some [some 0, some 2, some 0, none, none] := by
  decide +kernel

end Precip

/-! ### C73 -/

theorem speed_norm (u v : ℝ) : windSpeed u v = ‖(⟨u, v⟩ : ℂ)‖ := by
  unfold windSpeed
  rw [Complex.norm_def, Complex.normSq_apply]
  congr 1
  ring

theorem direction_angle (u v : ℝ) : ∃ k : Int, windDirection u v * Real.pi / 180 =
    Complex.arg ⟨u, v⟩ + k * (2 * Real.pi) := by
  have hpi := Real.pi_pos
  unfold windDirection
  simp only
  split
  · exact ⟨1, by push_cast; field_simp; ring⟩
  · exact ⟨0, by push_cast; field_simp; ring⟩

/-- The claim of C73: the components of speed and direction, as the distribution step takes them, are the components
of the data. -/
def C73_full : Prop := ∀ u v, windSpeed u v * Wind.uDirection (windDirection u v) = u ∧
  windSpeed u v * Wind.vDirection (windDirection u v) = v

/-- C73: the speed is the length of the vector, the direction is in `[0, 360)`, and the components of the
distribution step are those of the data exchanged; missing: they are the components themselves. -/
theorem C73_partial (u v : ℝ) : 0 ≤ windSpeed u v ∧ windSpeed u v ^ 2 = u ^ 2 + v ^ 2 ∧
    0 ≤ windDirection u v ∧ windDirection u v < 360 ∧
    windSpeed u v * Wind.uDirection (windDirection u v) = v ∧
    windSpeed u v * Wind.vDirection (windDirection u v) = u := by
  have hpi := Real.pi_pos
  refine ⟨Real.sqrt_nonneg _, Real.sq_sqrt (by positivity), ?_, ?_, ?_, ?_⟩
  · unfold windDirection
    simp only
    have := Complex.neg_pi_lt_arg ⟨u, v⟩
    split
    · have : -180 < Complex.arg ⟨u, v⟩ * 180 / Real.pi := by rw [lt_div_iff₀ hpi]; linarith
      linarith
    · linarith
  · unfold windDirection
    simp only
    have := Complex.arg_le_pi ⟨u, v⟩
    split
    · linarith
    · have : Complex.arg ⟨u, v⟩ * 180 / Real.pi ≤ 180 := by rw [div_le_iff₀ hpi]; linarith
      linarith
  · obtain ⟨k, hk⟩ := direction_angle u v
    rw [Wind.uDirection, hk, Real.sin_add_int_mul_two_pi, speed_norm, Complex.norm_mul_sin_arg]
  · obtain ⟨k, hk⟩ := direction_angle u v
    rw [Wind.vDirection, hk, Real.cos_add_int_mul_two_pi, speed_norm, Complex.norm_mul_cos_arg]

/-- C73 fails: an eastward wind becomes a northward one. -/
theorem C73_fails : ¬ C73_full := by
  intro h
  have h1 := (h 1 0).1
  rw [(C73_partial 1 0).2.2.2.2.1] at h1
  norm_num at h1

/-- C73: the components are right for diagonal winds only, also if the direction is meant as the one from which the
wind comes. -/
theorem C73_diagonal (u v : ℝ) : (windSpeed u v * Wind.uDirection (windDirection u v) = u ↔ u = v) ∧
    (windSpeed u v * Wind.uDirection (windDirection u v) = -u ↔ u = -v) := by
  rw [(C73_partial u v).2.2.2.2.1]
  exact ⟨eq_comm, ⟨fun h => by linarith, fun h => by linarith⟩⟩

/-- C73: the direction is the azimuth of the vector mirrored on the diagonal. -/
theorem C73_mirror (u v : ℝ) : windDirection u v = Wind.azimuth v u := by
  rfl

/-! ### C74 -/

section Cloud

variable {K : Type} [Field K] [LinearOrder K] [IsStrictOrderedRing K]

set_option linter.unusedSectionVars false

/-- The value of `x` limited to `[0, 1]`. -/
def limit01 (x : K) : K := max 0 (min x 1)

theorem clip_some (x : K) : clip (some x) = some (limit01 x) := by
  unfold clip limit01
  simp only [Option.map_some, Option.some.injEq]
  by_cases h : x > 1
  · rw [if_pos h, if_neg (by norm_num), min_eq_right h.le, max_eq_right (by norm_num)]
  · rw [if_neg h, min_eq_left (not_lt.1 h)]
    by_cases h0 : x < 0
    · rw [if_pos h0, max_eq_left h0.le]
    · rw [if_neg h0, max_eq_right (not_lt.1 h0)]

theorem limit01_range (x : K) : 0 ≤ limit01 x ∧ limit01 x ≤ 1 := by
  unfold limit01
  exact ⟨le_max_left _ _, max_le (by norm_num) (min_le_right _ _)⟩

theorem limit01_mono {x y : K} (h : x ≤ y) : limit01 x ≤ limit01 y := by
  unfold limit01
  exact max_le_max le_rfl (min_le_min h le_rfl)

theorem prev_spec (l : List (Option K)) (k : Nat) :
    (prev l k = none → ∀ (i : Nat) a, i ≤ k → l[i]? ≠ some (some a)) ∧
    ∀ i a, prev l k = some (i, a) → i ≤ k ∧ l[i]? = some (some a) ∧ ∀ (j : Nat) b, i < j → j ≤ k → l[j]? ≠ some (some b) := by
  induction k with
  | zero =>
    unfold prev
    split
    · rename_i a h
      refine ⟨fun h => (by cases h), fun i a' e => ?_⟩
      cases e
      exact ⟨le_rfl, h, fun j b h1 h2 => by omega⟩
    · rename_i h
      refine ⟨fun _ i a hi e => ?_, fun i a e => by cases e⟩
      have : i = 0 := by omega
      subst this
      exact h a e
  | succ k ih =>
    unfold prev
    split
    · rename_i a h
      refine ⟨fun h => (by cases h), fun i a' e => ?_⟩
      cases e
      exact ⟨le_rfl, h, fun j b h1 h2 => by omega⟩
    · rename_i h
      refine ⟨fun hn i a hi e => ?_, fun i a e => ?_⟩
      · by_cases hik : i = k + 1
        · subst hik; exact h a e
        · exact ih.1 hn i a (by omega) e
      · obtain ⟨h1, h2, h3⟩ := ih.2 i a e
        refine ⟨by omega, h2, fun j b hj1 hj2 => ?_⟩
        by_cases hjk : j = k + 1
        · subst hjk; exact h b
        · exact h3 j b hj1 (by omega)

theorem next_spec (l : List (Option K)) (k : Nat) :
    (next l k = none → ∀ (i : Nat) a, l[i]? ≠ some (some a)) ∧
    ∀ j b, next l k = some (j, b) → k ≤ j ∧ l[j - k]? = some (some b) ∧ ∀ (i : Nat) a, i < j - k → l[i]? ≠ some (some a) := by
  induction l generalizing k with
  | nil => exact ⟨fun _ i a => by simp, fun j b h => by cases h⟩
  | cons v l ih =>
    cases v with
    | some a =>
      refine ⟨fun h => (by cases h), fun j b h => ?_⟩
      cases h
      exact ⟨le_rfl, by simp, fun i a h => by omega⟩
    | none =>
      obtain ⟨i1, i2⟩ := ih (k + 1)
      refine ⟨fun h i a => ?_, fun j b h => ?_⟩
      · cases i with
        | zero => simp
        | succ i => simpa using i1 h i a
      · obtain ⟨h1, h2, h3⟩ := i2 j b h
        refine ⟨by omega, ?_, fun i a hi => ?_⟩
        · rw [show j - k = (j - (k + 1)) + 1 by omega]; simpa using h2
        · cases i with
          | zero => simp
          | succ i => simpa using h3 i a (by omega)

/-- Daylight: the clear sky radiation is at least 50 and there is a value. `r` is the share of the clear sky
radiation that arrives. -/
def Daylight (data : List (Option K × K)) (k : Nat) (r : K) : Prop :=
  ∃ s b, data[k]? = some (some s, b) ∧ 50 ≤ b ∧ r = s / b

theorem ratio_get (data : List (Option K × K)) (k : Nat) (r : K) :
    (data.map fun p => ratio p.1 p.2)[k]? = some (some r) ↔ Daylight data k r := by
  rw [List.getElem?_map]
  unfold Daylight
  cases h : data[k]? with
  | none => simp
  | some p =>
    obtain ⟨s, b⟩ := p
    show some (ratio s b) = some (some r) ↔ _
    unfold ratio
    by_cases hb : b < 50
    · rw [if_pos hb]
      constructor
      · intro e; cases e
      · rintro ⟨s', b', e, h50, _⟩
        cases e
        exact absurd hb (not_lt.2 h50)
    · rw [if_neg hb]
      cases s with
      | none =>
        constructor
        · intro e; cases e
        · rintro ⟨s', b', e, _⟩; cases e
      | some s =>
        constructor
        · intro e
          exact ⟨s, b, rfl, not_lt.1 hb, (Option.some.inj (Option.some.inj e)).symm⟩
        · rintro ⟨s', b', e, _, e2⟩
          cases e
          rw [e2]; rfl

theorem hrrrCloud_get (data : List (Option K × K)) (k : Nat) (hk : k < data.length) :
    (hrrrCloud data)[k]? = some (clip (interpolateAt (data.map fun p => ratio p.1 p.2) k)) := by
  unfold hrrrCloud
  simp only
  rw [List.getElem?_map, List.getElem?_range (by simpa using hk)]
  rfl

/-- C74: in daylight the cloud factor is the share of the clear sky radiation, limited to `[0, 1]`. -/
theorem C74_day (data : List (Option K × K)) (k : Nat) (r : K) (h : Daylight data k r) :
    (hrrrCloud data)[k]? = some (some (limit01 r)) := by
  have hk : k < data.length := by
    obtain ⟨s, b, e, _⟩ := h
    by_contra hc
    rw [List.getElem?_eq_none (not_lt.1 hc)] at e
    cases e
  rw [hrrrCloud_get data k hk]
  set cf := data.map fun p => ratio p.1 p.2
  have hv : cf[k]? = some (some r) := (ratio_get data k r).2 h
  have hp : prev cf k = some (k, r) := by
    cases k with
    | zero => simp [prev, hv]
    | succ k => simp [prev, hv]
  have hn : next (cf.drop k) k = some (k, r) := by
    have : (cf.drop k)[0]? = some (some r) := by rw [List.getElem?_drop]; simpa using hv
    cases hd : cf.drop k with
    | nil => rw [hd] at this; cases this
    | cons x l =>
      rw [hd] at this
      have : x = some r := Option.some.inj this
      rw [this]; rfl
  unfold interpolateAt
  rw [hp]
  simp only
  rw [hn]
  simp only [if_true]
  rw [clip_some]

/-- C74: between two daylight times the cloud factor lies on the straight line between their shares, limited to
`[0, 1]`; it is therefore between the cloud factors of these two times. -/
theorem C74_night (data : List (Option K × K)) (i j k : Nat) (a b : K) (hik : i < k) (hkj : k < j)
    (hi : Daylight data i a) (hj : Daylight data j b) (hgap : ∀ m r, i < m → m < j → ¬ Daylight data m r) :
    (hrrrCloud data)[k]? = some (some (limit01 (a + (b - a) * (((k : K) - i) / ((j : K) - i))))) ∧
    ∀ c, (hrrrCloud data)[k]? = some (some c) →
      min (limit01 a) (limit01 b) ≤ c ∧ c ≤ max (limit01 a) (limit01 b) := by
  have hjl : j < data.length := by
    obtain ⟨s, b, e, _⟩ := hj
    by_contra hc
    rw [List.getElem?_eq_none (not_lt.1 hc)] at e
    cases e
  have main : (hrrrCloud data)[k]? = some (some (limit01 (a + (b - a) * (((k : K) - i) / ((j : K) - i))))) := by
    rw [hrrrCloud_get data k (by omega)]
    set cf := data.map fun p => ratio p.1 p.2 with hcf
    have vi := (ratio_get data i a).2 hi
    have vj := (ratio_get data j b).2 hj
    have hg : ∀ m r, i < m → m < j → cf[m]? ≠ some (some r) := fun m r h1 h2 e =>
      hgap m r h1 h2 ((ratio_get data m r).1 e)
    have hp : prev cf k = some (i, a) := by
      obtain ⟨p1, p2⟩ := prev_spec cf k
      cases h : prev cf k with
      | none => exact absurd vi (p1 h i a hik.le)
      | some q =>
        obtain ⟨i', a'⟩ := q
        obtain ⟨q1, q2, q3⟩ := p2 i' a' h
        have : i' = i := by
          rcases lt_trichotomy i' i with hlt | heq | hgt
          · exact absurd vi (q3 i a hlt hik.le)
          · exact heq
          · exact absurd q2 (hg i' a' hgt (by omega))
        subst this
        rw [vi] at q2
        cases q2
        rfl
    have hn : next (cf.drop k) k = some (j, b) := by
      obtain ⟨p1, p2⟩ := next_spec (cf.drop k) k
      have vj' : (cf.drop k)[j - k]? = some (some b) := by
        rw [List.getElem?_drop, show k + (j - k) = j by omega]; exact vj
      cases h : next (cf.drop k) k with
      | none => exact absurd vj' (p1 h (j - k) b)
      | some q =>
        obtain ⟨j', b'⟩ := q
        obtain ⟨q1, q2, q3⟩ := p2 j' b' h
        have : j' = j := by
          rcases lt_trichotomy j' j with hlt | heq | hgt
          · rw [List.getElem?_drop, show k + (j' - k) = j' by omega] at q2
            exact absurd q2 (hg j' b' (by omega) hlt)
          · exact heq
          · exact absurd vj' (q3 (j - k) b (by omega))
        subst this
        rw [vj'] at q2
        cases q2
        rfl
    unfold interpolateAt
    rw [hp]
    simp only
    rw [hn]
    simp only
    rw [if_neg (by omega), clip_some]
  refine ⟨main, fun c hc => ?_⟩
  rw [main] at hc
  have hc := Option.some.inj (Option.some.inj hc)
  have hd : (0 : K) < (j : K) - i := by
    have : (i : K) < j := by exact_mod_cast (by omega : i < j)
    linarith
  have ht0 : 0 ≤ ((k : K) - i) / ((j : K) - i) := by
    apply div_nonneg _ hd.le
    have : (i : K) < k := by exact_mod_cast hik
    linarith
  have ht1 : ((k : K) - i) / ((j : K) - i) ≤ 1 := by
    rw [div_le_one hd]
    have : (k : K) < j := by exact_mod_cast hkj
    linarith
  set t := ((k : K) - i) / ((j : K) - i)
  rw [← hc]
  rcases le_total a b with hab | hab
  · have e1 : a ≤ a + (b - a) * t := by nlinarith
    have e2 : a + (b - a) * t ≤ b := by nlinarith
    exact ⟨le_trans (min_le_left _ _) (limit01_mono e1), le_trans (limit01_mono e2) (le_max_right _ _)⟩
  · have e1 : b ≤ a + (b - a) * t := by nlinarith
    have e2 : a + (b - a) * t ≤ a := by nlinarith
    exact ⟨le_trans (min_le_right _ _) (limit01_mono e1), le_trans (limit01_mono e2) (le_max_left _ _)⟩

/-- C74: after the last daylight time the cloud factor stays as it was. -/
theorem C74_carry (data : List (Option K × K)) (i k : Nat) (a : K) (hik : i ≤ k) (hk : k < data.length)
    (hi : Daylight data i a) (hgap : ∀ m r, i < m → ¬ Daylight data m r) :
    (hrrrCloud data)[k]? = some (some (limit01 a)) := by
  rcases Nat.lt_or_ge i k with hlt | hge
  · rw [hrrrCloud_get data k hk]
    set cf := data.map fun p => ratio p.1 p.2
    have vi := (ratio_get data i a).2 hi
    have hg : ∀ m r, i < m → cf[m]? ≠ some (some r) := fun m r h1 e => hgap m r h1 ((ratio_get data m r).1 e)
    obtain ⟨p1, p2⟩ := prev_spec cf k
    have hp : prev cf k = some (i, a) := by
      cases h : prev cf k with
      | none => exact absurd vi (p1 h i a hik)
      | some q =>
        obtain ⟨i', a'⟩ := q
        obtain ⟨q1, q2, q3⟩ := p2 i' a' h
        have : i' = i := by
          rcases lt_trichotomy i' i with hlt | heq | hgt
          · exact absurd vi (q3 i a hlt hik)
          · exact heq
          · exact absurd q2 (hg i' a' hgt)
        subst this
        rw [vi] at q2
        cases q2
        rfl
    have hn : next (cf.drop k) k = none := by
      obtain ⟨n1, n2⟩ := next_spec (cf.drop k) k
      cases h : next (cf.drop k) k with
      | none => rfl
      | some q =>
        obtain ⟨j', b'⟩ := q
        obtain ⟨q1, q2, q3⟩ := n2 j' b' h
        rw [List.getElem?_drop, show k + (j' - k) = j' by omega] at q2
        exact absurd q2 (hg j' b' (by omega))
    unfold interpolateAt
    rw [hp]
    simp only
    rw [hn]
    simp only
    rw [clip_some]
  · have : i = k := by omega
    subst this
    exact C74_day data i a hi

/-- C74: before the first daylight time there is no cloud factor; from then on it is a number in `[0, 1]`. -/
theorem C74_range (data : List (Option K × K)) (k : Nat) (hk : k < data.length) :
    ((∀ m r, m ≤ k → ¬ Daylight data m r) ∧ (hrrrCloud data)[k]? = some none) ∨
    ((∃ m r, m ≤ k ∧ Daylight data m r) ∧ ∃ c, (hrrrCloud data)[k]? = some (some c) ∧ 0 ≤ c ∧ c ≤ 1) := by
  rw [hrrrCloud_get data k hk]
  set cf := data.map fun p => ratio p.1 p.2
  obtain ⟨p1, p2⟩ := prev_spec cf k
  cases h : prev cf k with
  | none =>
    left
    refine ⟨fun m r hm hd => p1 h m r hm ((ratio_get data m r).2 hd), ?_⟩
    unfold interpolateAt
    rw [h]
    rfl
  | some q =>
    obtain ⟨i, a⟩ := q
    obtain ⟨q1, q2, _⟩ := p2 i a h
    right
    refine ⟨⟨i, a, q1, (ratio_get data i a).1 q2⟩, ?_⟩
    have : ∃ x, interpolateAt cf k = some x := by
      unfold interpolateAt
      rw [h]
      simp only
      split
      · exact ⟨_, rfl⟩
      · split
        · exact ⟨_, rfl⟩
        · exact ⟨_, rfl⟩
    obtain ⟨x, hx⟩ := this
    rw [hx, clip_some]
    exact ⟨_, rfl, (limit01_range x).1, (limit01_range x).2⟩

/-- Dawn, noon, dusk, night. -/
example : hrrrCloud [(some (0 : ℚ), 0), (some 300, 600), (none, 800), (some 900, 600), (some 3, 10)] =
    [none, some (1 / 2), some 1, some 1, some 1] := by
  decide +kernel

/-! The single time steps -/

theorem interpolate_two (m v : Option K) : interpolateAt [m, v] 1 = match v with
    | some a => some a
    | none => m := by
  cases v with
  | some a => simp [interpolateAt, prev, next]
  | none => cases m <;> simp [interpolateAt, prev, next]

/-- The rows of a sequence of steps have one value for each of `n` cells. -/
def Sized (n : Nat) (rows : List (List (Option K))) : Prop := ∀ row ∈ rows, row.length = n

/-- C74: single time steps. The first row complete, the cloud factor of a cell is its latest value; nothing else is
used. -/
theorem C74_latest (n : Nat) (first : List (Option K)) (rows : List (List (Option K))) (hs : Sized n (first :: rows))
    (hf : ∀ v ∈ first, v ≠ none) (c : Nat) (hc : c < n) :
    ∃ out x, runCloud (first :: rows) = some out ∧ out.length = n ∧ out[c]? = some (some x) ∧
      ∃ pre row post, first :: rows = pre ++ row :: post ∧ row[c]? = some (some x) ∧
        ∀ later ∈ post, later[c]? = some none := by
  induction rows using List.reverseRecOn with
  | nil =>
    have hlen := hs first (by simp)
    have hnone : first.any (fun v => v.isNone) = false := by
      rw [List.any_eq_false]
      intro v hv
      have := hf v hv
      cases v <;> simp_all
    have hrun : runCloud [first] = some first := by simp [runCloud, checkCloud, firstRow, hnone]
    obtain ⟨x, hx⟩ : ∃ x, first[c]? = some (some x) := by
      have hget : first[c]? = some first[c] := List.getElem?_eq_getElem (by omega)
      cases hv : first[c] with
      | none => exact absurd hv (hf _ (List.getElem_mem _))
      | some x => exact ⟨x, by rw [hget, hv]⟩
    exact ⟨first, x, hrun, hlen, hx, [], first, [], rfl, hx, by simp⟩
  | append_singleton rows row ih =>
    have hs' : Sized n (first :: rows) := fun r hr => hs r (by
      rcases List.mem_cons.1 hr with rfl | hr
      · simp
      · simp [hr])
    obtain ⟨out, x, h1, h2, h3, pre, rw', post, e, h4, h5⟩ := ih hs'
    have hlen : row.length = n := hs row (by simp)
    have hrun : runCloud (first :: (rows ++ [row])) = some (laterRow out row) := by
      have : runCloud (first :: (rows ++ [row])) = checkCloud (runCloud (first :: rows)) row := by
        unfold runCloud
        rw [← List.cons_append, List.foldl_append]; rfl
      rw [this, h1]; rfl
    have hget : ∀ v, row[c]? = some v → (laterRow out row)[c]? = some (interpolateAt [some x, v] 1) := by
      intro v hv
      unfold laterRow
      rw [List.getElem?_zipWith, h3, hv]
    have hl : (laterRow out row).length = n := by simp [laterRow, h2, hlen]
    have hrow : row[c]? = some row[c] := List.getElem?_eq_getElem (by omega)
    cases hv : row[c] with
    | some y =>
      rw [hv] at hrow
      refine ⟨_, y, hrun, hl, ?_, first :: rows, row, [], by simp, hrow, by simp⟩
      rw [hget _ hrow, interpolate_two]
    | none =>
      rw [hv] at hrow
      refine ⟨_, x, hrun, hl, ?_, pre, rw', post ++ [row], ?_, h4, ?_⟩
      · rw [hget _ hrow, interpolate_two]
      · rw [← List.cons_append, e]; simp
      · intro later hl
        rcases List.mem_append.1 hl with hl | hl
        · exact h5 later hl
        · rw [List.mem_singleton] at hl
          rw [hl]; exact hrow

/-- C74: a first step at night is taken for clear sky until the first value of the cell. -/
theorem C74_first_night (n : Nat) (first : List (Option K)) (rows : List (List (Option K)))
    (hs : Sized n (first :: rows)) (hf : none ∈ first) (c : Nat) (hc : c < n) :
    ∃ out x, runCloud (first :: rows) = some out ∧ out.length = n ∧ out[c]? = some (some x) ∧
      ((x = 1 ∧ ∀ row ∈ rows, row[c]? = some none) ∨
        ∃ pre row post, rows = pre ++ row :: post ∧ row[c]? = some (some x) ∧
          ∀ later ∈ post, later[c]? = some none) := by
  have hlen := hs first (by simp)
  have hone : firstRow first = first.map fun _ => some 1 := by
    unfold firstRow
    rw [if_pos]
    rw [List.any_eq_true]
    exact ⟨none, hf, rfl⟩
  have e : runCloud (first :: rows) = runCloud (first.map (fun _ => some 1) :: rows) := by
    have h2 : firstRow (first.map fun _ => some (1 : K)) = first.map fun _ => some 1 := by
      unfold firstRow
      rw [if_neg]
      simp
    unfold runCloud
    simp only [List.foldl_cons, checkCloud, hone, h2]
  obtain ⟨out, x, h1, h2, h3, pre, row, post, e', h4, h5⟩ := C74_latest n (first.map fun _ => some 1) rows
    (fun r hr => by
      rcases List.mem_cons.1 hr with rfl | hr
      · simpa using hlen
      · exact hs r (by simp [hr]))
    (fun v hv => by
      obtain ⟨_, _, rfl⟩ := List.mem_map.1 hv
      simp) c hc
  rw [e]
  refine ⟨out, x, h1, h2, h3, ?_⟩
  cases pre with
  | nil =>
    simp only [List.nil_append, List.cons.injEq] at e'
    obtain ⟨e1, e2⟩ := e'
    left
    rw [← e1, List.getElem?_map, List.getElem?_eq_getElem (by omega)] at h4
    exact ⟨(Option.some.inj (Option.some.inj h4)).symm, fun r hr => h5 r (e2 ▸ hr)⟩
  | cons p pre =>
    simp only [List.cons_append, List.cons.injEq] at e'
    exact Or.inr ⟨pre, row, post, e'.2, h4, h5⟩

/-- C74: all values of single time steps are in `[0, 1]` if the rows are (`C74_range`). -/
theorem C74_steps_range (n : Nat) (first : List (Option K)) (rows : List (List (Option K)))
    (hs : Sized n (first :: rows)) (hr : ∀ row ∈ first :: rows, ∀ v, some v ∈ row → 0 ≤ v ∧ v ≤ 1) (c : Nat) (hc : c < n) :
    ∃ out x, runCloud (first :: rows) = some out ∧ out[c]? = some (some x) ∧ 0 ≤ x ∧ x ≤ 1 := by
  by_cases hf : none ∈ first
  · obtain ⟨out, x, h1, _, h3, h4⟩ := C74_first_night n first rows hs hf c hc
    refine ⟨out, x, h1, h3, ?_⟩
    rcases h4 with ⟨rfl, _⟩ | ⟨pre, row, post, e, h5, _⟩
    · norm_num
    · exact hr row (by rw [e]; simp) x (List.mem_of_getElem? h5)
  · obtain ⟨out, x, h1, _, h3, pre, row, post, e, h5, _⟩ := C74_latest n first rows hs
      (fun v hv h => hf (h ▸ hv)) c hc
    exact ⟨out, x, h1, h3, hr row (by rw [e]; simp) x (List.mem_of_getElem? h5)⟩

/-- The claim of C74 for single time steps: a value handed on is one that the cell had. -/
def C74_full : Prop := ∀ (rows : List (List (Option ℚ))) (c : Nat) (out : List (Option ℚ)) (x y : ℚ),
  runCloud rows = some out → out[c]? = some (some x) →
  (∃ row ∈ rows, row[c]? = some (some y)) → ∃ row ∈ rows, row[c]? = some (some x)

/-- C74 fails: one missing cell in the first step replaces the values of all others by clear sky. -/
theorem C74_fails : ¬ C74_full := by
  intro h
  obtain ⟨row, hr, he⟩ := h [[some (1 / 4), none]] 0 [some 1, some 1] 1 (1 / 4) (by decide +kernel) rfl
    ⟨[some (1 / 4), none], by simp, rfl⟩
  rw [List.mem_singleton] at hr
  rw [hr] at he
  revert he
  decide +kernel

end Cloud

end Verif.Grid
