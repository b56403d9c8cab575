import Verif.Window
import Mathlib.Tactic.Linarith
import Mathlib.Tactic.NormNum
import Mathlib.Tactic.FieldSimp
import Mathlib.Tactic.Ring
import Mathlib.Tactic.LinearCombination

/-!
Properties of the window of directions (C65) and of the far end of the search (C87).
-/

namespace Verif.Window

theorem mem_arange {s e st a : Rat} (hst : 0 < st) :
    a ∈ arange s e st ↔ ∃ k : Nat, s + k * st < e ∧ a = s + k * st := by
  unfold arange
  simp only [List.mem_map, List.mem_range]
  have key : ∀ k : Nat, k < ⌈(e - s) / st⌉.toNat ↔ s + k * st < e := by
    intro k
    have h1 : k < ⌈(e - s) / st⌉.toNat ↔ (k : Int) < ⌈(e - s) / st⌉ := by omega
    rw [h1, Int.lt_ceil, lt_div_iff₀ hst]
    push_cast
    constructor <;> intro h <;> linarith
  constructor
  · rintro ⟨k, hk, rfl⟩
    exact ⟨k, (key k).1 hk, rfl⟩
  · rintro ⟨k, hk, rfl⟩
    exact ⟨k, (key k).2 hk, rfl⟩

theorem mem_directions {inc : Nat} (hi : 0 < inc) {d : Rat} :
    d ∈ directions inc ↔ ∃ k : Nat, d = k * inc ∧ d < 360 := by
  unfold directions
  rw [mem_arange (by exact_mod_cast hi)]
  constructor
  · rintro ⟨k, h1, h2⟩
    rw [zero_add] at h1 h2
    exact ⟨k, h2, by rw [h2]; exact h1⟩
  · rintro ⟨k, h1, h2⟩
    refine ⟨k, ?_, ?_⟩
    · rw [zero_add, ← h1]; exact h2
    · rw [zero_add, ← h1]

theorem mem_window {inc : Int} (hi : 0 < inc) {w d b : Rat} :
    b ∈ window inc w d ↔ ∃ k : Nat, k * (inc : Rat) < w + 1 ∧ b = wrap (d - w / 2 + k * inc) := by
  unfold window
  simp only [List.mem_map]
  constructor
  · rintro ⟨a, ha, rfl⟩
    obtain ⟨k, h1, rfl⟩ := (mem_arange (by exact_mod_cast hi)).1 ha
    exact ⟨k, by linarith, rfl⟩
  · rintro ⟨k, h1, rfl⟩
    exact ⟨_, (mem_arange (by exact_mod_cast hi)).2 ⟨k, by linarith, rfl⟩, rfl⟩

/-! The increment found from the file is the one used to make it. -/

theorem diffs_map_range (f : Nat → Rat) (n : Nat) :
    diffs ((List.range n).map f) = (List.range (n - 1)).map fun k : Nat => f (k + 1) - f k := by
  induction n generalizing f with
  | zero => rfl
  | succ n ih =>
    cases n with
    | zero => rfl
    | succ n =>
      have := ih (fun k => f (k + 1))
      rw [List.range_succ_eq_map, List.map_cons, List.map_map]
      rw [List.range_succ_eq_map (n := n), List.map_cons, List.map_map]
      rw [List.range_succ_eq_map, List.map_cons, List.map_map] at this
      show (f 1 - f 0) :: diffs (f 1 :: _) = _
      have e2 : diffs (f 1 :: List.map ((f ∘ Nat.succ) ∘ Nat.succ) (List.range n)) =
          (List.range n).map fun k : Nat => f (k + 1 + 1) - f (k + 1) := this
      rw [e2, Nat.add_sub_cancel, List.range_succ_eq_map, List.map_cons, List.map_map]
      rfl

theorem trunc_int (n : Int) : trunc (n : Rat) = n := by
  unfold trunc
  split <;> simp

theorem increment_directions {inc : Nat} (h0 : 0 < inc) (h1 : inc < 360) :
    increment (directions inc) = some inc := by
  unfold increment directions arange
  rw [diffs_map_range]
  have e : (List.range (⌈((360 : Rat) - 0) / inc⌉.toNat - 1)).map
      (fun k : Nat => (0 + ((k + 1 : Nat) : Rat) * inc) - (0 + (k : Rat) * inc)) =
      List.replicate (⌈((360 : Rat) - 0) / inc⌉.toNat - 1) (inc : Rat) := by
    apply List.ext_getElem
    · simp
    · intro i h h'
      simp only [List.getElem_map, List.getElem_range, List.getElem_replicate]
      push_cast; ring
  rw [e]
  have hn : 0 < ⌈((360 : Rat) - 0) / inc⌉.toNat - 1 := by
    have : (1 : Int) < ⌈((360 : Rat) - 0) / inc⌉ := by
      rw [Int.lt_ceil, lt_div_iff₀ (by exact_mod_cast h0)]
      push_cast
      have : (inc : Rat) < 360 := by exact_mod_cast h1
      linarith
    omega
  obtain ⟨m, hm⟩ : ∃ m, ⌈((360 : Rat) - 0) / inc⌉.toNat - 1 = m + 1 := ⟨_, (Nat.sub_add_cancel hn).symm⟩
  rw [hm]
  rw [List.replicate_succ]
  show some (trunc ((((inc : Rat) :: List.replicate m (inc : Rat)).map trunc).sum /
    (((inc : Rat) :: List.replicate m (inc : Rat)).length : Rat))) = _
  rw [← List.replicate_succ, List.map_replicate, List.sum_replicate, List.length_replicate]
  have ht : trunc (inc : Rat) = (inc : Int) := by
    have := trunc_int (inc : Int)
    simpa using this
  rw [ht]
  congr 1
  have : ((((m + 1) • (inc : Int) : Int)) : Rat) / ((m + 1 : Nat) : Rat) = ((inc : Int) : Rat) := by
    rw [nsmul_eq_mul]
    push_cast
    have : (m : Rat) + 1 ≠ 0 := by positivity
    field_simp
  rw [this, trunc_int]

/-! ### C65 -/

/-- Directions `d` and `d'` are at most half a window apart, going around the circle. -/
def Within (w d d' : Rat) : Prop := ∃ m : Int, |d' - d + 360 * m| ≤ w / 2

/-- The values at the directions that satisfy `p`. -/
def Selected {α : Type} (ds : List Rat) (p : Rat → Prop) (values picked : List α) : Prop :=
  ∃ keep : List Bool, keep.length = ds.length ∧ (∀ (i : Nat) d, ds[i]? = some d → (keep[i]? = some true ↔ p d)) ∧
    picked = ((keep.zip values).filter fun q => q.1).map Prod.snd

/-- The full claim: the window about `d` takes exactly the directions at most half a window away. -/
def C65_full : Prop :=
  ∀ inc w : Nat, 0 < inc → inc ∣ 360 → inc < 360 → w < 360 → ∀ d ∈ directions inc, ∀ d' ∈ directions inc,
    d' ∈ window inc w d ↔ Within w d d'

theorem wrap_mod (a : Rat) : ∃ m : Int, a = wrap a + 360 * m := by
  unfold wrap
  by_cases h1 : a < 0
  · simp only [if_pos h1]
    by_cases h2 : a + 360 > 360
    · rw [if_pos h2]; exact ⟨0, by push_cast; ring⟩
    · rw [if_neg h2]; exact ⟨-1, by push_cast; ring⟩
  · simp only [if_neg h1]
    by_cases h2 : a > 360
    · rw [if_pos h2]; exact ⟨1, by push_cast; ring⟩
    · rw [if_neg h2]; exact ⟨0, by push_cast; ring⟩

/-- Every direction taken is in the window, whatever the width. -/
theorem C65_sound (inc : Int) (hi : 0 < inc) (w d : Rat) (b : Rat)
    (hw : ∃ h : Nat, w / 2 = h * inc) (hb : b ∈ window inc w d) : Within w d b := by
  obtain ⟨h, hh⟩ := hw
  obtain ⟨k, hk, rfl⟩ := (mem_window hi).1 hb
  obtain ⟨m, hm⟩ := wrap_mod (d - w / 2 + k * inc)
  refine ⟨m, ?_⟩
  have hw2 : w = 2 * h * inc := by linarith
  have hk2 : k ≤ 2 * h := by
    by_contra hc
    have h1 : (2 * h + 1 : Rat) ≤ k := by exact_mod_cast Nat.lt_of_not_le hc
    have h2 : (1 : Rat) ≤ inc := by exact_mod_cast hi
    have h3 : (0 : Rat) ≤ h := by positivity
    nlinarith
  have e : wrap (d - w / 2 + k * inc) - d + 360 * m = (k - h : Rat) * inc := by
    linear_combination -hm - hh
  have e' : wrap (d - w / 2 + k * inc) - d + 360 * (m : Rat) = (k - h : Rat) * inc := e
  rw [e', hh, abs_mul, abs_of_pos (show (0 : Rat) < inc by exact_mod_cast hi)]
  have : |(k : Rat) - h| ≤ h := by
    rw [abs_le]
    have : (k : Rat) ≤ 2 * h := by exact_mod_cast hk2
    constructor
    · have : (0 : Rat) ≤ k := by positivity
      linarith
    · linarith
  exact mul_le_mul_of_nonneg_right this (by exact_mod_cast hi.le)

/-- If half the window is a whole number of increments, the window about `d` takes exactly the directions at
most half a window away around the circle, except that direction 0 may be missing when the window reaches
360. Missing from the full claim: the direction 0 seen from directions just below 360, and windows whose
half is not a multiple of the increment. -/
theorem C65_window_partial (inc : Nat) (hi : 0 < inc) (hdvd : inc ∣ 360) (w : Rat) (hw : ∃ h : Nat, w / 2 = h * inc)
    (hw360 : w < 720) (d d' : Rat) (hd : d ∈ directions inc) (hd' : d' ∈ directions inc)
    (h0 : d' ≠ 0 ∨ d + w / 2 < 360) : d' ∈ window inc w d ↔ Within w d d' := by
  constructor
  · exact C65_sound inc (by exact_mod_cast hi) w d d' (by simpa using hw)
  · rintro ⟨m, hm⟩
    obtain ⟨h, hh⟩ := hw
    obtain ⟨q, hq⟩ := hdvd
    obtain ⟨a, ha, ha2⟩ := (mem_directions hi).1 hd
    obtain ⟨b, hb, hb2⟩ := (mem_directions hi).1 hd'
    have hip : (0 : Rat) < inc := by exact_mod_cast hi
    have hq' : (360 : Rat) = inc * q := by exact_mod_cast hq
    have hd0 : 0 ≤ d := by rw [ha]; positivity
    have hd0' : 0 ≤ d' := by rw [hb]; positivity
    obtain ⟨m1, m2⟩ := abs_le.1 hm
    have mlo : -1 ≤ m := by
      by_contra hc
      have : (m : Rat) ≤ -2 := by exact_mod_cast (by omega : m ≤ -2)
      linarith
    have mhi : m ≤ 1 := by
      by_contra hc
      have : (2 : Rat) ≤ m := by exact_mod_cast (by omega : 2 ≤ m)
      linarith
    -- the number of the term
    have hk : -(h : Int) ≤ (b : Int) - a + q * m ∧ (b : Int) - a + q * m ≤ h := by
      have e : d' - d + 360 * m = (((b : Int) - a + q * m : Int) : Rat) * inc := by
        rw [ha, hb, hq']; push_cast; ring
      rw [e] at m1 m2
      rw [hh] at m1 m2
      constructor
      · have : (-(h : Int) : Rat) ≤ (((b : Int) - a + q * m : Int) : Rat) := by
          apply le_of_mul_le_mul_right _ hip
          push_cast at m1 ⊢; linarith
        exact_mod_cast this
      · have : (((b : Int) - a + q * m : Int) : Rat) ≤ ((h : Int) : Rat) := by
          apply le_of_mul_le_mul_right _ hip
          push_cast at m2 ⊢; linarith
        exact_mod_cast this
    obtain ⟨k, hkk⟩ : ∃ k : Nat, (k : Int) = (b : Int) - a + q * m + h := ⟨_, Int.toNat_of_nonneg (by omega)⟩
    have hkr : (k : Rat) = (b : Rat) - a + q * m + h := by exact_mod_cast hkk
    refine (mem_window (by exact_mod_cast hi)).2 ⟨k, ?_, ?_⟩
    · have h2 : (k : Rat) ≤ 2 * h := by exact_mod_cast (by omega : (k : Int) ≤ 2 * h)
      have h3 : (k : Rat) * inc ≤ 2 * h * inc := mul_le_mul_of_nonneg_right h2 hip.le
      push_cast; linarith
    · have ev : d - w / 2 + k * ((inc : Int) : Rat) = d' + 360 * m := by
        rw [hh, hkr, ha, hb, hq']; push_cast; ring
      rw [ev]
      have h3 : m = -1 ∨ m = 0 ∨ m = 1 := by omega
      unfold wrap
      rcases h3 with rfl | rfl | rfl
      · push_cast
        have : d' + 360 * (-1) < 0 := by linarith
        simp only [if_pos this]
        rw [if_neg (by linarith)]; ring
      · push_cast
        have : ¬ d' + 360 * 0 < 0 := by linarith
        simp only [if_neg this]
        rw [if_neg (by linarith)]; ring
      · push_cast
        have : ¬ d' + 360 * 1 < 0 := by linarith
        simp only [if_neg this]
        have hne : d' ≠ 0 := by
          rcases h0 with h0 | h0
          · exact h0
          · intro h'
            rw [h'] at m2
            push_cast at m2
            linarith
        have : 0 < d' := lt_of_le_of_ne hd0' (Ne.symm hne)
        rw [if_pos (by linarith)]; ring

/-- A window of 20 degrees about 350 in steps of 10 takes 340 and 350. -/
example : (340 : Rat) ∈ window 10 20 350 ↔ Within 20 350 340 :=
  C65_window_partial 10 (by norm_num) ⟨36, rfl⟩ 20 ⟨1, by norm_num⟩ (by norm_num) 350 340
    ((mem_directions (by norm_num)).2 ⟨35, by norm_num, by norm_num⟩)
    ((mem_directions (by norm_num)).2 ⟨34, by norm_num, by norm_num⟩) (Or.inl (by norm_num))

/-- Direction 0 is missed from every direction below 360 whose window reaches exactly to or past north. -/
theorem C65_north_fails (inc : Nat) (hi : 0 < inc) (w : Rat) (d : Rat) (hd : d ∈ directions inc)
    (hlow : w / 2 < d) (hreach : 360 ≤ d + w / 2) (hw360 : w < 720) :
    (0 : Rat) ∉ window inc w d ∧ Within w d 0 := by
  obtain ⟨a, ha, ha2⟩ := (mem_directions hi).1 hd
  constructor
  · intro hb
    obtain ⟨k, hk, he⟩ := (mem_window (by exact_mod_cast hi)).1 hb
    have hp : 0 < d - w / 2 + k * ((inc : Int) : Rat) := by
      have : (0 : Rat) ≤ k * ((inc : Int) : Rat) := by positivity
      linarith
    unfold wrap at he
    simp only [if_neg (not_lt.2 hp.le)] at he
    split at he <;> linarith
  · refine ⟨1, ?_⟩
    rw [abs_le]
    push_cast
    constructor <;> linarith

theorem C65_fails : ¬ C65_full := by
  intro hf
  have hd : (350 : Rat) ∈ directions 10 := (mem_directions (by norm_num)).2 ⟨35, by norm_num, by norm_num⟩
  have h0 : (0 : Rat) ∈ directions 10 := (mem_directions (by norm_num)).2 ⟨0, by norm_num, by norm_num⟩
  have h := C65_north_fails 10 (by norm_num) ((20 : Nat) : Rat) 350 hd (by norm_num) (by norm_num) (by norm_num)
  exact h.1 ((hf 10 20 (by norm_num) ⟨36, rfl⟩ (by norm_num) (by norm_num) 350 hd 0 h0).2 h.2)

/-- If half the window is not a multiple of the increment, no direction is found, not even `d` itself. -/
theorem C65_misaligned_fails (inc : Nat) (hi : 0 < inc) (hdvd : inc ∣ 360) (w : Rat)
    (hw : ¬ ∃ h : Int, w / 2 = h * inc) (d : Rat) (hd : d ∈ directions inc) :
    ∀ d' ∈ directions inc, d' ∉ window inc w d := by
  intro d' hd' hm
  obtain ⟨k, _, he⟩ := (mem_window (by exact_mod_cast hi)).1 hm
  obtain ⟨m, hm⟩ := wrap_mod (d - w / 2 + k * ((inc : Int) : Rat))
  obtain ⟨a, ha, _⟩ := (mem_directions hi).1 hd
  obtain ⟨b, hb, _⟩ := (mem_directions hi).1 hd'
  obtain ⟨q, hq⟩ := hdvd
  have hq' : (360 : Rat) = inc * q := by exact_mod_cast hq
  rw [← he, ha, hb, hq'] at hm
  refine hw ⟨(a : Int) + k - b - q * m, ?_⟩
  push_cast at hm ⊢
  linear_combination -hm

/-- A window of 30 degrees in steps of 10. -/
example : ∀ d' ∈ directions 10, d' ∉ window 10 30 50 := by
  refine C65_misaligned_fails 10 (by norm_num) ⟨36, rfl⟩ 30 ?_ 50
    ((mem_directions (by norm_num)).2 ⟨5, by norm_num, by norm_num⟩)
  rintro ⟨h, hh⟩
  have h2 : (3 : Rat) = ((2 * h : Int) : Rat) := by push_cast at hh ⊢; linarith
  have : (3 : Int) = 2 * h := by exact_mod_cast h2
  omega

theorem pick_eq {α : Type} (keep : List Bool) (values : List α) :
    pick keep values = ((keep.zip values).filter fun q => q.1).map Prod.snd := by
  induction keep generalizing values with
  | nil => cases values <;> simp [pick]
  | cons b bs ih =>
    cases values with
    | nil => cases b <;> simp [pick]
    | cons v vs => cases b <;> simp [pick, ih]

/-- The value is the arithmetic mean of the list, NaN for an empty one. -/
def IsMean (l : List Rat) (v : Option Rat) : Prop :=
  (v = none ↔ l = []) ∧ ∀ a, v = some a → a * l.length = l.sum

theorem mean_spec (l : List Rat) : IsMean l (mean l) := by
  unfold IsMean mean
  cases l with
  | nil => simp
  | cons x l =>
    rw [if_neg (by simp)]
    refine ⟨by simp, fun a h => ?_⟩
    rw [← Option.some.inj h]
    have : (((x :: l).length : Nat) : Rat) ≠ 0 := by
      rw [List.length_cons]; positivity
    field_simp

/-- The averages written: for every direction but those whose window reaches 360, the mean of the values at the
directions at most half a window away, each counted once. -/
theorem C65_mean_partial (inc : Nat) (hi : 0 < inc) (hi2 : inc < 360) (hdvd : inc ∣ 360) (w : Rat)
    (hw : ∃ h : Nat, w / 2 = h * inc) (hw360 : w < 720) (values : List Rat) :
    ∃ out, windower (directions inc) w values = some out ∧ out.length = (directions inc).length ∧
      ∀ (i : Nat) d, (directions inc)[i]? = some d → d + w / 2 < 360 →
        ∃ picked v, out[i]? = some v ∧ IsMean picked v ∧ Selected (directions inc) (Within w d) values picked := by
  unfold windower
  rw [increment_directions hi hi2]
  refine ⟨_, rfl, by simp, ?_⟩
  intro i d hd hlim
  refine ⟨pick (ismember (directions inc) (window inc w d)) values, _, ?_, mean_spec _, ?_⟩
  · rw [List.getElem?_map, hd]; rfl
  · refine ⟨ismember (directions inc) (window inc w d), by simp [ismember], ?_, pick_eq _ _⟩
    intro j d' hd'
    unfold ismember
    rw [List.getElem?_map, hd']
    simp only [Option.map_some, Option.some.injEq, decide_eq_true_eq]
    exact C65_window_partial inc hi hdvd w hw hw360 d d' (List.mem_of_getElem? hd) (List.mem_of_getElem? hd') (Or.inr hlim)

/-- With half the window not a multiple of the increment every average is NaN. -/
theorem C65_nan_fails (inc : Nat) (hi : 0 < inc) (hi2 : inc < 360) (hdvd : inc ∣ 360) (w : Rat)
    (hw : ¬ ∃ h : Int, w / 2 = h * inc) (values : List Rat) :
    windower (directions inc) w values = some ((directions inc).map fun _ => none) := by
  unfold windower
  rw [increment_directions hi hi2]
  show some _ = some _
  congr 1
  apply List.map_congr_left
  intro d hd
  have hall : ismember (directions inc) (window inc w d) = (directions inc).map fun _ => false := by
    unfold ismember
    apply List.map_congr_left
    intro d' hd'
    exact decide_eq_false (C65_misaligned_fails inc hi hdvd w hw d hd d' hd')
  have hp : ∀ (l : List Rat) (v : List Rat), pick (l.map fun _ => false) v = [] := by
    intro l
    induction l with
    | nil => intro v; cases v <;> rfl
    | cons a l ih => intro v; cases v with
      | nil => rfl
      | cons b v => exact ih v
  show mean (pick (ismember (directions inc) (window inc w d)) values) = none
  rw [hall, hp]; rfl

/-- The defaults of the script: steps of 5 degrees, a window of 100 degrees. -/
example (values : List Rat) : ∃ out, windower (directions 5) 100 values = some out ∧ out.length = (directions 5).length :=
  let ⟨out, h1, h2, _⟩ := C65_mean_partial 5 (by norm_num) (by norm_num) ⟨72, rfl⟩ 100 ⟨10, by norm_num⟩ (by norm_num) values
  ⟨out, h1, h2⟩

/-! ### C87 -/

/-- The far end is, along each axis, within half a cell of the point at distance `dmax` in the direction of the
azimuth, clockwise from north, on a grid whose columns go east and whose rows go south. -/
theorem C87_far_end (dx dy dmax angle : ℝ) (hx : 0 < dx) (hy : 0 < dy) (X Y : Int) :
    |((farEnd dx dy dmax angle X Y).1 : ℝ) * dx - (X * dx + dmax * Real.sin (angle / 180 * Real.pi))| ≤ dx / 2 ∧
    |((farEnd dx dy dmax angle X Y).2 : ℝ) * dy - (Y * dy - dmax * Real.cos (angle / 180 * Real.pi))| ≤ dy / 2 := by
  have near : ∀ (d u : ℝ), 0 < d → |(⌊u / d + 0.5⌋ : ℝ) * d - u| ≤ d / 2 := by
    intro d u hd
    have h1 := Int.floor_le (u / d + 0.5)
    have h2 := Int.lt_floor_add_one (u / d + 0.5)
    have e : u = u / d * d := by field_simp
    have h3 : (⌊u / d + 0.5⌋ : ℝ) * d - u = ((⌊u / d + 0.5⌋ : ℝ) - u / d) * d := by
      rw [sub_mul, ← e]
    rw [h3, abs_mul, abs_of_pos hd]
    have : |(⌊u / d + 0.5⌋ : ℝ) - u / d| ≤ 1 / 2 := by
      rw [abs_le]
      rw [show (0.5 : ℝ) = 1 / 2 by norm_num] at h1 h2 ⊢
      constructor <;> linarith
    nlinarith
  have ha : angle / 180 * Real.pi = angle * (Real.pi / 180) := by ring
  have c := Real.cos_sub_pi_div_two (angle * (Real.pi / 180))
  have s := Real.sin_sub_pi_div_two (angle * (Real.pi / 180))
  unfold farEnd
  simp only [c, s, ha]
  refine ⟨near dx _ hx, ?_⟩
  have := near dy (Y * dy + dmax * -Real.cos (angle * (Real.pi / 180))) hy
  have e : (Y : ℝ) * dy + dmax * -Real.cos (angle * (Real.pi / 180)) =
    Y * dy - dmax * Real.cos (angle * (Real.pi / 180)) := by ring
  rw [e] at this ⊢
  exact this

/-- Wind from the north, 100 metres, cells of 50 metres: two rows up. -/
example : (farEnd 50 50 100 0 3 7) = (3, 5) := by
  unfold farEnd
  simp only [zero_mul, zero_sub, Real.cos_neg, Real.sin_neg, Real.cos_pi_div_two, Real.sin_pi_div_two]
  norm_num

/-- The azimuth of the far end on the ground, for a grid whose rows go north (`y` increasing with the row), is
mirrored: a wind from the north is searched towards the south. -/
theorem C87_rows_north_fails (y0 dy dmax : ℝ) (hy : 0 < dy) (hd : dy ≤ dmax) (X Y : Int) :
    (y0 + (farEnd dy dy dmax 0 X Y).2 * dy) < y0 + Y * dy := by
  have h := (C87_far_end dy dy dmax 0 hy hy X Y).2
  rw [zero_div, zero_mul, Real.cos_zero, mul_one, abs_le] at h
  linarith [h.2]

end Verif.Window
