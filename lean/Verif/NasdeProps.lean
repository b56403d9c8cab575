import Verif.Nasde
import Mathlib.Algebra.Order.BigOperators.Group.Finset
import Mathlib.Algebra.Order.Field.Rat
import Mathlib.Tactic.Linarith
import Mathlib.Tactic.NormNum
import Mathlib.Tactic.FieldSimp
import Mathlib.Tactic.Ring
import Mathlib.Tactic.Positivity

/-! C29 - C32: phase and density of precipitation. -/

namespace Verif.Nasde

/-! ### C29 -/

section
variable {K : Type} [Field K] [LinearOrder K] [IsStrictOrderedRing K]

/-- The table of the documentation (`smrf/envphys/nasde_model/susong_1999.py:15-29`) as a list of
half-open temperature classes: lower bound, upper bound, percent snow, density. -/
def documented (t : K) : K × K :=
  if t < -5 then (1, 75)
  else if t < -3 then (1, 100)
  else if t < -3 / 2 then (1, 150)
  else if t < -1 / 2 then (1, 175)
  else if t < 0 then (3 / 4, 200)
  else if t < 1 / 2 then (1 / 4, 250)
  else (0, 0)

/-- Membership of a temperature in a class of the table. -/
def InClass (r : TableRow K) (t : K) : Prop :=
  (∀ a, r.tmin = some a → a ≤ t) ∧ (∀ b, r.tmax = some b → t < b)

omit [IsStrictOrderedRing K] in
theorem hits_iff (r : TableRow K) (t : K) : r.hits (some t) = true ↔ InClass r t := by
  obtain ⟨a, b, s, d⟩ := r
  unfold TableRow.hits InClass
  cases a <;> cases b <;> simp

/-- Every temperature is in exactly one class. -/
theorem C29_one_class (t : K) : ∃ r ∈ (table : List (TableRow K)), InClass r t ∧
    ∀ r' ∈ (table : List (TableRow K)), InClass r' t → r' = r := by
  simp only [table, List.mem_cons, List.not_mem_nil, or_false, exists_eq_or_imp, forall_eq_or_imp,
    forall_eq, exists_eq_left, InClass, Option.some.injEq, forall_eq', reduceCtorEq, false_implies,
    implies_true, true_and, and_true, TableRow.mk.injEq]
  by_cases h1 : t < -5
  · left; refine ⟨h1, ?_⟩
    refine ⟨?_, ?_, ?_, ?_, ?_, ?_⟩ <;> intro h <;> exfalso <;> first | linarith | linarith [h.1, h.2]
  by_cases h2 : t < -3
  · right; left; refine ⟨by constructor <;> linarith, ?_⟩
    refine ⟨?_, ?_, ?_, ?_, ?_, ?_⟩ <;> intro h <;> exfalso <;> first | linarith | linarith [h.1, h.2]
  by_cases h3 : t < -3 / 2
  · right; right; left; refine ⟨by constructor <;> linarith, ?_⟩
    refine ⟨?_, ?_, ?_, ?_, ?_, ?_⟩ <;> intro h <;> exfalso <;> first | linarith | linarith [h.1, h.2]
  by_cases h4 : t < -1 / 2
  · right; right; right; left; refine ⟨by constructor <;> linarith, ?_⟩
    refine ⟨?_, ?_, ?_, ?_, ?_, ?_⟩ <;> intro h <;> exfalso <;> first | linarith | linarith [h.1, h.2]
  by_cases h5 : t < 0
  · right; right; right; right; left; refine ⟨by constructor <;> linarith, ?_⟩
    refine ⟨?_, ?_, ?_, ?_, ?_, ?_⟩ <;> intro h <;> exfalso <;> first | linarith | linarith [h.1, h.2]
  by_cases h6 : t < 1 / 2
  · right; right; right; right; right; left; refine ⟨by constructor <;> linarith, ?_⟩
    refine ⟨?_, ?_, ?_, ?_, ?_, ?_⟩ <;> intro h <;> exfalso <;> first | linarith | linarith [h.1, h.2]
  · right; right; right; right; right; right; refine ⟨by linarith, ?_⟩
    refine ⟨?_, ?_, ?_, ?_, ?_, ?_⟩ <;> intro h <;> exfalso <;> linarith

theorem classify_eq (t : K) : classify (some t) = documented t := by
  unfold classify documented
  simp only [table, List.foldl_cons, List.foldl_nil, TableRow.hits, Bool.true_and, Bool.and_true,
    Bool.and_eq_true, decide_eq_true_eq, true_and, and_true]
  by_cases h7 : 1 / 2 ≤ t
  · simp only [h7, if_true]
    rw [if_neg (by linarith), if_neg (by linarith), if_neg (by linarith), if_neg (by linarith),
      if_neg (by linarith), if_neg (by linarith)]
  rw [if_neg h7]
  by_cases h6 : 0 ≤ t
  · rw [if_pos ⟨h6, by linarith⟩]
    rw [if_neg (by linarith), if_neg (by linarith), if_neg (by linarith), if_neg (by linarith),
      if_neg (by linarith), if_pos (by linarith)]
  rw [if_neg (fun h => h6 h.1)]
  by_cases h5 : -1 / 2 ≤ t
  · rw [if_pos ⟨h5, by linarith⟩]
    rw [if_neg (by linarith), if_neg (by linarith), if_neg (by linarith), if_neg (by linarith),
      if_pos (by linarith)]
  rw [if_neg (fun h => h5 h.1)]
  by_cases h4 : -3 / 2 ≤ t
  · rw [if_pos ⟨h4, by linarith⟩]
    rw [if_neg (by linarith), if_neg (by linarith), if_neg (by linarith), if_pos (by linarith)]
  rw [if_neg (fun h => h4 h.1)]
  by_cases h3 : -3 ≤ t
  · rw [if_pos ⟨h3, by linarith⟩]
    rw [if_neg (by linarith), if_neg (by linarith), if_pos (by linarith)]
  rw [if_neg (fun h => h3 h.1)]
  by_cases h2 : -5 ≤ t
  · rw [if_pos ⟨h2, by linarith⟩]
    rw [if_neg (by linarith), if_pos (by linarith)]
  rw [if_neg (fun h => h2 h.1), if_pos (by linarith), if_pos (by linarith)]

open scoped BigOperators in
/-- With no negative precipitation the image-wide shortcut changes nothing: wet cells get the
documented class, dry cells zeros. -/
theorem C29_documented {ι : Type} [Fintype ι] (temp precip : ι → K) (hp : ∀ i, 0 ≤ precip i) (i : ι) :
    susong1999 (fun i => some (temp i)) precip i =
      if precip i = 0 then (0, 0) else documented (temp i) := by
  unfold susong1999
  by_cases h : ∑ j, precip j = 0
  · rw [if_pos h]
    have := (Finset.sum_eq_zero_iff_of_nonneg fun j _ => hp j).1 h i (Finset.mem_univ i)
    rw [if_pos this]
  · rw [if_neg h]
    simp only [classify_eq]

omit [IsStrictOrderedRing K] in
/-- Cells without precipitation get zeros, whatever the temperature and the other cells. -/
theorem C29_dry {ι : Type} [Fintype ι] (temp : ι → Option K) (precip : ι → K) (i : ι)
    (h : precip i = 0) : susong1999 temp precip i = (0, 0) := by
  unfold susong1999
  split
  · rfl
  · simp [h]

/-- Percent snow is a fraction; density is zero exactly together with percent snow and otherwise
between 75 and 250. -/
theorem C29_range {ι : Type} [Fintype ι] (temp precip : ι → K) (hp : ∀ i, 0 ≤ precip i) (i : ι) :
    let r := susong1999 (fun i => some (temp i)) precip i
    0 ≤ r.1 ∧ r.1 ≤ 1 ∧ (r.2 = 0 ↔ r.1 = 0) ∧ (r.2 ≠ 0 → 75 ≤ r.2 ∧ r.2 ≤ 250) := by
  simp only
  rw [C29_documented temp precip hp i]
  split
  · norm_num
  · unfold documented
    repeat' split
    all_goals norm_num

/-- Percent snow does not increase with temperature. -/
theorem C29_monotone {ι : Type} [Fintype ι] (temp precip : ι → K) (hp : ∀ i, 0 ≤ precip i) (i j : ι)
    (hi : precip i ≠ 0) (hj : precip j ≠ 0) (h : temp i ≤ temp j) :
    (susong1999 (fun i => some (temp i)) precip j).1 ≤
      (susong1999 (fun i => some (temp i)) precip i).1 := by
  rw [C29_documented temp precip hp i, C29_documented temp precip hp j, if_neg hi, if_neg hj]
  unfold documented
  generalize temp i = a at *
  generalize temp j = b at *
  by_cases a1 : a < -5
  · rw [if_pos a1]; repeat' split
    all_goals norm_num
  rw [if_neg a1, if_neg (show ¬ b < -5 by intro; linarith)]
  by_cases a2 : a < -3
  · rw [if_pos a2]; repeat' split
    all_goals norm_num
  rw [if_neg a2, if_neg (show ¬ b < -3 by intro; linarith)]
  by_cases a3 : a < -3 / 2
  · rw [if_pos a3]; repeat' split
    all_goals norm_num
  rw [if_neg a3, if_neg (show ¬ b < -3 / 2 by intro; linarith)]
  by_cases a4 : a < -1 / 2
  · rw [if_pos a4]; repeat' split
    all_goals norm_num
  rw [if_neg a4, if_neg (show ¬ b < -1 / 2 by intro; linarith)]
  by_cases a5 : a < 0
  · rw [if_pos a5]; repeat' split
    all_goals norm_num
  rw [if_neg a5, if_neg (show ¬ b < 0 by intro; linarith)]
  by_cases a6 : a < 1 / 2
  · rw [if_pos a6]; repeat' split
    all_goals norm_num
  rw [if_neg a6, if_neg (show ¬ b < 1 / 2 by intro; linarith)]

/-- A NaN temperature is in no class and gives no snow. -/
theorem C29_nan {ι : Type} [Fintype ι] (temp : ι → Option K) (precip : ι → K) (i : ι)
    (h : temp i = none) : susong1999 temp precip i = (0, 0) := by
  unfold susong1999
  split
  · rfl
  · simp only [h]
    split
    · rfl
    · rfl

end

/-- Three cells: cold and wet, near zero and wet, cold and dry. -/
def demoTemp (i : Fin 3) : ℚ := if i = 1 then -1 / 4 else -4
def demoPrecip (i : Fin 3) : ℚ := if i = 2 then 0 else 3

theorem demoPrecip_nonneg (i : Fin 3) : 0 ≤ demoPrecip i := by
  unfold demoPrecip; split <;> norm_num

example : susong1999 (fun i => some (demoTemp i)) demoPrecip 0 = (1, 100) ∧
    susong1999 (fun i => some (demoTemp i)) demoPrecip 1 = (3 / 4, 200) ∧
    susong1999 (fun i => some (demoTemp i)) demoPrecip 2 = (0, 0) := by
  simp only [C29_documented _ _ demoPrecip_nonneg]
  norm_num [documented, demoTemp, demoPrecip]
  decide

/-! ### C30 -/

section
variable {K : Type} [Field K] [LinearOrder K] [IsStrictOrderedRing K]

theorem ps_cold (tmax t : K) (h : t ≤ -1 / 2) : percentSnow tmax t = 1 := by
  unfold percentSnow
  simp only
  rw [if_neg (fun h' => by linarith [h'.1]), if_neg (fun h' => by linarith [h'.1]), if_pos h]

theorem ps_mid (tmax t : K) (h1 : -1 / 2 < t) (h2 : t ≤ 0) :
    percentSnow tmax t = 3 / 4 - t / 2 := by
  unfold percentSnow
  simp only
  rw [if_neg (fun h' => by linarith [h'.1]), if_pos ⟨h1, h2⟩]
  ring

theorem ps_warm (tmax t : K) (h1 : 0 < t) (h2 : t ≤ tmax + 1) :
    percentSnow tmax t = 3 / 4 - 3 / 4 * (t / (tmax + 1)) := by
  unfold percentSnow
  simp only
  rw [if_pos ⟨h1, h2⟩]
  ring

theorem ps_hot (tmax t : K) (h1 : 0 < t) (h2 : tmax + 1 < t) : percentSnow tmax t = 0 := by
  unfold percentSnow
  simp only
  rw [if_neg (fun h' => by linarith [h'.2]), if_neg (fun h' => by linarith [h'.2]),
    if_neg (by linarith)]

/-- All snow at and below -0.5, none above `tmax + 1`. -/
theorem C30_ends (tmax t : K) (hm : -1 < tmax) :
    (t ≤ -1 / 2 → percentSnow tmax t = 1) ∧ (tmax + 1 ≤ t → percentSnow tmax t = 0) := by
  refine ⟨ps_cold tmax t, fun h => ?_⟩
  rcases eq_or_lt_of_le h with h | h
  · rw [ps_warm tmax t (by linarith) (le_of_eq h.symm), ← h, div_self (by linarith)]; ring
  · exact ps_hot tmax t (by linarith) h

/-- Between warmer and colder: percent snow drops, by at most `L` per degree, where `L` is the
steeper of the two slopes. Covers monotonicity and the absence of jumps. -/
theorem ps_lipschitz (tmax x y L : K) (hm : -1 < tmax) (hL1 : 1 / 2 ≤ L)
    (hL2 : 3 / 4 / (tmax + 1) ≤ L) (hxy : x ≤ y) :
    percentSnow tmax y ≤ percentSnow tmax x ∧
      percentSnow tmax x - percentSnow tmax y ≤ L * (y - x) := by
  have hs : 0 < tmax + 1 := by linarith
  obtain ⟨q, hq⟩ : ∃ q, q = 1 / (tmax + 1) := ⟨_, rfl⟩
  have hq0 : 0 < q := by rw [hq]; positivity
  have hqs : q * (tmax + 1) = 1 := by rw [hq]; field_simp
  have hdiv : ∀ t : K, t / (tmax + 1) = q * t := by intro t; rw [hq]; field_simp
  have hLq : 3 / 4 * q ≤ L := by
    have : 3 / 4 / (tmax + 1) = 3 / 4 * q := by rw [hdiv]; ring
    linarith
  have hL0 : 0 ≤ L := by linarith
  have hd : 0 ≤ L * (y - x) := mul_nonneg hL0 (by linarith)
  rcases le_or_gt x (-1 / 2) with x1 | x1
  · rw [ps_cold tmax x x1]
    rcases le_or_gt y (-1 / 2) with y1 | y1
    · rw [ps_cold tmax y y1]; constructor <;> linarith
    rcases le_or_gt y 0 with y2 | y2
    · rw [ps_mid tmax y y1 y2]
      constructor
      · linarith
      · nlinarith
    rcases le_or_gt y (tmax + 1) with y3 | y3
    · rw [ps_warm tmax y y2 y3, hdiv]
      have h1 : 0 ≤ q * y := by positivity
      constructor
      · linarith
      · nlinarith
    · rw [ps_hot tmax y y2 y3]
      constructor
      · linarith
      · nlinarith
  rcases le_or_gt x 0 with x2 | x2
  · rw [ps_mid tmax x x1 x2]
    have y1 : -1 / 2 < y := by linarith
    rcases le_or_gt y 0 with y2 | y2
    · rw [ps_mid tmax y y1 y2]
      constructor
      · linarith
      · nlinarith
    rcases le_or_gt y (tmax + 1) with y3 | y3
    · rw [ps_warm tmax y y2 y3, hdiv]
      have h1 : 0 ≤ q * y := by positivity
      constructor
      · linarith
      · nlinarith
    · rw [ps_hot tmax y y2 y3]
      constructor
      · linarith
      · nlinarith
  have y2 : 0 < y := by linarith
  rcases le_or_gt x (tmax + 1) with x3 | x3
  · rw [ps_warm tmax x x2 x3, hdiv]
    rcases le_or_gt y (tmax + 1) with y3 | y3
    · rw [ps_warm tmax y y2 y3, hdiv]
      constructor
      · nlinarith
      · nlinarith
    · rw [ps_hot tmax y y2 y3]
      constructor
      · nlinarith
      · nlinarith
  · rw [ps_hot tmax x x2 x3, ps_hot tmax y y2 (by linarith)]
    constructor <;> linarith

/-- Non-increasing in temperature. -/
theorem C30_antitone (tmax x y : K) (hm : -1 < tmax) (hxy : x ≤ y) :
    percentSnow tmax y ≤ percentSnow tmax x :=
  (ps_lipschitz tmax x y (max (1 / 2) (3 / 4 / (tmax + 1))) hm (le_max_left _ _) (le_max_right _ _)
    hxy).1

/-- A fraction. -/
theorem C30_range (tmax t : K) (hm : -1 < tmax) :
    0 ≤ percentSnow tmax t ∧ percentSnow tmax t ≤ 1 := by
  constructor
  · have h := C30_antitone tmax t (max t (tmax + 1)) hm (le_max_left _ _)
    rwa [(C30_ends tmax _ hm).2 (le_max_right _ _)] at h
  · have h := C30_antitone tmax (min t (-1 / 2)) t hm (min_le_left _ _)
    rwa [(C30_ends tmax _ hm).1 (min_le_right _ _)] at h

/-- No jumps: Lipschitz with the steeper of the two slopes. -/
theorem C30_no_jumps (tmax x y : K) (hm : -1 < tmax) :
    |percentSnow tmax x - percentSnow tmax y| ≤ max (1 / 2) (3 / 4 / (tmax + 1)) * |x - y| := by
  have key : ∀ a b : K, a ≤ b → |percentSnow tmax a - percentSnow tmax b| ≤
      max (1 / 2) (3 / 4 / (tmax + 1)) * |a - b| := by
    intro a b hab
    obtain ⟨h1, h2⟩ := ps_lipschitz tmax a b (max (1 / 2) (3 / 4 / (tmax + 1))) hm (le_max_left _ _)
      (le_max_right _ _) hab
    rw [abs_of_nonneg (by linarith), abs_of_nonpos (by linarith : a - b ≤ 0)]
    linarith [h2]
  rcases le_total x y with h | h
  · exact key x y h
  · rw [abs_sub_comm, abs_sub_comm x y]; exact key y x h

/-- With `tmax ≤ -1` the warm branch is empty and there is a jump at 0. -/
theorem C30_tmax_needed (tmax t : K) (hm : tmax ≤ -1) :
    percentSnow tmax 0 = 3 / 4 ∧ (0 < t → percentSnow tmax t = 0) := by
  constructor
  · rw [ps_mid tmax 0 (by norm_num) (le_refl _)]; norm_num
  · intro ht; exact ps_hot tmax t ht (by linarith)

end

example : percentSnow (0 : ℚ) (1 / 2) = 3 / 8 := by
  rw [ps_warm 0 (1 / 2) (by norm_num) (by norm_num)]; norm_num

example : (-1 : ℚ) < 0 := by norm_num

/-! ### C31 -/

theorem check_fst (tmax tmin t : ℝ) : (checkTemperature tmax tmin t).1 = max tmin t := by
  unfold checkTemperature
  simp only
  split
  · rw [max_eq_left (by linarith)]
  · rw [max_eq_right (by linarith)]

theorem check_snd (tmax tmin t : ℝ) : (checkTemperature tmax tmin t).2 = min tmax (max tmin t) := by
  have h := check_fst tmax tmin t
  unfold checkTemperature at *
  simp only at *
  rw [h]
  split
  · rename_i h; rw [min_eq_left (le_of_lt h)]
  · rename_i h; rw [min_eq_right (not_lt.1 h)]

/-- The precipitation temperature is raised to `tmin`, and the snow temperature is brought into
`[tmin, tmax]`; temperatures inside are kept. -/
theorem C31_temperatures (tmax tmin t : ℝ) (h : tmin ≤ tmax) :
    let r := checkTemperature tmax tmin t
    tmin ≤ r.1 ∧ (tmin ≤ t → r.1 = t) ∧ tmin ≤ r.2 ∧ r.2 ≤ tmax ∧
      (tmin ≤ t → t ≤ tmax → r.2 = t) := by
  simp only [check_fst, check_snd]
  refine ⟨le_max_left _ _, fun h' => max_eq_right h', le_min h (le_max_left _ _), min_le_left _ _,
    fun h1 h2 => ?_⟩
  rw [max_eq_right h1, min_eq_right h2]

theorem exponent_bounds (tmax tmin ts : ℝ) (h : tmin < tmax) (h1 : tmin ≤ ts) :
    1 ≤ exponent tmax tmin ts ∧ exponent tmax tmin ts ≤ 7 / 4 := by
  unfold exponent
  simp only
  have hr : 0 < tmax - tmin := by linarith
  have h2 : 0 ≤ (tmax - tmin + (ts - tmax)) / (tmax - tmin) := div_nonneg (by linarith) hr.le
  split
  · constructor <;> norm_num
  · constructor
    · linarith
    · linarith

/-- Percent snow and density of the piecewise model: percent snow is a fraction, density is at least
50, and where there is snow it is at most the value at `tmax + 1` with the largest exponent. -/
theorem C31_bounds_partial (tmax tmin t p : ℝ) (hm : -1 < tmax) (h : tmin < tmax) (h15 : -15 ≤ tmin) :
    ∃ pcs rho, piecewise tmax tmin true t p = .ok (pcs, rho) ∧ 0 ≤ pcs ∧ pcs ≤ 1 ∧ 50 ≤ rho ∧
      (0 < pcs → rho ≤ 50 + 17 / 10 * (tmax + 16) ^ (7 / 4 : ℝ)) := by
  refine ⟨_, _, by unfold piecewise; rw [if_pos rfl], (C30_range tmax _ hm).1, (C30_range tmax _ hm).2,
    ?_, ?_⟩
  · unfold density
    have h1 : tmin ≤ (checkTemperature tmax tmin t).1 := (C31_temperatures tmax tmin t h.le).1
    have : 0 ≤ ((checkTemperature tmax tmin t).1 - 0 + 15) ^
        exponent tmax tmin (checkTemperature tmax tmin t).2 := Real.rpow_nonneg (by linarith) _
    linarith
  · intro hp
    have hlt : (checkTemperature tmax tmin t).1 < tmax + 1 := by
      by_contra hge
      rw [(C30_ends tmax _ hm).2 (not_lt.1 hge)] at hp
      exact lt_irrefl _ hp
    have hT := C31_temperatures tmax tmin t h.le
    simp only at hT
    have hex := exponent_bounds tmax tmin (checkTemperature tmax tmin t).2 h hT.2.2.1
    unfold density
    have h1 : ((checkTemperature tmax tmin t).1 - 0 + 15) ^
        exponent tmax tmin (checkTemperature tmax tmin t).2 ≤
        (tmax + 16) ^ exponent tmax tmin (checkTemperature tmax tmin t).2 :=
      Real.rpow_le_rpow (by linarith [hT.1]) (by linarith) (by linarith [hex.1])
    have h2 : (tmax + 16) ^ exponent tmax tmin (checkTemperature tmax tmin t).2 ≤
        (tmax + 16) ^ (7 / 4 : ℝ) :=
      Real.rpow_le_rpow_of_exponent_le (by linarith) hex.2
    linarith

theorem exponent_mono (tmax tmin a b : ℝ) (h : tmin < tmax) (hab : a ≤ b) :
    exponent tmax tmin a ≤ exponent tmax tmin b := by
  have hr : 0 < tmax - tmin := by linarith
  have hq : (tmax - tmin + (a - tmax)) / (tmax - tmin) ≤ (tmax - tmin + (b - tmax)) / (tmax - tmin) :=
    div_le_div_of_nonneg_right (by linarith) hr.le
  unfold exponent
  simp only
  split <;> split <;> linarith

/-- Warmer precipitation gives denser new snow. -/
theorem C31_monotone (tmax tmin s t p q : ℝ) (h : tmin < tmax) (h14 : -14 ≤ tmin) (hst : s ≤ t)
    (ps ds pt dt : ℝ) (h1 : piecewise tmax tmin true s p = .ok (ps, ds))
    (h2 : piecewise tmax tmin true t q = .ok (pt, dt)) : ds ≤ dt := by
  unfold piecewise at h1 h2
  rw [if_pos rfl] at h1 h2
  cases h1; cases h2
  unfold density
  rw [check_fst, check_snd, check_fst, check_snd]
  have hb : max tmin s ≤ max tmin t := max_le_max_left _ hst
  have hge : 1 ≤ max tmin s - 0 + 15 := by have := le_max_left tmin s; linarith
  have hex := exponent_mono tmax tmin (min tmax (max tmin s)) (min tmax (max tmin t)) h
    (min_le_min_left _ hb)
  have hpos := (exponent_bounds tmax tmin (min tmax (max tmin t)) h
    (le_min h.le (le_max_left _ _))).1
  have e1 := Real.rpow_le_rpow_of_exponent_le hge hex
  have e2 : (max tmin s - 0 + 15) ^ exponent tmax tmin (min tmax (max tmin t)) ≤
      (max tmin t - 0 + 15) ^ exponent tmax tmin (min tmax (max tmin t)) :=
    Real.rpow_le_rpow (by linarith) (by linarith) (by linarith)
  linarith

/-- C31 as stated, in short: every call succeeds, and cells without precipitation are zero. -/
def C31_full : Prop :=
  ∀ (tmax tmin t p : ℝ) (check : Bool), -1 < tmax → tmin < tmax → -15 ≤ tmin →
    ∃ pcs rho, piecewise tmax tmin check t p = .ok (pcs, rho) ∧ (p = 0 → pcs = 0 ∧ rho = 0)

/-- Without the temperature check the call always fails. -/
theorem C31_no_check_fails (tmax tmin t p : ℝ) :
    piecewise tmax tmin false t p = .error .unboundLocal := rfl

/-- Cells without precipitation get a density of at least 50 (and a percent snow that ignores the
precipitation). -/
theorem C31_dry_cells_fails (tmax tmin t : ℝ) (hm : -1 < tmax) (h : tmin < tmax) (h15 : -15 ≤ tmin) :
    ∃ pcs rho, piecewise tmax tmin true t 0 = .ok (pcs, rho) ∧ 50 ≤ rho := by
  obtain ⟨pcs, rho, h1, -, -, h2, -⟩ := C31_bounds_partial tmax tmin t 0 hm h h15
  exact ⟨pcs, rho, h1, h2⟩

theorem C31_fails : ¬ C31_full := by
  intro h
  obtain ⟨pcs, rho, h1, h2⟩ := h 0 (-10) (-5) 0 true (by norm_num) (by norm_num) (by norm_num)
  obtain ⟨pcs', rho', h3, h4⟩ := C31_dry_cells_fails 0 (-10) (-5) (by norm_num) (by norm_num)
    (by norm_num)
  rw [h1] at h3
  cases h3
  have := (h2 rfl).2
  linarith

/-- -4 C with the default limits. -/
example : ∃ pcs rho, piecewise 0 (-10) true (-4) 2 = .ok (pcs, rho) ∧ pcs = 1 := by
  refine ⟨_, _, by unfold piecewise; rw [if_pos rfl], ?_⟩
  rw [check_fst]
  exact ps_cold _ _ (by norm_num)

/-! ### C32 -/

section
variable {ι : Type}

/-- Uncompacted density of the cell in kg/m3 (piecewise model with the limits of Marks2017). -/
noncomputable def uncompacted (t : ℝ) : ℝ :=
  density 0 (-10) (max (-10) t) (min 0 (max (-10) t))

/-- Temperature of the falling snow. -/
noncomputable def snowTemp (t : ℝ) : ℝ := min 0 (max (-10) t)

/-- Fraction of snow of the cell. -/
noncomputable def fraction (t : ℝ) : ℝ := percentSnow (0 : ℝ) (max (-10) t)

/-- Compaction by overburden, as documented (`marks_2017.py:27-30` with the constants of the code). -/
noncomputable def overburden (t pp : ℝ) : ℝ :=
  26 / 1000 * Real.exp (-(8 / 100) * (0 - snowTemp t)) * (pp * fraction t) *
    Real.exp (-21 * (uncompacted t / 1000))

/-- Compaction by metamorphism. -/
noncomputable def metamorphism (t : ℝ) : ℝ :=
  1 / 100 * (if 100 ≤ uncompacted t / 1000 * 1000 then
    Real.exp (-(46 / 1000) * (uncompacted t / 1000 * 1000 - 100)) else 1) *
    Real.exp (-(4 / 100) * (0 - snowTemp t))

theorem fraction_range (t : ℝ) : 0 ≤ fraction t ∧ fraction t ≤ 1 :=
  C30_range 0 _ (by norm_num)

/-- SWE is percent snow times precipitation, at every cell, and percent snow is a fraction. -/
theorem C32_swe (tpp pp : ι → ℝ) (i : ι) :
    (marks2017 tpp pp).swe i = pp i * (marks2017 tpp pp).pcs i ∧
    0 ≤ (marks2017 tpp pp).pcs i ∧ (marks2017 tpp pp).pcs i ≤ 1 := by
  unfold marks2017
  simp only
  by_cases h : ∃ i, 0 < pp i
  · rw [if_pos h]
    split
    · exact ⟨rfl, C30_range 0 _ (by norm_num)⟩
    · exact ⟨rfl, C30_range 0 _ (by norm_num)⟩
  · rw [if_neg h]
    simp

theorem marks_pcs (tpp pp : ι → ℝ) (h : ∃ i, 0 < pp i) (i : ι) :
    (marks2017 tpp pp).pcs i = fraction (tpp i) := by
  unfold marks2017 fraction
  simp only
  rw [if_pos h]
  split <;> simp only [check_fst] <;> rw [max_eq_right (le_max_left _ _)]

/-- The shared array after the writes. -/
theorem marks_z (tpp pp : ι → ℝ) (i : ι) (hpos : 0 < pp i) (hf : 0 < fraction (tpp i)) :
    (marks2017 tpp pp).zs i = uncompacted (tpp i) / 1000 +
      (overburden (tpp i) (pp i) + metamorphism (tpp i)) * (uncompacted (tpp i) / 1000) ∧
    (marks2017 tpp pp).rhoS i = (marks2017 tpp pp).zs i * 1000 ∧
    (marks2017 tpp pp).rhoNs i = (marks2017 tpp pp).zs i * 1000 ∧
    (marks2017 tpp pp).dRhoC i = (marks2017 tpp pp).zs i ∧
    (marks2017 tpp pp).dRhoM i = (marks2017 tpp pp).zs i := by
  have h : ∃ i, 0 < pp i := ⟨i, hpos⟩
  have hswe : 0 < pp i * percentSnow (0 : ℝ)
      (checkTemperature (K := ℝ) 0 (-10) (checkTemperature (K := ℝ) 0 (-10) (tpp i)).1).1 := by
    simp only [check_fst]
    rw [max_eq_right (le_max_left _ _)]
    exact mul_pos hpos hf
  unfold marks2017
  simp only
  rw [if_pos h, if_pos ⟨i, hswe⟩]
  refine ⟨?_, rfl, rfl, rfl, rfl⟩
  simp only [write, if_pos hswe]
  simp only [marksCell, check_fst, check_snd]
  rw [max_eq_right (le_max_left (-10 : ℝ) (tpp i))]
  unfold uncompacted overburden metamorphism snowTemp fraction uncompacted
  rfl

theorem uncompacted_ge (t : ℝ) : 50 ≤ uncompacted t := by
  unfold uncompacted density
  have : 0 ≤ (max (-10) t - 0 + 15) ^ exponent 0 (-10) (min 0 (max (-10) t)) :=
    Real.rpow_nonneg (by have := le_max_left (-10 : ℝ) t; linarith) _
  linarith

/-- Where snow falls the returned snow density is the uncompacted density plus the two documented
compaction terms, hence at least the uncompacted density. -/
theorem C32_density_partial (tpp pp : ι → ℝ) (i : ι) (hpos : 0 < pp i) (hf : 0 < fraction (tpp i)) :
    (marks2017 tpp pp).rhoS i = uncompacted (tpp i) *
      (1 + overburden (tpp i) (pp i) + metamorphism (tpp i)) ∧
    uncompacted (tpp i) < (marks2017 tpp pp).rhoS i ∧ 50 < (marks2017 tpp pp).rhoS i := by
  obtain ⟨h1, h2, -⟩ := marks_z tpp pp i hpos hf
  have e : (marks2017 tpp pp).rhoS i = uncompacted (tpp i) *
      (1 + overburden (tpp i) (pp i) + metamorphism (tpp i)) := by rw [h2, h1]; ring
  have hu := uncompacted_ge (tpp i)
  have ho : 0 < overburden (tpp i) (pp i) := by
    unfold overburden
    have := mul_pos hpos hf
    positivity
  have hm : 0 < metamorphism (tpp i) := by
    unfold metamorphism
    split <;> positivity
  have hlt : uncompacted (tpp i) < uncompacted (tpp i) *
      (1 + overburden (tpp i) (pp i) + metamorphism (tpp i)) := by nlinarith
  exact ⟨e, by rw [e]; exact hlt, by rw [e]; linarith⟩

/-- Where no snow falls the snow density is zero. -/
theorem C32_no_snow (tpp pp : ι → ℝ) (i : ι) (h : pp i ≤ 0 ∨ fraction (tpp i) = 0) :
    (marks2017 tpp pp).rhoS i = 0 := by
  unfold marks2017
  simp only
  by_cases hp : ∃ i, 0 < pp i
  · rw [if_pos hp]
    split
    · have hno : ¬ 0 < pp i * percentSnow (0 : ℝ)
          (checkTemperature (K := ℝ) 0 (-10) (checkTemperature (K := ℝ) 0 (-10) (tpp i)).1).1 := by
        simp only [check_fst]
        rw [max_eq_right (le_max_left _ _)]
        have hf := fraction_range (tpp i)
        unfold fraction at h hf
        rcases h with h | h
        · exact not_lt.2 (mul_nonpos_of_nonpos_of_nonneg h hf.1)
        · rw [h]; simp
      simp only [write, if_neg hno]
      norm_num
    · norm_num
  · rw [if_neg hp]; norm_num

theorem marksCell_rho_le (a b c d e : ℝ) : (marksCell a b c d e).rho ≤ 1 := by
  unfold marksCell
  simp only
  have cap : ∀ r : ℝ, (if 1 < r then 1 else r) ≤ 1 := by
    intro r; split
    · exact le_refl _
    · linarith
  exact cap _

/-- The density of the precipitation (snow and liquid together) is at most that of water. -/
theorem C32_mixture_bound (tpp pp : ι → ℝ) (i : ι) : (marks2017 tpp pp).rho i ≤ 1000 := by
  unfold marks2017
  simp only
  split
  · split
    · simp only [write]
      split
      · have := marksCell_rho_le
        exact le_trans (mul_le_mul_of_nonneg_right (this _ _ _ _ _) (by norm_num)) (by norm_num)
      · norm_num
    · norm_num
  · norm_num

/-- C32 as stated: the returned quantities are the ones they are named after. -/
def C32_full : Prop :=
  ∀ (t p : ℝ), 0 < p → 0 < fraction t →
    let r := marks2017 (ι := Unit) (fun _ => t) (fun _ => p)
    r.rhoNs () = uncompacted t ∧ r.dRhoC () = overburden t p ∧ r.dRhoM () = metamorphism t ∧
      r.rhoS () = uncompacted t * (1 + overburden t p + metamorphism t) ∧
      r.zs () = r.swe () / (r.rhoS () / 1000)

/-- The returned "uncompacted density" is the compacted density, and the returned compaction terms
and depth are that density as a fraction of water: the seven names share one array. -/
theorem C32_shared_array_fails (tpp pp : ι → ℝ) (i : ι) (hpos : 0 < pp i) (hf : 0 < fraction (tpp i)) :
    let r := marks2017 tpp pp
    r.rhoNs i = r.rhoS i ∧ r.dRhoC i = r.rhoS i / 1000 ∧ r.dRhoM i = r.rhoS i / 1000 ∧
      r.zs i = r.rhoS i / 1000 := by
  obtain ⟨-, h2, h3, h4, h5⟩ := marks_z tpp pp i hpos hf
  simp only
  rw [h2, h3, h4, h5]
  refine ⟨rfl, ?_, ?_, ?_⟩ <;> ring

theorem fraction_cold : fraction (-4) = 1 := by
  unfold fraction
  exact ps_cold _ _ (by norm_num)

theorem C32_fails : ¬ C32_full := by
  intro h
  have hf : 0 < fraction (-4) := by rw [fraction_cold]; norm_num
  have h1 := (h (-4) 3 (by norm_num) hf).1
  have h2 := (C32_shared_array_fails (ι := Unit) (fun _ => -4) (fun _ => 3) () (by norm_num) hf).1
  have h3 := (C32_density_partial (ι := Unit) (fun _ => -4) (fun _ => 3) () (by norm_num) hf).2.1
  rw [h1] at h2
  rw [← h2] at h3
  exact lt_irrefl _ h3

/-- The hypotheses: 3 mm at -4 C. -/
example : (0 : ℝ) < 3 ∧ 0 < fraction (-4) := by rw [fraction_cold]; norm_num

/-! ### C81 -/

variable [Fintype ι]

/-- The configured names. `smrf/envphys/snow.py:18-22`. -/
def KnownModel (m : String) : Prop := m = "susong1999" ∨ m = "piecewise_susong1999" ∨ m = "marks2017"

/-- Known names give images, unknown names a `ValueError`. -/
theorem C81_known (temp precip : ι → ℝ) (m : String) :
    (KnownModel m → ∃ r, phaseAndDensity temp precip m = .ok r) ∧
    (¬ KnownModel m → phaseAndDensity temp precip m = .error .valueError) := by
  unfold phaseAndDensity KnownModel
  constructor
  · rintro (rfl | rfl | rfl)
    · exact ⟨_, by rw [if_pos rfl]⟩
    · exact ⟨_, by rw [if_neg (by decide), if_pos rfl]⟩
    · exact ⟨_, by rw [if_neg (by decide), if_neg (by decide), if_pos rfl]⟩
  · intro h
    simp only [not_or] at h
    rw [if_neg h.1, if_neg h.2.1, if_neg h.2.2]

/-- The second image is a fraction, whatever the model. -/
theorem C81_fraction (temp precip : ι → ℝ) (hp : ∀ i, 0 ≤ precip i) (m : String)
    (r : (ι → ℝ) × (ι → ℝ)) (h : phaseAndDensity temp precip m = .ok r) (i : ι) :
    0 ≤ r.2 i ∧ r.2 i ≤ 1 := by
  unfold phaseAndDensity at h
  split at h
  · cases h
    have := C29_range temp precip hp i
    exact ⟨this.1, this.2.1⟩
  · split at h
    · cases h
      exact C30_range 0 _ (by norm_num)
    · split at h
      · cases h
        exact (C32_swe temp precip i).2
      · cases h

/-- The first image is the model's snow density: the class density, the piecewise density, or the
compacted density of the settled snow (not the snow and rain mixture). -/
theorem C81_density (temp precip : ι → ℝ) (hp : ∀ i, 0 ≤ precip i) (m : String)
    (r : (ι → ℝ) × (ι → ℝ)) (h : phaseAndDensity temp precip m = .ok r) (i : ι) (hpos : 0 < precip i) :
    (m = "susong1999" → r.1 i = (documented (temp i)).2 ∧ r.2 i = (documented (temp i)).1) ∧
    (m = "piecewise_susong1999" →
      piecewise 0 (-10) true (temp i) (precip i) = .ok (r.2 i, r.1 i)) ∧
    (m = "marks2017" → 0 < fraction (temp i) → r.1 i = uncompacted (temp i) *
      (1 + overburden (temp i) (precip i) + metamorphism (temp i))) := by
  refine ⟨?_, ?_, ?_⟩
  · rintro rfl
    unfold phaseAndDensity at h
    rw [if_pos rfl] at h
    cases h
    simp only
    rw [C29_documented temp precip hp i, if_neg (ne_of_gt hpos)]
    exact ⟨rfl, rfl⟩
  · rintro rfl
    unfold phaseAndDensity at h
    rw [if_neg (by decide), if_pos rfl] at h
    cases h
    unfold piecewise
    rw [if_pos rfl]
  · rintro rfl hf
    unfold phaseAndDensity at h
    rw [if_neg (by decide), if_neg (by decide), if_pos rfl] at h
    cases h
    exact (C32_density_partial temp precip i hpos hf).1

example : KnownModel "marks2017" := .inr (.inr rfl)

end

end Verif.Nasde
