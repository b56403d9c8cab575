import Verif.KrigeCell
import Verif.KrigeFloatProps
import Verif.IdwFloatLemmas
import Verif.ClipFloatProps

/-!
C161: a kriged cell with all its roundings is the weighted mean of the residuals plus the trend up to a bound, and lies within the range of
the station values up to a bound when no trend is used.
-/

namespace Verif.KrigeCell
open Finset
open Verif.IdwFloat (Order Arith Near Rounds)
open Verif.LuFloat (gamma Error)
open Verif.KrigeFloat (krige Input Small)

variable {u : ℝ} {rnd : ℝ → ℝ}

/-- The sum runs over all stations, each once. -/
def All (nsta : Nat) (o : Order Nat) : Prop := o.items.Perm (List.range nsta)

/-- The rounding of the cell: one factor for each operation on the longest way. -/
noncomputable def factor (u : ℝ) (d : Nat) : ℝ := (1 / (1 - u)) ^ (d + 6)

/-- The cell without rounding. -/
noncomputable def exact (nsta : Nat) (a b : ℝ) (z w v : Nat → ℝ) (zg : ℝ) : ℝ :=
  ∑ n ∈ range nsta, w n * (v n - (a * z n + b)) + (a * zg + b)

/-- Claimed: in double precision, without a trend, for stations within 1000 km, a cell is between the least and the largest station value
up to a thousandth. -/
def C161_full : Prop := ∀ (mem : Krige.Mem ℝ) (nsta : Nat) (ad : Nat → Nat → ℝ) (dgrid z v : Nat → ℝ) (zg y lo hi : ℝ) (o : Order Nat),
  nsta ≤ 10 → Input (10 ^ 6) nsta ad dgrid → All nsta o → (∀ n < nsta, lo ≤ v n ∧ v n ≤ hi) →
  kriged (IdwFloat.binary 53) mem nsta ad dgrid z v 0 0 zg o = some y →
  lo - max |lo| |hi| / 1000 ≤ y ∧ y ≤ hi + max |lo| |hi| / 1000

/-! ### Auxiliary -/

private theorem bounds (h : Error u rnd) : 1 ≤ 1 / (1 - u) ∧ Rounds (1 / (1 - u)) rnd := by
  have h1 := h.nonneg
  have h2 := h.half
  refine ⟨?_, IdwFloat.rounds_of h1 (by linarith) h.err⟩
  rw [le_div_iff₀ (by linarith)]
  linarith

private theorem sum_all {nsta : Nat} {o : Order Nat} (ho : All nsta o) (f : Nat → ℝ) : (o.items.map f).sum = ∑ n ∈ range nsta, f n := by
  rw [(ho.map f).sum_eq]
  clear ho
  induction nsta with
  | zero => simp
  | succ k ih => rw [List.range_succ, List.map_append, List.sum_append, ih, sum_range_succ]; simp

/-! ### One cell, any weights -/

/-- Whatever the weights and the trend are, a cell is the weighted sum of the residuals plus the trend, up to rounding. -/
theorem C161_cell (h : Error u rnd) (a b : ℝ) (z w v : Nat → ℝ) (zg : ℝ) {nsta : Nat} {o : Order Nat} (ho : All nsta o) :
    |cell rnd a b z w v zg o - exact nsta a b z w v zg| ≤
      (factor u o.depth - 1) * (∑ n ∈ range nsta, |w n| * (|v n| + |a * z n| + |b|) + (|a * zg| + |b|)) := by
  obtain ⟨hr, hf⟩ := bounds h
  unfold factor cell exact
  generalize 1 / (1 - u) = r at *
  have hres : ∀ n, Near (r ^ 3) (v n - (a * z n + b)) (residual rnd a b z v n) (|v n| + |a * z n| + |b|) := by
    intro n
    have n1 := (Near.exact (x := z n * a)).rnd hf hr
    rw [one_mul] at n1
    have n2 := (n1.add ((Near.exact (x := b)).mono hr)).rnd hf hr
    have hr2' : 1 ≤ r * r := one_le_mul_of_one_le_of_one_le hr hr
    have n3 := (((Near.exact (x := v n)).mono hr2').add n2.neg).rnd hf hr
    unfold residual
    rw [show r ^ 3 = r * r * r by ring, show v n - (a * z n + b) = v n + -(z n * a + b) by ring,
      show |v n| + |a * z n| + |b| = |v n| + (|z n * a| + |b|) by rw [mul_comm a]; ring, sub_eq_add_neg]
    exact n3
  have hprod : ∀ n, Near (r ^ 4) (w n * (v n - (a * z n + b))) (rnd (w n * residual rnd a b z v n)) (|w n| * (|v n| + |a * z n| + |b|)) := by
    intro n
    have := ((Near.exact (x := w n)).mul (hres n) le_rfl).rnd hf hr
    rwa [one_mul, ← pow_succ] at this
  have hs := IdwFloat.sum_near ⟨rnd, fun x _ => x⟩ hf hr (one_le_pow₀ hr (n := 4)) (fun n => w n * (v n - (a * z n + b)))
    (fun n => rnd (w n * residual rnd a b z v n)) (fun n => |w n| * (|v n| + |a * z n| + |b|)) o fun n _ => hprod n
  rw [sum_all ho, sum_all ho, ← pow_add] at hs
  have n1 := (Near.exact (x := a * zg)).rnd hf hr
  rw [one_mul] at n1
  have k1 : r ≤ r ^ (4 + o.depth) := le_self_pow₀ hr (by omega)
  have n2 := (hs.add (n1.mono k1)).rnd hf hr
  have k2 : 1 ≤ r ^ (4 + o.depth) * r := one_le_mul_of_one_le_of_one_le (one_le_pow₀ hr) hr
  have n3 := (n2.add ((Near.exact (x := b)).mono k2)).rnd hf hr
  have e := n3.1
  rw [← pow_succ, ← pow_succ, show 4 + o.depth + 1 + 1 = o.depth + 6 by ring, add_assoc _ (a * zg), add_assoc _ |a * zg|] at e
  exact e

/-- Data that follow the trend exactly are continued to every cell, whatever the weights. -/
theorem C161_linear (h : Error u rnd) (a b : ℝ) (z w v : Nat → ℝ) (zg : ℝ) {nsta : Nat} {o : Order Nat} (ho : All nsta o)
    (hv : ∀ n < nsta, v n = a * z n + b) :
    |cell rnd a b z w v zg o - (a * zg + b)| ≤
      (factor u o.depth - 1) * (∑ n ∈ range nsta, |w n| * (|v n| + |a * z n| + |b|) + (|a * zg| + |b|)) := by
  have e : exact nsta a b z w v zg = a * zg + b := by
    unfold exact
    rw [sum_eq_zero fun n hn => ?_, zero_add]
    rw [hv n (mem_range.1 hn), sub_self, mul_zero]
  have := C161_cell h a b z w v zg ho
  rwa [e] at this

/-- Two orders of the sum give cells that differ by at most twice the bound. -/
theorem C161_order (h : Error u rnd) (a b : ℝ) (z w v : Nat → ℝ) (zg : ℝ) {nsta : Nat} {o o' : Order Nat} (ho : All nsta o) (ho' : All nsta o')
    {d : Nat} (hd : o.depth ≤ d) (hd' : o'.depth ≤ d) :
    |cell rnd a b z w v zg o - cell rnd a b z w v zg o'| ≤
      2 * ((factor u d - 1) * (∑ n ∈ range nsta, |w n| * (|v n| + |a * z n| + |b|) + (|a * zg| + |b|))) := by
  obtain ⟨hr, -⟩ := bounds h
  set M := ∑ n ∈ range nsta, |w n| * (|v n| + |a * z n| + |b|) + (|a * zg| + |b|) with hM
  have h0 : 0 ≤ M := by positivity
  have k : ∀ {e}, e ≤ d → (factor u e - 1) * M ≤ (factor u d - 1) * M := fun {e} he => by
    refine mul_le_mul_of_nonneg_right ?_ h0
    unfold factor
    linarith [pow_le_pow_right₀ hr (show e + 6 ≤ d + 6 by omega)]
  have e1 := (C161_cell h a b z w v zg ho).trans (k hd)
  have e2 := (C161_cell h a b z w v zg ho').trans (k hd')
  rw [abs_le] at e1 e2 ⊢
  constructor <;> linarith [e1.1, e1.2, e2.1, e2.2]

/-! ### With the kriging weights -/

private theorem factor_one (h : Error u rnd) (d : Nat) : 1 ≤ factor u d := one_le_pow₀ (bounds h).1

/-- Without a trend, with stations above sea level, a cell lies between the least and the largest station value up to the errors of the
weights and of the sum. Missing: stations at or below sea level, as without rounding. -/
theorem C161_range_partial (h : Error u rnd) (mem : Krige.Mem ℝ) {R : ℝ} {nsta : Nat} {ad : Nat → Nat → ℝ} {dgrid : Nat → ℝ} (z v : Nat → ℝ)
    (zg y lo hi' : ℝ) {o : Order Nat} (ho : All nsta o) (hi : Input R nsta ad dgrid) (hs : Small u R nsta) (hz : ∀ n < nsta, 0 < z n)
    (hv : ∀ n < nsta, lo ≤ v n ∧ v n ≤ hi') (hy : kriged rnd mem nsta ad dgrid z v 0 0 zg o = some y) :
    lo - (8 * (gamma u (nsta + 1) * R) + 2 * (factor u o.depth - 1)) * max |lo| |hi'| ≤ y ∧
    y ≤ hi' + (8 * (gamma u (nsta + 1) * R) + 2 * (factor u o.depth - 1)) * max |lo| |hi'| := by
  unfold kriged at hy
  cases hw : krige rnd mem nsta ad dgrid z with
  | exit => rw [hw] at hy; cases hy
  | stuck => rw [hw] at hy; cases hy
  | weights w =>
    rw [hw] at hy
    simp only [Option.some.injEq] at hy
    subst hy
    have hpos := fun n hn => KrigeFloat.C153_nonneg_partial h mem z w hi hw n hn (hz n hn)
    have hsum := KrigeFloat.C153_sum h mem z w hi hs hw hpos
    obtain ⟨r1, r2⟩ := KrigeFloat.C153_range h mem z w v hi hs hw hz lo hi' hv
    have c := C161_cell h 0 0 z w v zg ho
    have e : exact nsta 0 0 z w v zg = ∑ n ∈ range nsta, w n * v n := by simp [exact]
    rw [e] at c
    set M := max |lo| |hi'| with hM
    have hM0 : 0 ≤ M := (abs_nonneg lo).trans (le_max_left _ _)
    have hSm : 8 * (gamma u (nsta + 1) * R) ≤ 1 / 2 := by unfold KrigeFloat.Small at hs; linarith
    set g := 8 * (gamma u (nsta + 1) * R)
    have hg : 0 ≤ g := (abs_nonneg _).trans hsum
    have hm : ∑ n ∈ range nsta, |w n| * (|v n| + |0 * z n| + |(0 : ℝ)|) + (|0 * zg| + |(0 : ℝ)|) ≤ 2 * M := by
      have h1 : ∑ n ∈ range nsta, |w n| * (|v n| + |0 * z n| + |(0 : ℝ)|) ≤ ∑ n ∈ range nsta, w n * M := by
        refine sum_le_sum fun n hn => ?_
        have hn := mem_range.1 hn
        rw [abs_of_nonneg (hpos n hn)]
        refine mul_le_mul_of_nonneg_left ?_ (hpos n hn)
        have := abs_le_max_abs_abs (hv n hn).1 (hv n hn).2
        simpa only [zero_mul, abs_zero, add_zero] using this
      rw [← sum_mul] at h1
      have h2 : ∑ n ∈ range nsta, w n ≤ 2 := by
        have := (abs_le.1 hsum).2
        linarith
      have h3 := mul_le_mul_of_nonneg_right h2 hM0
      simp only [zero_mul, abs_zero, add_zero] at h1 ⊢
      linarith
    have hf := factor_one h o.depth
    have c' := c.trans (mul_le_mul_of_nonneg_left hm (by linarith))
    rw [abs_le] at c'
    have a1 : g * |lo| ≤ g * M := mul_le_mul_of_nonneg_left (le_max_left _ _) hg
    have a2 : g * |hi'| ≤ g * M := mul_le_mul_of_nonneg_left (le_max_right _ _) hg
    constructor
    · nlinarith [c'.1]
    · nlinarith [c'.2]

/-- In double precision with at most 10 stations above sea level within 1000 km: one part in ten thousand. -/
theorem C161_double_partial (mem : Krige.Mem ℝ) {nsta : Nat} {ad : Nat → Nat → ℝ} {dgrid : Nat → ℝ} (z v : Nat → ℝ) (zg y lo hi' : ℝ)
    {o : Order Nat} (ho : All nsta o) (hn : nsta ≤ 10) (hi : Input (10 ^ 6) nsta ad dgrid) (hz : ∀ n < nsta, 0 < z n)
    (hv : ∀ n < nsta, lo ≤ v n ∧ v n ≤ hi') (hy : kriged (IdwFloat.binary 53) mem nsta ad dgrid z v 0 0 zg o = some y) :
    lo - max |lo| |hi'| / 10 ^ 4 ≤ y ∧ y ≤ hi' + max |lo| |hi'| / 10 ^ 4 := by
  have hg := (LuFloat.C152_double (nsta + 1)).1 (by omega)
  have hs : Small ((1 / 2) ^ 53) (10 ^ 6) nsta := by unfold KrigeFloat.Small; linarith
  obtain ⟨a1, a2⟩ := C161_range_partial LuFloat.error_double mem z v zg y lo hi' ho hi hs hz hv hy
  have hd : o.depth ≤ 10 := by
    have h1 := ClipFloat.depth_lt o
    have h2 := ho.length_eq
    rw [List.length_range] at h2
    omega
  have hf : factor ((1 / 2) ^ 53) o.depth - 1 ≤ 1 / 10 ^ 6 := by
    have h1 : factor ((1 / 2) ^ 53) o.depth ≤ (1 / (1 - (1 / 2) ^ 53)) ^ 16 := by
      unfold factor
      exact pow_le_pow_right₀ (bounds LuFloat.error_double).1 (by omega)
    have h2 : (1 / (1 - (1 / 2 : ℝ) ^ 53)) ^ 16 ≤ 1 + 1 / 10 ^ 6 := by norm_num
    linarith
  set M := max |lo| |hi'|
  have hM0 : 0 ≤ M := (abs_nonneg lo).trans (le_max_left _ _)
  have k : (8 * (gamma ((1 / 2) ^ 53) (nsta + 1) * 10 ^ 6) + 2 * (factor ((1 / 2) ^ 53) o.depth - 1)) * M ≤ M / 10 ^ 4 := by
    rw [show M / 10 ^ 4 = 1 / 10 ^ 4 * M by ring]
    refine mul_le_mul_of_nonneg_right ?_ hM0
    norm_num at hg hf ⊢
    linarith
  exact ⟨by linarith, by linarith⟩

/-! ### The full claim is false -/

/-- Three stations at sea level, of which the last gets a negative weight: with data 0, 0, 1 the cell is below -0.1. -/
theorem C161_fails : ¬ C161_full := by
  intro hc
  let mem : Krige.Mem ℝ := ⟨fun _ _ _ => 0, fun _ => ⟨fun _ => 0, fun _ => 0, 0⟩, fun _ => false, fun _ => 0⟩
  obtain ⟨w, hw, hneg⟩ := KrigeFloat.C153_negative_fails mem (fun _ => 0) (fun _ _ => le_refl _)
  let o : Order Nat := .both (.both (.one 0) (.one 1)) (.one 2)
  let v : Nat → ℝ := fun n => if n = 2 then 1 else 0
  have ho : All 3 o := by show List.Perm [0, 1, 2] (List.range 3); decide
  have hk : kriged (IdwFloat.binary 53) mem 3 KrigeFloat.tri KrigeFloat.triCell (fun _ => 0) v 0 0 0 o =
      some (cell (IdwFloat.binary 53) 0 0 (fun _ => 0) w v 0 o) := by
    unfold kriged
    rw [hw]
  have hin : Input (10 ^ 6) 3 KrigeFloat.tri KrigeFloat.triCell := by
    obtain ⟨-, t2, t3⟩ := KrigeFloat.tri_input
    exact ⟨by norm_num, fun m hm n hn => (t2 m hm n hn).trans (by norm_num), fun m hm => ⟨(t3 m hm).1, (t3 m hm).2.trans (by norm_num)⟩⟩
  obtain ⟨h1, -⟩ := hc mem 3 _ _ _ v 0 _ 0 1 o (by norm_num) hin ho (by
    intro n hn
    show 0 ≤ (if n = 2 then (1 : ℝ) else 0) ∧ (if n = 2 then (1 : ℝ) else 0) ≤ 1
    split <;> norm_num) hk
  have c := C161_cell LuFloat.error_double 0 0 (fun _ => 0) w v 0 ho
  have e1 : exact 3 0 0 (fun _ => 0) w v 0 = w 2 := by
    unfold exact
    rw [sum_range_succ, sum_range_succ, sum_range_succ]
    simp [v]
  have e2 : ∑ n ∈ range 3, |w n| * (|v n| + |0 * (0 : ℝ)| + |(0 : ℝ)|) + (|0 * (0 : ℝ)| + |(0 : ℝ)|) = |w 2| := by
    rw [sum_range_succ, sum_range_succ, sum_range_succ]
    simp [v]
  rw [e1, e2, abs_of_neg (by linarith : w 2 < 0)] at c
  have hf : factor ((1 / 2) ^ 53) o.depth - 1 ≤ 1 / 10 ^ 6 := by
    show (1 / (1 - (1 / 2 : ℝ) ^ 53)) ^ 8 - 1 ≤ 1 / 10 ^ 6
    norm_num
  have c' := (abs_le.1 c).2
  have h3 : (factor ((1 / 2) ^ 53) o.depth - 1) * -w 2 ≤ 1 / 10 ^ 6 * -w 2 := mul_le_mul_of_nonneg_right hf (by linarith)
  norm_num at h1
  linarith

/-- Two stations 6 m apart, 1500 and 1600 m high, and a cell 1 m from the first: the cell has a value and it is within the range. -/
example (mem : Krige.Mem ℝ) : ∃ y, kriged (IdwFloat.binary 53) mem 2 KrigeFloat.pair KrigeFloat.pairCell (fun n => 1500 + 100 * n)
    (fun n => 3 + n) 0 0 1500 (.both (.one 0) (.one 1)) = some y ∧ 3 - 4 / 10 ^ 4 ≤ y ∧ y ≤ 4 + 4 / 10 ^ 4 := by
  obtain ⟨w, hw⟩ := KrigeFloat.pair_weights mem (fun n => 1500 + 100 * n)
  have hk : ∃ y, kriged (IdwFloat.binary 53) mem 2 KrigeFloat.pair KrigeFloat.pairCell (fun n => 1500 + 100 * n) (fun n => 3 + n) 0 0 1500
      (.both (.one 0) (.one 1)) = some y := by
    unfold kriged
    rw [hw]
    exact ⟨_, rfl⟩
  obtain ⟨y, hk⟩ := hk
  refine ⟨y, hk, ?_⟩
  have := C161_double_partial mem _ _ 1500 _ 3 4 (o := .both (.one 0) (.one 1)) (by show List.Perm [0, 1] (List.range 2); decide) (by norm_num)
    (KrigeFloat.pair_input (by norm_num)) (fun n _ => by positivity) (fun n hn => by
      interval_cases n <;> norm_num) hk
  norm_num at this ⊢
  exact this

end Verif.KrigeCell
