import Verif.IdwFloatLemmas
import Mathlib.Data.Int.Log
import Mathlib.Algebra.Order.Round
import Mathlib.Tactic.NormNum
import Mathlib.Tactic.Ring

/-
C144: what rounding does to inverse distance weighting.
-/

namespace Verif.IdwFloat

open Verif.Idw (Station Cell)

/-! ### Specification -/

/-- The mean of `f` over stations, weighted with the inverse of the map distance to the power `p`. -/
noncomputable def wmean (p : ℝ) (g : Cell) (l : List (Station × ℝ)) (f : Station × ℝ → ℝ) : ℝ :=
  (l.map fun q => (1 / Real.sqrt ((g.x - q.1.x) ^ 2 + (g.y - q.1.y) ^ 2) ^ p) * f q).sum /
    (l.map fun q => 1 / Real.sqrt ((g.x - q.1.x) ^ 2 + (g.y - q.1.y) ^ 2) ^ p).sum

/-- The arithmetic has relative error `u`, its `power` is off at most by the factor `q`. -/
structure Accurate (u q p : ℝ) (A : Arith) : Prop where
  u_nonneg : 0 ≤ u
  u_small : u < 1 / 2
  q_one : 1 ≤ q
  rnd : ∀ x, |A.rnd x - x| ≤ u * |x|
  pow : ∀ d, 0 < d → A.pow d p ≤ q * d ^ p ∧ d ^ p ≤ q * A.pow d p

/-- The factor by which a cell may be off; `h` is the longest chain of additions. -/
noncomputable def factor (u q p : ℝ) (h : ℕ) : ℝ := q ^ 2 * (1 / (1 - u)) ^ (6 * p + 4 + 2 * h)

/-- No station is at the place of the cell. -/
def Apart (g : Cell) (l : List (Station × ℝ)) : Prop := ∀ q ∈ l, ¬ (q.1.x = g.x ∧ q.1.y = g.y)

/-- Rounding to the nearest number with `n` binary digits, without limits for the exponent. -/
noncomputable def binary (n : ℕ) (x : ℝ) : ℝ :=
  round (x * (2 : ℝ) ^ ((n : ℤ) - 1 - Int.log 2 |x|)) * (2 : ℝ) ^ (Int.log 2 |x| - (n - 1))

/-- Arithmetic with 53 binary digits in which every operation is rounded to the nearest number. -/
noncomputable def double : Arith := ⟨binary 53, fun d p => binary 53 (d ^ p)⟩

/-! ### Auxiliary -/

private theorem r_bounds {u q p : ℝ} {A : Arith} (h : Accurate u q p A) :
    1 ≤ 1 / (1 - u) ∧ 1 / (1 - u) < 2 ∧ Rounds (1 / (1 - u)) A.rnd := by
  have h0 := h.u_nonneg
  have h1 := h.u_small
  have hp : 0 < 1 - u := by linarith
  refine ⟨?_, ?_, rounds_of h0 (by linarith) h.rnd⟩
  · rw [le_div_iff₀ hp]; linarith
  · rw [div_lt_iff₀ hp]; linarith

private theorem factor_eq {r q p : ℝ} (hr : 1 ≤ r) (h : ℕ) :
    q ^ 2 * r ^ (6 * p + 4 + 2 * h) = (q * (r ^ 3) ^ p * r) * r * r ^ h * ((q * (r ^ 3) ^ p * r) * r ^ h) * r := by
  have h0 : 0 < r := by linarith
  have e1 : (r ^ 3) ^ p = r ^ (3 * p) := by
    rw [show (r ^ 3 : ℝ) = r ^ (3 : ℝ) by norm_cast, ← Real.rpow_mul h0.le]
  have e2 : r ^ (6 * p + 4 + 2 * (h : ℝ)) = (r ^ (3 * p)) ^ 2 * r ^ (4 + 2 * h : ℕ) := by
    rw [show 6 * p + 4 + 2 * (h : ℝ) = (3 * p) + (3 * p) + ((4 + 2 * h : ℕ) : ℝ) by push_cast; ring, Real.rpow_add h0, Real.rpow_add h0,
      Real.rpow_natCast]
    ring
  rw [e2, e1]
  ring

private theorem trueDist_pos {g : Cell} {l : List (Station × ℝ)} (h : Apart g l) : ∀ q ∈ l, 0 < trueDist g q.1 := by
  intro q hq
  refine Real.sqrt_pos.2 ?_
  by_contra hc
  have hc := not_lt.1 hc
  have e1 := sq_nonneg (g.x - q.1.x)
  have e2 := sq_nonneg (g.y - q.1.y)
  have z1 : (g.x - q.1.x) ^ 2 = 0 := by linarith
  have z2 : (g.y - q.1.y) ^ 2 = 0 := by linarith
  have z1 := pow_eq_zero_iff (two_ne_zero) |>.1 z1
  have z2 := pow_eq_zero_iff (two_ne_zero) |>.1 z2
  exact h q hq ⟨by linarith, by linarith⟩

/-- The quotient, for data with an error of their own. -/
private theorem quotient_near {u q p m : ℝ} {A : Arith} (hA : Accurate u q p A) (hp : 0 ≤ p) {g : Cell} {l : List (Station × ℝ)}
    (hg : Apart g l) {o o' : Order (Station × ℝ)} (ho : o.items.Perm l) (ho' : o'.items.Perm l) {h : ℕ} (hh : o.depth ≤ h) (hh' : o'.depth ≤ h)
    (k : ℝ) (hk : 1 ≤ k) (x y M : Station × ℝ → ℝ) (hx : ∀ s ∈ l, Near k (x s) (y s) (M s)) :
    Near (factor u q p h * k) (wmean p g l x)
      (A.rnd (o.sum A (fun s => A.rnd (weight A p m g s.1 * y s)) / o'.sum A (fun s => weight A p m g s.1))) (wmean p g l M) := by
  obtain ⟨hr, hr2, hf⟩ := r_bounds hA
  unfold factor
  generalize 1 / (1 - u) = r at *
  rw [factor_eq hr]
  have hpow : ∀ d, 0 < d → Rel q (A.pow d p) (d ^ p) ∧ 0 < A.pow d p := by
    intro d hd
    refine ⟨hA.pow d hd, ?_⟩
    have h1 := Real.rpow_pos_of_pos hd p
    have h2 := (hA.pow d hd).2
    have h3 := hA.q_one
    by_contra hc
    have hc := not_lt.1 hc
    nlinarith
  have hpos := trueDist_pos hg
  have hw : ∀ s ∈ l, Rel (q * (r ^ 3) ^ p * r) (weight A p m g s.1) (1 / trueDist g s.1 ^ p) ∧ 0 < weight A p m g s.1 :=
    fun s hs => weight_rel A hf hr hr2 hA.q_one hp hpow g s.1 (hpos s hs)
  have hW : 1 ≤ q * (r ^ 3) ^ p * r := by
    have h3 : (1 : ℝ) ≤ (r ^ 3) ^ p := Real.one_le_rpow (one_le_pow₀ hr) hp
    have := hA.q_one
    exact one_le_mul_of_one_le_of_one_le (one_le_mul_of_one_le_of_one_le this h3) hr
  generalize hWe : q * (r ^ 3) ^ p * r = W at *
  have hT : ∀ s ∈ l, 0 < 1 / trueDist g s.1 ^ p := fun s hs => by
    have := Real.rpow_pos_of_pos (hpos s hs) p
    positivity
  -- the products
  have hprod : ∀ s ∈ l, Near (W * k * r) ((1 / trueDist g s.1 ^ p) * x s) (A.rnd (weight A p m g s.1 * y s)) ((1 / trueDist g s.1 ^ p) * M s) :=
    fun s hs => ((((hw s hs).1.near hW (hT s hs).le)).mul (hx s hs) hW).rnd hf hr
  have hWk : 1 ≤ W * k * r := one_le_mul_of_one_le_of_one_le (one_le_mul_of_one_le_of_one_le hW hk) hr
  have hnum := sum_near A hf hr hWk _ _ _ o fun s hs => hprod s (ho.subset hs)
  obtain ⟨d1, d2, d3⟩ := sum_rel A hf hr hr2 hW (fun s : Station × ℝ => 1 / trueDist g s.1 ^ p) (fun s => weight A p m g s.1) o'
    (fun s hs => hT s (ho'.subset hs)) (fun s hs => (hw s (ho'.subset hs)).2) fun s hs => (hw s (ho'.subset hs)).1
  have hnum := hnum.mono (k' := W * k * r * r ^ h) (mul_le_mul_of_nonneg_left (pow_le_pow_right₀ hr hh) (by linarith))
  have d1 := d1.mono (k' := W * r ^ h) (mul_le_mul_of_nonneg_left (pow_le_pow_right₀ hr hh') (by linarith)) d2.le d3.le
  have hrh : 1 ≤ r ^ h := one_le_pow₀ hr
  have := (hnum.div d1 (one_le_mul_of_one_le_of_one_le hWk hrh) (one_le_mul_of_one_le_of_one_le hW hrh) d3 d2).rnd hf hr
  rw [((ho.map _).sum_eq : (o.items.map _).sum = (l.map _).sum), ((ho.map _).sum_eq : (o.items.map _).sum = (l.map _).sum),
    ((ho'.map _).sum_eq : (o'.items.map _).sum = (l.map _).sum)] at this
  refine Near.mono this (le_of_eq ?_)
  ring

private theorem wmean_le {p : ℝ} {g : Cell} {l : List (Station × ℝ)} (hg : Apart g l) (hl : l ≠ []) {f : Station × ℝ → ℝ} {V : ℝ}
    (h : ∀ q ∈ l, f q ≤ V) : wmean p g l f ≤ V := by
  have hpos := trueDist_pos hg
  have hT : ∀ s ∈ l, 0 < 1 / trueDist g s.1 ^ p := fun s hs => by
    have := Real.rpow_pos_of_pos (hpos s hs) p
    positivity
  have hD : 0 < (l.map fun q => 1 / trueDist g q.1 ^ p).sum := by
    refine List.sum_pos _ ?_ (by simpa using hl)
    intro x hx
    obtain ⟨s, hs, rfl⟩ := List.mem_map.1 hx
    exact hT s hs
  have : wmean p g l f = (l.map fun q => (1 / trueDist g q.1 ^ p) * f q).sum / (l.map fun q => 1 / trueDist g q.1 ^ p).sum := rfl
  rw [this, div_le_iff₀ hD, ← List.sum_map_mul_left]
  exact List.sum_le_sum fun s hs => by rw [mul_comm V]; exact mul_le_mul_of_nonneg_left (h s hs) (hT s hs).le

private theorem wmean_neg {p : ℝ} {g : Cell} {l : List (Station × ℝ)} {f : Station × ℝ → ℝ} : wmean p g l (fun q => - f q) = - wmean p g l f := by
  unfold wmean
  rw [← neg_div]
  congr 1
  induction l with
  | nil => simp
  | cons a t ih => simp only [List.map_cons, List.sum_cons, ih]; ring

private theorem le_wmean {p : ℝ} {g : Cell} {l : List (Station × ℝ)} (hg : Apart g l) (hl : l ≠ []) {f : Station × ℝ → ℝ} {V : ℝ}
    (h : ∀ q ∈ l, V ≤ f q) : V ≤ wmean p g l f := by
  have := wmean_le (p := p) hg hl (f := fun q => - f q) (V := -V) fun q hq => by simpa using h q hq
  rw [wmean_neg] at this
  linarith

private theorem items_ne {α : Type} (o : Order α) : o.items ≠ [] := by
  induction o with
  | one a => simp [Order.items]
  | both l r ihl _ => simp [Order.items, ihl]

private theorem factor_ge {u q p : ℝ} {A : Arith} (hA : Accurate u q p A) (hp : 0 ≤ p) (h : ℕ) : 1 ≤ factor u q p h := by
  obtain ⟨hr, -, -⟩ := r_bounds hA
  exact one_le_mul_of_one_le_of_one_le (one_le_pow₀ hA.q_one) (Real.one_le_rpow hr (by positivity))

/-! ### Theorems -/

/-- A cell computed with rounding, whatever the order in which numpy adds, is the weighted mean up to `factor - 1` times the weighted
mean of the absolute values. -/
theorem C144_cell {u q p m : ℝ} {A : Arith} (hA : Accurate u q p A) (hp : 0 ≤ p) {g : Cell} {l : List (Station × ℝ)}
    (hg : Apart g l) {o o' : Order (Station × ℝ)} (ho : o.items.Perm l) (ho' : o'.items.Perm l) {h : ℕ} (hh : o.depth ≤ h) (hh' : o'.depth ≤ h) :
    |cellValue A p m g o o' - wmean p g l (fun s => s.2)| ≤ (factor u q p h - 1) * wmean p g l (fun s => |s.2|) := by
  have := (quotient_near (m := m) hA hp hg ho ho' hh hh' 1 le_rfl (fun s => s.2) (fun s => s.2) (fun s => |s.2|) fun s _ => Near.exact).1
  rwa [mul_one] at this

/-- With data between two limits, a cell lies between them up to rounding. -/
theorem C144_range {u q p m : ℝ} {A : Arith} (hA : Accurate u q p A) (hp : 0 ≤ p) {g : Cell} {l : List (Station × ℝ)}
    (hg : Apart g l) {o o' : Order (Station × ℝ)} (ho : o.items.Perm l) (ho' : o'.items.Perm l) {h : ℕ} (hh : o.depth ≤ h) (hh' : o'.depth ≤ h)
    {lo hi : ℝ} (hd : ∀ s ∈ l, lo ≤ s.2 ∧ s.2 ≤ hi) :
    lo - (factor u q p h - 1) * max |lo| |hi| ≤ cellValue A p m g o o' ∧ cellValue A p m g o o' ≤ hi + (factor u q p h - 1) * max |lo| |hi| := by
  have hl : l ≠ [] := fun hc => items_ne o (by rw [hc] at ho; exact ho.eq_nil)
  have h1 := abs_le.1 (C144_cell (m := m) hA hp hg ho ho' hh hh')
  have h2 : wmean p g l (fun s => |s.2|) ≤ max |lo| |hi| := wmean_le hg hl fun s hs => abs_le_max_abs_abs (hd s hs).1 (hd s hs).2
  have h3 : wmean p g l (fun s => s.2) ≤ hi := wmean_le hg hl fun s hs => (hd s hs).2
  have h4 : lo ≤ wmean p g l (fun s => s.2) := le_wmean hg hl fun s hs => (hd s hs).1
  have h5 := mul_le_mul_of_nonneg_left h2 (by linarith [factor_ge hA hp h] : 0 ≤ factor u q p h - 1)
  exact ⟨by linarith [h1.1], by linarith [h1.2]⟩

/-- The order in which the stations are listed and the order in which numpy adds change a cell by rounding only. -/
theorem C144_order {u q p m m' : ℝ} {A : Arith} (hA : Accurate u q p A) (hp : 0 ≤ p) {g : Cell} {l : List (Station × ℝ)}
    (hg : Apart g l) {o o' n n' : Order (Station × ℝ)} (ho : o.items.Perm l) (ho' : o'.items.Perm l) (hn : n.items.Perm l) (hn' : n'.items.Perm l)
    {h : ℕ} (h1 : o.depth ≤ h) (h2 : o'.depth ≤ h) (h3 : n.depth ≤ h) (h4 : n'.depth ≤ h) {V : ℝ} (hd : ∀ s ∈ l, |s.2| ≤ V) :
    |cellValue A p m g o o' - cellValue A p m' g n n'| ≤ 2 * (factor u q p h - 1) * V := by
  have hl : l ≠ [] := fun hc => items_ne o (by rw [hc] at ho; exact ho.eq_nil)
  have e1 := abs_le.1 (C144_cell (m := m) hA hp hg ho ho' h1 h2)
  have e2 := abs_le.1 (C144_cell (m := m') hA hp hg hn hn' h3 h4)
  have e3 : wmean p g l (fun s => |s.2|) ≤ V := wmean_le hg hl hd
  have e4 := mul_le_mul_of_nonneg_left e3 (by linarith [factor_ge hA hp h] : 0 ≤ factor u q p h - 1)
  rw [abs_le]
  exact ⟨by linarith [e1.1, e2.2], by linarith [e1.2, e2.1]⟩

/-- With a trend, whatever its two numbers are: the mean of the residuals plus the trend at the cell, up to rounding. -/
theorem C144_trend {u q p m : ℝ} {A : Arith} (hA : Accurate u q p A) (hp : 0 ≤ p) {g : Cell} {l : List (Station × ℝ)}
    (hg : Apart g l) {o o' : Order (Station × ℝ)} (ho : o.items.Perm l) (ho' : o'.items.Perm l) {h : ℕ} (hh : o.depth ≤ h) (hh' : o'.depth ≤ h)
    (a b : ℝ) :
    |detrendedValue A (a, b) p m g o o' - (wmean p g l (fun s => s.2 - (a * s.1.z + b)) + a * g.z + b)| ≤
      (factor u q p h * (1 / (1 - u)) ^ 5 - 1) * (wmean p g l (fun s => |s.2| + |a * s.1.z| + |b|) + |a * g.z| + |b|) := by
  obtain ⟨hr, hr2, hf⟩ := r_bounds hA
  have hF := factor_ge hA hp h
  have hres : ∀ s ∈ l, Near ((1 / (1 - u)) ^ 3) (s.2 - (a * s.1.z + b)) (residual A (a, b) s) (|s.2| + |a * s.1.z| + |b|) := by
    intro s _
    generalize 1 / (1 - u) = r at *
    have n1 := (Near.exact (x := s.1.z * a)).rnd hf hr
    rw [one_mul] at n1
    have n2 := (n1.add ((Near.exact (x := b)).mono hr)).rnd hf hr
    have hr2' : 1 ≤ r * r := one_le_mul_of_one_le_of_one_le hr hr
    have n3 := (((Near.exact (x := s.2)).mono hr2').add n2.neg).rnd hf hr
    have e : Near (r ^ 3) (s.2 - (a * s.1.z + b)) (A.rnd (s.2 + - A.rnd (A.rnd (s.1.z * a) + b))) (|s.2| + |a * s.1.z| + |b|) := by
      rw [show r ^ 3 = r * r * r by ring, show s.2 - (a * s.1.z + b) = s.2 + -(s.1.z * a + b) by ring,
        show |s.2| + |a * s.1.z| + |b| = |s.2| + (|s.1.z * a| + |b|) by rw [mul_comm a]; ring]
      exact n3
    simpa [residual, sub_eq_add_neg] using e
  have h3 : 1 ≤ (1 / (1 - u)) ^ 3 := one_le_pow₀ hr
  have n := quotient_near (m := m) hA hp hg ho ho' hh hh' _ h3 _ _ _ hres
  unfold detrendedValue
  generalize hr' : 1 / (1 - u) = r at *
  have hFr : r ≤ factor u q p h * r ^ 3 := by
    have : r ≤ r ^ 3 := le_self_pow₀ hr (by norm_num)
    nlinarith
  have n1 := (Near.exact (x := a * g.z)).rnd hf hr
  rw [one_mul] at n1
  have n2 := (n.add (n1.mono hFr)).rnd hf hr
  have hb : 1 ≤ factor u q p h * r ^ 3 * r := one_le_mul_of_one_le_of_one_le (one_le_mul_of_one_le_of_one_le hF h3) hr
  have n3 := (n2.add ((Near.exact (x := b)).mono hb)).rnd hf hr
  have e := n3.1
  rwa [show factor u q p h * r ^ 3 * r * r = factor u q p h * r ^ 5 by ring] at e

/-- Rounding to the nearest number with `n + 1` binary digits has relative error `2 ^ -(n + 1)`. -/
theorem C144_nearest (n : ℕ) (x : ℝ) : |binary (n + 1) x - x| ≤ (1 / 2) ^ (n + 1) * |x| := by
  by_cases hx : x = 0
  · subst hx; simp [binary]
  have hpos : 0 < |x| := abs_pos.2 hx
  set e := Int.log 2 |x| with he
  have h1 : (2 : ℝ) ^ e ≤ |x| := by exact_mod_cast Int.zpow_log_le_self (b := 2) (by norm_num) hpos
  have h2 : (0 : ℝ) < 2 ^ (e - n) := by positivity
  have hb : binary (n + 1) x = round (x * (2 : ℝ) ^ ((n : ℤ) - e)) * (2 : ℝ) ^ (e - n) := by
    unfold binary
    rw [← he]
    push_cast
    rw [show (n : ℤ) + 1 - 1 - e = n - e by ring, show e - ((n : ℤ) + 1 - 1) = e - n by ring]
  have hc : x = x * (2 : ℝ) ^ ((n : ℤ) - e) * (2 : ℝ) ^ (e - n) := by
    rw [mul_assoc, ← zpow_add₀ (two_ne_zero), show (n : ℤ) - e + (e - n) = 0 by ring, zpow_zero, mul_one]
  have hd : (round (x * (2 : ℝ) ^ ((n : ℤ) - e)) : ℝ) * (2 : ℝ) ^ (e - n) - x
      = (round (x * (2 : ℝ) ^ ((n : ℤ) - e)) - x * (2 : ℝ) ^ ((n : ℤ) - e)) * (2 : ℝ) ^ (e - n) := by
    rw [sub_mul, ← hc]
  rw [hb, hd, abs_mul, abs_of_pos h2, abs_sub_comm]
  have h3 := abs_sub_round (x * (2 : ℝ) ^ ((n : ℤ) - e))
  calc _ ≤ 1 / 2 * (2 : ℝ) ^ (e - n) := mul_le_mul_of_nonneg_right h3 h2.le
    _ = (1 / 2) ^ (n + 1) * (2 : ℝ) ^ e := by
        rw [zpow_sub₀ (two_ne_zero), zpow_natCast, one_div, inv_pow, pow_succ]
        field_simp
    _ ≤ _ := mul_le_mul_of_nonneg_left h1 (by positivity)

private theorem depth_lt {α : Type} (o : Order α) : o.depth + 1 ≤ o.items.length := by
  induction o with
  | one a => simp [Order.items, Order.depth]
  | both l r ihl ihr => simp only [Order.items, Order.depth, List.length_append]; omega

private theorem double_accurate (p : ℝ) : Accurate ((1 / 2) ^ 53) (1 / (1 - (1 / 2) ^ 53)) p double := by
  have h0 : (0 : ℝ) ≤ (1 / 2) ^ 53 := by positivity
  have h1 : ((1 : ℝ) / 2) ^ 53 < 1 / 2 := by norm_num
  have hf : Rounds (1 / (1 - (1 / 2) ^ 53)) (binary 53) := rounds_of h0 (by linarith) (C144_nearest 52)
  refine ⟨h0, h1, ?_, C144_nearest 52, ?_⟩
  · norm_num
  · intro d hd
    exact rnd_rel hf (by norm_num) (Real.rpow_nonneg hd.le p)

/-- In double precision, with the power 2 and `n` stations with data, a cell is off by at most `(n + 8) / 2 ^ 51` times the largest value. -/
theorem C144_double {m : ℝ} {g : Cell} {l : List (Station × ℝ)} (hg : Apart g l) (hl : l.length ≤ 10 ^ 9)
    {o o' : Order (Station × ℝ)} (ho : o.items.Perm l) (ho' : o'.items.Perm l) {V : ℝ} (hd : ∀ s ∈ l, |s.2| ≤ V) :
    |cellValue double 2 m g o o' - wmean 2 g l (fun s => s.2)| ≤ (l.length + 8) / 2 ^ 51 * V := by
  have hA := double_accurate 2
  have h1 := depth_lt o
  have h2 := depth_lt o'
  rw [ho.length_eq] at h1
  rw [ho'.length_eq] at h2
  have hne : l ≠ [] := fun hc => items_ne o (by rw [hc] at ho; exact ho.eq_nil)
  obtain ⟨n, hn⟩ : ∃ n, l.length = n + 1 := ⟨l.length - 1, by omega⟩
  have e1 := C144_cell (m := m) (h := n) hA (by norm_num) hg ho ho' (by omega) (by omega)
  have e3 : wmean 2 g l (fun s => |s.2|) ≤ V := wmean_le hg hne hd
  have e0 : 0 ≤ wmean 2 g l (fun s => |s.2|) := le_wmean hg hne fun s _ => abs_nonneg _
  have hF : factor ((1 / 2) ^ 53) (1 / (1 - (1 / 2) ^ 53)) 2 n - 1 ≤ (l.length + 8) / 2 ^ 51 := by
    have e : factor ((1 / 2) ^ 53) (1 / (1 - (1 / 2) ^ 53)) 2 n = 1 / (1 - (1 / 2) ^ 53) ^ (18 + 2 * n) := by
      unfold factor
      rw [show (6 * 2 + 4 + 2 * (n : ℝ) : ℝ) = ((16 + 2 * n : ℕ) : ℝ) by push_cast; ring, Real.rpow_natCast, ← pow_add, one_div_pow]
      congr 2
      omega
    have hb := one_add_mul_le_pow (a := -((1 / 2 : ℝ) ^ 53)) (by norm_num) (18 + 2 * n)
    rw [← sub_eq_add_neg] at hb
    have hnn : (n : ℝ) ≤ 10 ^ 9 := by
      have : n ≤ 10 ^ 9 := by omega
      exact_mod_cast this
    have hn0 : (0 : ℝ) ≤ n := Nat.cast_nonneg n
    rw [e, hn]
    push_cast at hb ⊢
    generalize hP : (1 - (1 / 2 : ℝ) ^ 53) ^ (18 + 2 * n) = P at *
    have ht : (18 + 2 * (n : ℝ)) * (1 / 2) ^ 53 ≤ 1 / 2 := by norm_num; linarith
    generalize hT : (18 + 2 * (n : ℝ)) * (1 / 2) ^ 53 = T at *
    have hT0 : 0 ≤ T := by rw [← hT]; positivity
    have hPT : 1 - T ≤ P := by linarith [hb]
    have hPp : 0 < P := by linarith
    have e2 : ((n : ℝ) + 1 + 8) / 2 ^ 51 = 2 * T := by rw [← hT]; ring
    rw [e2, sub_le_iff_le_add, div_le_iff₀ hPp]
    nlinarith
  calc _ ≤ _ := e1
    _ ≤ (l.length + 8) / 2 ^ 51 * wmean 2 g l (fun s => |s.2|) := mul_le_mul_of_nonneg_right hF e0
    _ ≤ _ := mul_le_mul_of_nonneg_left e3 (by positivity)

/-! ### Without the error term the claim is false -/

/-- The full claim: in double precision a cell lies between the smallest and the largest value of the data. -/
def C144_full : Prop :=
  ∀ (m lo hi : ℝ) (g : Cell) (l : List (Station × ℝ)), Apart g l → ∀ o o' : Order (Station × ℝ), o.items.Perm l → o'.items.Perm l →
    (∀ s ∈ l, lo ≤ s.2 ∧ s.2 ≤ hi) → lo ≤ cellValue double 2 m g o o' ∧ cellValue double 2 m g o o' ≤ hi

private theorem binary_eval {x : ℝ} (hx : 0 < x) (e : ℤ) (h1 : (2 : ℝ) ^ e ≤ x) (h2 : x < (2 : ℝ) ^ (e + 1)) (z : ℤ)
    (h3 : (z : ℝ) - 1 / 2 ≤ x * (2 : ℝ) ^ (52 - e)) (h4 : x * (2 : ℝ) ^ (52 - e) < z + 1 / 2) : binary 53 x = z * (2 : ℝ) ^ (e - 52) := by
  have he : Int.log 2 |x| = e := by
    rw [abs_of_pos hx]
    refine le_antisymm ?_ ?_
    · have := (Int.lt_zpow_iff_log_lt (b := 2) (by norm_num) hx (x := e + 1)).1 (by exact_mod_cast h2)
      omega
    · exact (Int.zpow_le_iff_le_log (b := 2) (by norm_num) hx).1 (by exact_mod_cast h1)
  unfold binary
  rw [he]
  have : round (x * (2 : ℝ) ^ (52 - e)) = z := by
    rw [round_eq, Int.floor_eq_iff]
    exact ⟨by linarith, by linarith⟩
  push_cast
  rw [this]

/-- A tenth in double precision. -/
noncomputable def tenth : ℝ := 3602879701896397 / 2 ^ 55

/-- Three stations around a cell report 0.1; the cell gets 0.10000000000000002. -/
theorem C144_fails : ¬ C144_full := by
  intro hc
  have b0 : binary 53 0 = 0 := by simp [binary]
  have b1 : binary 53 1 = 1 := by
    rw [binary_eval (x := 1) (by norm_num) 0 (by norm_num) (by norm_num) (2 ^ 52) (by norm_num) (by norm_num)]
    norm_num
  have bm : binary 53 (-1) = -1 := by
    have e : Int.log 2 |(-1 : ℝ)| = 0 := by simp
    unfold binary
    rw [e]
    have : round (-1 * (2 : ℝ) ^ (((53 : ℕ) : ℤ) - 1 - 0)) = -2 ^ 52 := by
      rw [round_eq, Int.floor_eq_iff]
      norm_num
    rw [this]
    norm_num
  have bv : binary 53 tenth = tenth := by
    unfold tenth
    rw [binary_eval (by norm_num) (-4) (by norm_num) (by norm_num) 7205759403792794 (by norm_num) (by norm_num)]
    norm_num
  have b2v : binary 53 (tenth + tenth) = tenth + tenth := by
    unfold tenth
    rw [binary_eval (by norm_num) (-3) (by norm_num) (by norm_num) 7205759403792794 (by norm_num) (by norm_num)]
    norm_num
  have b3v : binary 53 (tenth + tenth + tenth) = 5404319552844596 / 2 ^ 54 := by
    unfold tenth
    rw [binary_eval (by norm_num) (-2) (by norm_num) (by norm_num) 5404319552844596 (by norm_num) (by norm_num)]
    norm_num
  have b2 : binary 53 (1 + 1) = 2 := by
    rw [binary_eval (by norm_num) 1 (by norm_num) (by norm_num) (2 ^ 52) (by norm_num) (by norm_num)]
    norm_num
  have b3 : binary 53 (2 + 1) = 3 := by
    rw [binary_eval (by norm_num) 1 (by norm_num) (by norm_num) 6755399441055744 (by norm_num) (by norm_num)]
    norm_num
  have bq : binary 53 (5404319552844596 / 2 ^ 54 / 3) = 7205759403792795 / 2 ^ 56 := by
    rw [binary_eval (by norm_num) (-4) (by norm_num) (by norm_num) 7205759403792795 (by norm_num) (by norm_num)]
    norm_num
  let g : Cell := ⟨0, 0, 0⟩
  let s1 : Station × ℝ := (⟨-1, 0, 0, none⟩, tenth)
  let s2 : Station × ℝ := (⟨1, 0, 0, none⟩, tenth)
  let s3 : Station × ℝ := (⟨0, -1, 0, none⟩, tenth)
  let o : Order (Station × ℝ) := .both (.both (.one s1) (.one s2)) (.one s3)
  have d1 : dist double g s1.1 = 1 := by simp [dist, double, g, s1, b0, b1]
  have d2 : dist double g s2.1 = 1 := by simp [dist, double, g, s2, b0, b1, bm]
  have d3 : dist double g s3.1 = 1 := by simp [dist, double, g, s3, b0, b1]
  have w1 : weight double 2 0 g s1.1 = 1 := by 
    have e : distance double 0 g s1.1 = 1 := by rw [distance, d1]; simp
    rw [weight, e]; simp [double, b1]
  have w2 : weight double 2 0 g s2.1 = 1 := by 
    have e : distance double 0 g s2.1 = 1 := by rw [distance, d2]; simp
    rw [weight, e]; simp [double, b1]
  have w3 : weight double 2 0 g s3.1 = 1 := by 
    have e : distance double 0 g s3.1 = 1 := by rw [distance, d3]; simp
    rw [weight, e]; simp [double, b1]
  have hv : cellValue double 2 0 g o o = 7205759403792795 / 2 ^ 56 := by
    simp only [cellValue, Order.sum, o, w1, w2, w3, one_mul]
    simp only [s1, s2, s3, double, bv, b2v, b3v, b2, b3, bq]
  have := (hc 0 tenth tenth g o.items ?_ o o (List.Perm.refl _) (List.Perm.refl _) ?_).2
  · rw [hv] at this
    unfold tenth at this
    norm_num at this
  · intro s hs
    simp only [o, Order.items, List.cons_append, List.nil_append, List.mem_cons, List.not_mem_nil, or_false] at hs
    rcases hs with rfl | rfl | rfl <;> simp [s1, s2, s3, g]
  · intro s hs
    simp only [o, Order.items, List.cons_append, List.nil_append, List.mem_cons, List.not_mem_nil, or_false] at hs
    rcases hs with rfl | rfl | rfl <;> simp [s1, s2, s3]

/-! ### The hypotheses can be met -/

/-- Two stations three and five kilometres away, added in one order and in the other, in double precision. -/
example : ∃ (g : Cell) (l : List (Station × ℝ)) (o o' : Order (Station × ℝ)),
    Accurate ((1 / 2) ^ 53) (1 / (1 - (1 / 2) ^ 53)) 2 double ∧ Apart g l ∧ o.items.Perm l ∧ o'.items.Perm l ∧ o.items ≠ o'.items ∧
      (∀ s ∈ l, 270 ≤ s.2 ∧ s.2 ≤ 275) ∧ (∀ s ∈ l, |s.2| ≤ 275) ∧ l.length ≤ 10 ^ 9 := by
  let s1 : Station × ℝ := (⟨3000, 0, 1500, none⟩, 275)
  let s2 : Station × ℝ := (⟨3000, 4000, 1800, none⟩, 270)
  refine ⟨⟨0, 0, 1600⟩, [s1, s2], .both (.one s1) (.one s2), .both (.one s2) (.one s1), double_accurate 2, ?_, ?_, ?_, ?_, ?_, ?_, ?_⟩
  · intro s hs
    simp only [List.mem_cons, List.not_mem_nil, or_false] at hs
    rcases hs with rfl | rfl <;> simp [s1, s2]
  · exact List.Perm.refl _
  · exact List.Perm.swap _ _ _
  · simp [Order.items, s1, s2]
  · intro s hs
    simp only [List.mem_cons, List.not_mem_nil, or_false] at hs
    rcases hs with rfl | rfl <;> norm_num [s1, s2]
  · intro s hs
    simp only [List.mem_cons, List.not_mem_nil, or_false] at hs
    rcases hs with rfl | rfl <;> norm_num [s1, s2, abs_le]
  · simp

end Verif.IdwFloat
