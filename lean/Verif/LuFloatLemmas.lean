import Verif.LuFloat
import Verif.LuLemmas
import Mathlib.Tactic.Positivity
import Mathlib.Algebra.Order.BigOperators.Group.Finset

/-!
Helper lemmas for `LuFloatProps`. Rounding errors are carried as factors near one on the exact products: the loops then keep
equations, as in `LuLemmas`.
-/

namespace Verif.LuFloat

open Finset
open Verif.Lu (set put span rowBig swapRows State Search Forward Junk L U sig)

/-- A factor within `p - 1` of one. -/
def Close (p a : ℝ) : Prop := |a - 1| ≤ p - 1

theorem Close.one {p : ℝ} (hp : 1 ≤ p) : Close p 1 := by
  unfold Close; rw [sub_self, abs_zero]; linarith

theorem Close.mono {p q a : ℝ} (h : Close p a) (hpq : p ≤ q) : Close q a := by
  unfold Close at *; linarith

theorem Close.ge {p a : ℝ} (h : Close p a) : 1 ≤ p := by
  have := abs_nonneg (a - 1)
  unfold Close at h; linarith

theorem Close.mul {p q a b : ℝ} (ha : Close p a) (hb : Close q b) : Close (p * q) (a * b) := by
  have hp := ha.ge
  unfold Close at *
  have h1 : |b| ≤ q := by
    have := abs_sub_abs_le_abs_sub b 1
    rw [abs_one] at this
    linarith
  calc |a * b - 1| = |(a - 1) * b + (b - 1)| := by congr 1; ring
    _ ≤ |(a - 1) * b| + |b - 1| := abs_add_le _ _
    _ ≤ (p - 1) * q + (q - 1) := by
        rw [abs_mul]
        exact add_le_add (mul_le_mul ha h1 (abs_nonneg _) (by linarith)) hb
    _ = p * q - 1 := by ring

theorem Close.sub {p q a b : ℝ} (ha : Close p a) (hb : Close q b) : |a - b| ≤ (p - 1) + (q - 1) := by
  unfold Close at *
  calc |a - b| = |(a - 1) - (b - 1)| := by congr 1; ring
    _ ≤ |a - 1| + |b - 1| := abs_sub _ _
    _ ≤ _ := add_le_add ha hb

/-- What is used of the rounding: `ρ` is at least one; a rounded number is the number times a factor near one, in both
directions. -/
structure Good (ρ : ℝ) (rnd : ℝ → ℝ) : Prop where
  one : 1 ≤ ρ
  fwd : ∀ x, ∃ t, Close ρ t ∧ rnd x = t * x
  bwd : ∀ x, ∃ t, Close ρ t ∧ x = t * rnd x

theorem Good.of_error {u : ℝ} {rnd : ℝ → ℝ} (h0 : 0 ≤ u) (h1 : u < 1) (h : ∀ x, |rnd x - x| ≤ u * |x|) :
    Good (1 / (1 - u)) rnd := by
  have hp : 0 < 1 - u := by linarith
  have hr : u ≤ 1 / (1 - u) - 1 := by
    rw [le_sub_iff_add_le, le_div_iff₀ hp]; nlinarith
  have hr1 : 1 ≤ 1 / (1 - u) := by rw [le_div_iff₀ hp]; linarith
  refine ⟨hr1, fun x => ?_, fun x => ?_⟩
  · by_cases hx : x = 0
    · refine ⟨1, Close.one hr1, ?_⟩
      have := h 0
      subst hx
      simpa using this
    · refine ⟨rnd x / x, ?_, by field_simp⟩
      unfold Close
      have e : rnd x / x - 1 = (rnd x - x) / x := by field_simp
      rw [e, abs_div, div_le_iff₀ (abs_pos.2 hx)]
      exact (h x).trans (mul_le_mul_of_nonneg_right hr (abs_nonneg _))
  · by_cases hx : x = 0
    · exact ⟨1, Close.one hr1, by have := h 0; subst hx; simp at this; simp [this]⟩
    · have h2 : |x| * (1 - u) ≤ |rnd x| := by
        have := abs_sub_abs_le_abs_sub x (rnd x)
        rw [abs_sub_comm x] at this
        have := h x
        linarith
      have hpos : 0 < |rnd x| := lt_of_lt_of_le (mul_pos (abs_pos.2 hx) hp) h2
      have hne : rnd x ≠ 0 := abs_pos.1 hpos
      refine ⟨x / rnd x, ?_, by field_simp⟩
      unfold Close
      have e : x / rnd x - 1 = (x - rnd x) / rnd x := by field_simp
      rw [e, abs_div, div_le_iff₀ hpos, abs_sub_comm]
      have e2 : (1 / (1 - u) - 1) = u / (1 - u) := by field_simp; ring
      rw [e2, div_mul_eq_mul_div, le_div_iff₀ hp]
      calc |rnd x - x| * (1 - u) ≤ u * |x| * (1 - u) := mul_le_mul_of_nonneg_right (h x) hp.le
        _ = u * (|x| * (1 - u)) := by ring
        _ ≤ u * |rnd x| := mul_le_mul_of_nonneg_left h2 h0

variable {ρ : ℝ} {rnd : ℝ → ℝ}

theorem Good.zero_iff (h : Good ρ rnd) (x : ℝ) : rnd x = 0 ↔ x = 0 := by
  constructor
  · intro e
    obtain ⟨t, -, ht⟩ := h.bwd x
    rw [ht, e, mul_zero]
  · rintro rfl
    obtain ⟨t, -, ht⟩ := h.fwd 0
    rw [ht, mul_zero]

/-- The loop `sum -= f(k)` with rounding: the start value is the result and the products, each with a factor near one. -/
theorem foldl_range (h : Good ρ rnd) (f : Nat → ℝ) (m : Nat) (x : ℝ) :
    ∃ (E : ℝ) (c : Nat → ℝ), Close (ρ ^ m) E ∧ (∀ k, Close (ρ ^ (m + 1)) (c k)) ∧
      x = E * (List.range m).foldl (fun s k => rnd (s - rnd (f k))) x + ∑ k ∈ range m, c k * f k := by
  induction m with
  | zero => exact ⟨1, fun _ => 1, Close.one (by simp), fun _ => Close.one (by simpa using h.one), by simp⟩
  | succ m ih =>
    obtain ⟨E, c, hE, hc, e⟩ := ih
    rw [List.range_succ, List.foldl_append]
    simp only [List.foldl]
    generalize (List.range m).foldl (fun s k => rnd (s - rnd (f k))) x = s at e
    obtain ⟨t, ht, et⟩ := h.fwd (f m)
    obtain ⟨w, hw, ew⟩ := h.bwd (s - rnd (f m))
    refine ⟨E * w, fun k => if k = m then E * t else c k, ?_, fun k => ?_, ?_⟩
    · rw [pow_succ]; exact hE.mul hw
    · have hup : ρ ^ (m + 1) ≤ ρ ^ (m + 1 + 1) := pow_le_pow_right₀ h.one (by omega)
      simp only
      split
      · exact (pow_succ ρ m ▸ hE.mul ht).mono hup
      · exact (hc k).mono hup
    · beta_reduce
      rw [sum_range_succ, if_pos rfl]
      have hs : ∑ k ∈ range m, (if k = m then E * t else c k) * f k = ∑ k ∈ range m, c k * f k := by
        apply sum_congr rfl
        intro k hk
        rw [mem_range] at hk
        rw [if_neg (by omega)]
      rw [hs]
      have e3 : s = w * rnd (s - rnd (f m)) + t * f m := by rw [← ew, et]; ring
      generalize rnd (s - rnd (f m)) = z at e3 ⊢
      rw [e, e3]
      ring

theorem Good.abs_le (h : Good ρ rnd) (x : ℝ) : |rnd x| ≤ ρ * |x| := by
  obtain ⟨t, ht, e⟩ := h.fwd x
  rw [e, abs_mul]
  apply mul_le_mul_of_nonneg_right _ (abs_nonneg _)
  have := abs_sub_abs_le_abs_sub t 1
  unfold Close at ht
  rw [abs_one] at this
  linarith

theorem Good.le_abs (h : Good ρ rnd) (x : ℝ) : |x| ≤ ρ * |rnd x| := by
  obtain ⟨t, ht, e⟩ := h.bwd x
  have h2 : |x| = |t| * |rnd x| := by rw [← abs_mul, ← e]
  rw [h2]
  apply mul_le_mul_of_nonneg_right _ (abs_nonneg _)
  have := abs_sub_abs_le_abs_sub t 1
  unfold Close at ht
  rw [abs_one] at this
  linarith

theorem foldl_mag (h : Good ρ rnd) (f : Nat → ℝ) (m : Nat) (x : ℝ) :
    |(List.range m).foldl (fun s k => rnd (s - rnd (f k))) x| ≤ ρ ^ (m + 1) * (|x| + ∑ k ∈ range m, |f k|) := by
  have h0 : 0 ≤ ρ := by linarith [h.one]
  have key : |(List.range m).foldl (fun s k => rnd (s - rnd (f k))) x| ≤ ρ ^ m * |x| + ρ ^ (m + 1) * ∑ k ∈ range m, |f k| := by
    induction m with
    | zero => simp
    | succ m ih =>
      rw [List.range_succ, List.foldl_append]
      simp only [List.foldl]
      generalize (List.range m).foldl (fun s k => rnd (s - rnd (f k))) x = s at ih
      have hp : (1 : ℝ) ≤ ρ ^ m := one_le_pow₀ h.one
      calc |rnd (s - rnd (f m))| ≤ ρ * |s - rnd (f m)| := h.abs_le _
        _ ≤ ρ * (|s| + |rnd (f m)|) := mul_le_mul_of_nonneg_left (abs_sub _ _) h0
        _ ≤ ρ * ((ρ ^ m * |x| + ρ ^ (m + 1) * ∑ k ∈ range m, |f k|) + ρ * |f m|) :=
            mul_le_mul_of_nonneg_left (add_le_add ih (h.abs_le _)) h0
        _ = ρ ^ (m + 1) * |x| + (ρ ^ (m + 2) * ∑ k ∈ range m, |f k|) + 1 * (ρ ^ 2 * |f m|) := by ring
        _ ≤ ρ ^ (m + 1) * |x| + (ρ ^ (m + 2) * ∑ k ∈ range m, |f k|) + ρ ^ m * (ρ ^ 2 * |f m|) :=
            add_le_add (le_refl _) (mul_le_mul_of_nonneg_right hp (by positivity))
        _ = _ := by rw [sum_range_succ]; ring
  refine key.trans ?_
  rw [mul_add]
  exact add_le_add (mul_le_mul_of_nonneg_right (pow_le_pow_right₀ h.one (by omega)) (abs_nonneg _)) (le_refl _)

/-- What a loop over `m` products `f k` with `k ∈ S` has done: `x` was the start value and `s` is the result. -/
structure Red (ρ : ℝ) (m : Nat) (x s : ℝ) (S : Finset Nat) (f : Nat → ℝ) : Prop where
  eq : ∃ (E : ℝ) (c : Nat → ℝ), Close (ρ ^ m) E ∧ (∀ k, Close (ρ ^ (m + 1)) (c k)) ∧ x = E * s + ∑ k ∈ S, c k * f k
  mag : |s| ≤ ρ ^ (m + 1) * (|x| + ∑ k ∈ S, |f k|)

theorem Red.congr {m : Nat} {x s : ℝ} {S : Finset Nat} {f g : Nat → ℝ} (h : Red ρ m x s S f) (hfg : ∀ k ∈ S, f k = g k) :
    Red ρ m x s S g := by
  obtain ⟨⟨E, c, hE, hc, e⟩, hm⟩ := h
  refine ⟨⟨E, c, hE, hc, ?_⟩, ?_⟩
  · rw [e]; congr 1
    exact sum_congr rfl fun k hk => by rw [hfg k hk]
  · rwa [sum_congr rfl fun k hk => by rw [← hfg k hk]]

theorem red_range (h : Good ρ rnd) (f : Nat → ℝ) (m : Nat) (x : ℝ) :
    Red ρ m x ((List.range m).foldl (fun s k => rnd (s - rnd (f k))) x) (range m) f :=
  ⟨foldl_range h f m x, foldl_mag h f m x⟩

theorem red_span (h : Good ρ rnd) (f : Nat → ℝ) (lo hi : Nat) (x : ℝ) :
    Red ρ (hi - lo) x ((span lo hi).foldl (fun s k => rnd (s - rnd (f k))) x) (Ico lo hi) f := by
  obtain ⟨⟨E, c, hE, hc, e⟩, hm⟩ := red_range h (fun k => f (k + lo)) (hi - lo) x
  unfold span
  rw [List.foldl_map]
  refine ⟨⟨E, fun k => c (k - lo), hE, fun k => hc _, ?_⟩, ?_⟩
  · rw [sum_Ico_eq_sum_range]
    have : ∑ k ∈ range (hi - lo), c (lo + k - lo) * f (lo + k) = ∑ k ∈ range (hi - lo), c k * f (k + lo) := by
      apply sum_congr rfl
      intro k _
      rw [Nat.add_sub_cancel_left, Nat.add_comm]
    rw [this]
    exact e
  · rw [sum_Ico_eq_sum_range]
    have : ∑ k ∈ range (hi - lo), |f (lo + k)| = ∑ k ∈ range (hi - lo), |f (k + lo)| :=
      sum_congr rfl fun k _ => by rw [Nat.add_comm]
    rw [this]
    exact hm

theorem Red.zero_of_start {m : Nat} {s : ℝ} {S : Finset Nat} {f : Nat → ℝ} (h : Red ρ m 0 s S f) (hf : ∀ k ∈ S, f k = 0) :
    s = 0 := by
  have := h.mag
  rw [sum_congr rfl fun k hk => by rw [hf k hk, abs_zero]] at this
  simpa using this

/-! ### Scaling -/

/-- The scaling factor of a row. -/
noncomputable def scaleOf (rnd : ℝ → ℝ) (n : Nat) (a : Nat → Nat → ℝ) (r : Nat) : ℝ := rnd (1 / rowBig n a r)

theorem Good.pos (h : Good ρ rnd) (h2 : ρ < 2) {x : ℝ} (hx : 0 < x) : 0 < rnd x := by
  obtain ⟨t, ht, e⟩ := h.fwd x
  rw [e]
  apply mul_pos _ hx
  have := (_root_.abs_le.1 ht).1
  linarith

theorem Good.nonneg (h : Good ρ rnd) (h2 : ρ < 2) {x : ℝ} (hx : 0 ≤ x) : 0 ≤ rnd x := by
  rcases hx.lt_or_eq with hx | hx
  · exact (h.pos h2 hx).le
  · rw [← hx, (h.zero_iff 0).2 rfl]

theorem scaling_spec (n : Nat) (a : Nat → Nat → ℝ) (vv : Nat → ℝ) :
    match scaling rnd n a vv with
    | some w => ∀ r < n, w r = scaleOf rnd n a r ∧ rowBig n a r ≠ 0
    | none => ∃ r < n, ∀ c < n, a r c = 0 := by
  unfold scaling
  have key : ∀ m ≤ n, match (List.range m).foldlM
      (fun vv i => if rowBig n a i = 0 then none else some (put vv i (rnd (1 / rowBig n a i)))) vv with
    | some w => ∀ r < m, w r = scaleOf rnd n a r ∧ rowBig n a r ≠ 0
    | none => ∃ r < n, ∀ c < n, a r c = 0 := by
    intro m
    induction m with
    | zero => intro _; simp
    | succ m ih =>
      intro hm
      have h := ih (by omega)
      rw [List.range_succ, List.foldlM_append]
      cases e : (List.range m).foldlM
        (fun vv i => if rowBig n a i = 0 then none else some (put vv i (rnd (1 / rowBig n a i)))) vv with
      | none => rw [e] at h; exact h
      | some w =>
        rw [e] at h
        simp only at h
        simp only [List.foldlM_cons, List.foldlM_nil, Option.bind_eq_bind, Option.bind_some]
        obtain ⟨b0, b1⟩ := Lu.rowBig_pos n a m
        by_cases hb : rowBig n a m = 0
        · rw [if_pos hb]
          simp only [Option.bind_none]
          exact ⟨m, by omega, fun c hc => abs_eq_zero.1 (le_antisymm (hb ▸ b1 c hc) (abs_nonneg _))⟩
        · rw [if_neg hb]
          simp only [Option.bind_some]
          intro r hr
          unfold put
          by_cases er : r = m
          · rw [if_pos er, er]; exact ⟨rfl, hb⟩
          · rw [if_neg er]; exact h r (by omega)
  exact key n (le_refl _)

/-! ### One column -/

theorem upper_spec (h : Good ρ rnd) (j : Nat) (a : Nat → Nat → ℝ) :
    (∀ r c, c ≠ j ∨ j ≤ r → upper rnd j a r c = a r c) ∧
    ∀ r < j, Red ρ r (a r j) (upper rnd j a r j) (range r) (fun k => a r k * upper rnd j a k j) := by
  unfold upper
  suffices h : ∀ m ≤ j, ∀ b, b = (List.range m).foldl (fun a i => set a i j (reduced rnd a i j (List.range i))) a →
      (∀ r c, c ≠ j ∨ m ≤ r → b r c = a r c) ∧ ∀ r < m, Red ρ r (a r j) (b r j) (range r) (fun k => a r k * b k j) from
    h j (le_refl _) _ rfl
  intro m
  induction m with
  | zero => rintro - b rfl; simp
  | succ m ih =>
    rintro hm b rfl
    rw [List.range_succ, List.foldl_append]
    simp only [List.foldl]
    obtain ⟨h1, h2⟩ := ih (by omega) _ rfl
    generalize (List.range m).foldl (fun a i => set a i j (reduced rnd a i j (List.range i))) a = b at h1 h2
    refine ⟨fun r c h => ?_, fun r hr => ?_⟩
    · rw [Lu.set_other _ _ _ _ _ _ (by omega)]; exact h1 r c (by omega)
    · by_cases e : r = m
      · subst e
        rw [Lu.set_same]
        have := red_range h (fun k => b r k * b k j) r (b r j)
        rw [h1 r j (Or.inr (le_refl _))] at this
        unfold reduced
        rw [h1 r j (Or.inr (le_refl _))]
        refine this.congr fun k hk => ?_
        rw [mem_range] at hk
        rw [Lu.set_other _ _ _ _ _ _ (by omega), h1 r k (by omega)]
      · rw [Lu.set_other _ _ _ _ _ _ (by omega)]
        refine (h2 r (by omega)).congr fun k hk => ?_
        rw [mem_range] at hk
        rw [Lu.set_other _ _ _ _ _ _ (by omega)]

theorem search_spec (h : Good ρ rnd) (hlt : ρ < 2) (n j : Nat) (vv : Nat → ℝ) (a : Nat → Nat → ℝ) (imax : Nat) (hj : j < n)
    (hv : ∀ r < n, 0 < vv r) :
    let f := search rnd n j vv a imax
    (∀ r c, c ≠ j ∨ r < j ∨ n ≤ r → f.a r c = a r c) ∧
    (∀ r, j ≤ r → r < n → Red ρ j (a r j) (f.a r j) (range j) (fun k => a r k * a k j)) ∧
    (∀ r, j ≤ r → r < n → rnd (vv r * |f.a r j|) ≤ rnd (vv f.imax * |f.a f.imax j|)) ∧
    j ≤ f.imax ∧ f.imax < n := by
  suffices h : ∀ m ≤ n - j, ∀ f, f = ((List.range m).map (· + j)).foldl (searchRow rnd j vv) ⟨a, 0, imax⟩ →
      (∀ r c, c ≠ j ∨ r < j ∨ j + m ≤ r → f.a r c = a r c) ∧
      (∀ r, j ≤ r → r < j + m → Red ρ j (a r j) (f.a r j) (range j) (fun k => a r k * a k j)) ∧
      (∀ r, j ≤ r → r < j + m → rnd (vv r * |f.a r j|) ≤ f.big) ∧ (m = 0 → f.big = 0) ∧
      (0 < m → j ≤ f.imax ∧ f.imax < j + m ∧ f.big = rnd (vv f.imax * |f.a f.imax j|)) by
    obtain ⟨h1, h2, h3, -, h4⟩ := h (n - j) (le_refl _) _ rfl
    obtain ⟨h4, h5, h6⟩ := h4 (by omega)
    intro f
    refine ⟨fun r c hc => h1 r c (by omega), fun r h h' => h2 r h (by omega), fun r h h' => ?_, h4, ?_⟩
    · show _ ≤ _
      have := h3 r h (by omega)
      rw [h6] at this
      exact this
    · have : f.imax < j + (n - j) := h5
      omega
  intro m
  induction m with
  | zero =>
    rintro - f rfl
    refine ⟨fun _ _ _ => rfl, fun r h h' => by omega, fun r h h' => by omega, fun _ => rfl, fun h => by omega⟩
  | succ m ih =>
    rintro hm f rfl
    rw [List.range_succ, List.map_append, List.foldl_append]
    simp only [List.map, List.foldl]
    obtain ⟨h1, h2, h3, h4, h5⟩ := ih (by omega) _ rfl
    generalize ((List.range m).map (· + j)).foldl (searchRow rnd j vv) ⟨a, 0, imax⟩ = f at h1 h2 h3 h4 h5
    have hsum : Red ρ j (a (m + j) j) (reduced rnd f.a (m + j) j (List.range j)) (range j) (fun k => a (m + j) k * a k j) := by
      have := red_range h (fun k => f.a (m + j) k * f.a k j) j (f.a (m + j) j)
      rw [h1 (m + j) j (by omega)] at this
      unfold reduced
      rw [h1 (m + j) j (by omega)]
      refine this.congr fun k hk => ?_
      rw [mem_range] at hk
      rw [h1 _ _ (by omega), h1 _ _ (by omega)]
    have fa : (searchRow rnd j vv f (m + j)).a = set f.a (m + j) j (reduced rnd f.a (m + j) j (List.range j)) := by
      unfold searchRow; simp only; split <;> rfl
    have fb : (searchRow rnd j vv f (m + j)) =
        if f.big ≤ rnd (vv (m + j) * |reduced rnd f.a (m + j) j (List.range j)|) then
          ⟨set f.a (m + j) j (reduced rnd f.a (m + j) j (List.range j)),
            rnd (vv (m + j) * |reduced rnd f.a (m + j) j (List.range j)|), m + j⟩
        else ⟨set f.a (m + j) j (reduced rnd f.a (m + j) j (List.range j)), f.big, f.imax⟩ := rfl
    generalize reduced rnd f.a (m + j) j (List.range j) = s at hsum fa fb
    refine ⟨fun r c h => ?_, fun r h h' => ?_, ?_, fun h => by omega, fun _ => ?_⟩
    · rw [fa, Lu.set_other _ _ _ _ _ _ (by omega)]; exact h1 r c (by omega)
    · rw [fa]
      by_cases e : r = m + j
      · subst e; rw [Lu.set_same]; exact hsum
      · rw [Lu.set_other _ _ _ _ _ _ (by omega)]; exact h2 r h (by omega)
    · intro r h h'
      rw [fa]
      by_cases e : r = m + j
      · subst e
        rw [Lu.set_same, fb]
        split
        · exact le_refl _
        · rename_i hn; exact (not_le.1 hn).le
      · rw [Lu.set_other _ _ _ _ _ _ (by omega)]
        refine (h3 r h (by omega)).trans ?_
        rw [fb]
        split
        · assumption
        · exact le_refl _
    · rw [fa, fb]
      split
      · simp only; refine ⟨by omega, by omega, by rw [Lu.set_same]⟩
      · rename_i hn
        have hm0 : 0 < m := by
          rcases Nat.eq_zero_or_pos m with h' | h'
          · exfalso
            apply hn
            rw [h4 h']
            exact h.nonneg hlt (mul_nonneg (hv _ (by omega)).le (abs_nonneg _))
          · exact h'
        obtain ⟨q1, q2, q3⟩ := h5 hm0
        simp only
        refine ⟨q1, by omega, ?_⟩
        rw [Lu.set_other _ _ _ _ _ _ (by omega)]
        exact q3

theorem divide_spec (n j : Nat) (a : Nat → Nat → ℝ) (q : ℝ) (r c : Nat) :
    (span (j + 1) n).foldl (fun b i => set b i j (rnd (b i j * q))) a r c =
      if c = j ∧ j < r ∧ r < n then rnd (a r j * q) else a r c := by
  unfold span
  suffices h : ∀ m, ((List.range m).map (· + (j + 1))).foldl (fun b i => set b i j (rnd (b i j * q))) a r c =
      if c = j ∧ j < r ∧ r < j + 1 + m then rnd (a r j * q) else a r c by
    rw [h]
    by_cases h' : c = j ∧ j < r ∧ r < n
    · rw [if_pos h', if_pos (by omega)]
    · rw [if_neg h', if_neg (by omega)]
  intro m
  induction m generalizing r c with
  | zero => rw [if_neg (by omega)]; rfl
  | succ m ih =>
    rw [List.range_succ, List.map_append, List.foldl_append]
    simp only [List.map, List.foldl]
    unfold Lu.set at ih ⊢
    by_cases h : r = m + (j + 1) ∧ c = j
    · rw [if_pos h, ih, if_neg (by omega), if_pos (by omega), h.1]
    · rw [if_neg h, ih]
      by_cases h' : c = j ∧ j < r ∧ r < j + 1 + m
      · rw [if_pos h', if_pos (by omega)]
      · rw [if_neg h', if_neg (by omega)]

/-- What holds before column `j`, for `D` the scaling factors of the rows of `A`. -/
structure Inv (ρ : ℝ) (n : Nat) (A : Nat → Nat → ℝ) (D : Nat → ℝ) (j : Nat) (s : State ℝ) : Prop where
  pos : ∀ r < n, 0 < s.vv r
  swaps : ∀ i < j, i ≤ s.indx i ∧ s.indx i < n
  rest : ∀ r < n, ∀ c, j ≤ c → c < n → s.a r c = A (sig s.indx j r) c
  rhs : ∀ r c, n ≤ c → s.a r c = A r c
  done : ∀ r < n, ∀ c < j, ∃ θ : Nat → ℝ, (∀ k, Close (ρ ^ (n + 1)) (θ k)) ∧
    A (sig s.indx j r) c = ∑ k ∈ range n, (θ k * L s.a r k) * U s.a k c
  piv : ∀ k < j, s.a k k ≠ 0
  scale : ∀ r, j ≤ r → r < n → s.vv r = D (sig s.indx j r)
  lower : ∀ r < n, ∀ k < j, k < r → D (sig s.indx j r) * |s.a r k| ≤ ρ ^ 4 * D (sig s.indx j k)
  up : ∀ c < j, ∀ k ≤ c, D (sig s.indx j k) * |s.a k c| ≤
    ρ ^ (n + 1) * (ρ + ∑ i ∈ range k, ρ ^ 4 * (D (sig s.indx j i) * |s.a i c|))

/-- The matrix before the rows are interchanged. -/
theorem column_mid (h : Good ρ rnd) (hlt : ρ < 2) {n j : Nat} {A : Nat → Nat → ℝ} {D : Nat → ℝ} {s : State ℝ}
    (I : Inv ρ n A D j s) (hj : j < n) :
    let f := search rnd n j s.vv (upper rnd j s.a) s.imax
    (∀ r c, c ≠ j → f.a r c = s.a r c) ∧
    (∀ r < n, ∃ (E : ℝ) (c : Nat → ℝ), Close (ρ ^ j) E ∧ (∀ k, Close (ρ ^ n) (c k)) ∧
      s.a r j = ∑ k ∈ range j, (c k * L f.a r k) * f.a k j + (if j ≤ r then E * f.a r j else 0)) ∧
    (∀ r < n, |f.a r j| ≤ ρ ^ n * (|s.a r j| + ∑ k ∈ range (min r j), |f.a r k| * |f.a k j|)) ∧
    (∀ r, j ≤ r → r < n → rnd (s.vv r * |f.a r j|) ≤ rnd (s.vv f.imax * |f.a f.imax j|)) ∧ j ≤ f.imax ∧ f.imax < n := by
  intro f
  obtain ⟨u1, u2⟩ := upper_spec h j s.a
  obtain ⟨f1, f2, f3, f4, f5⟩ := search_spec h hlt n j s.vv (upper rnd j s.a) s.imax hj I.pos
  have hcol : ∀ r c, c ≠ j → f.a r c = s.a r c := fun r c hc => by
    rw [f1 r c (Or.inl hc), u1 r c (Or.inl hc)]
  have hup : ∀ k < j, f.a k j = upper rnd j s.a k j := fun k hk => f1 k j (Or.inr (Or.inl hk))
  have hlo : ∀ r, j ≤ r → r < n → Red ρ j (s.a r j) (f.a r j) (range j) (fun k => f.a r k * f.a k j) := fun r hr hrn => by
    have := f2 r hr hrn
    rw [u1 r j (Or.inr hr)] at this
    refine this.congr fun k hk => ?_
    rw [mem_range] at hk
    rw [hup k hk, f1 r k (Or.inl (by omega))]
  have hhi : ∀ r, r < j → Red ρ r (s.a r j) (f.a r j) (range r) (fun k => f.a r k * f.a k j) := fun r hr => by
    rw [hup r hr]
    refine (u2 r hr).congr fun k hk => ?_
    rw [mem_range] at hk
    rw [hup k (by omega), hcol r k (by omega)]
  have mono : ∀ {m : Nat} {t : ℝ}, m ≤ n → Close (ρ ^ m) t → Close (ρ ^ n) t := fun hm ht =>
    ht.mono (pow_le_pow_right₀ h.one hm)
  refine ⟨hcol, fun r hr => ?_, fun r hr => ?_, f3, f4, f5⟩
  · by_cases hr' : j ≤ r
    · obtain ⟨E, c, hE, hc, e⟩ := (hlo r hr' hr).eq
      refine ⟨E, c, hE, fun k => mono (by omega) (hc k), ?_⟩
      rw [if_pos hr', e, add_comm]
      congr 1
      apply sum_congr rfl
      intro k hk
      rw [mem_range] at hk
      unfold L
      rw [if_pos (by omega)]; ring
    · obtain ⟨E, c, hE, hc, e⟩ := (hhi r (by omega)).eq
      refine ⟨1, fun k => if k = r then E else c k, Close.one (one_le_pow₀ h.one), fun k => ?_, ?_⟩
      · beta_reduce
        split
        · exact mono (by omega) hE
        · exact mono (by omega) (hc k)
      · rw [if_neg hr', add_zero]
        have := Lu.sum_L j f.a (fun k => (if k = r then E else c k) * f.a k j) r (by omega)
        rw [if_pos rfl] at this
        have e2 : ∑ k ∈ range j, (if k = r then E else c k) * L f.a r k * f.a k j =
            ∑ k ∈ range j, L f.a r k * ((if k = r then E else c k) * f.a k j) := sum_congr rfl fun k _ => by ring
        rw [e2, this, e, add_comm]
        congr 1
        apply sum_congr rfl
        intro k hk
        rw [mem_range] at hk
        rw [if_neg (by omega)]; ring
  · have red : ∀ m, m < n → (Red ρ m (s.a r j) (f.a r j) (range m) (fun k => f.a r k * f.a k j)) →
        |f.a r j| ≤ ρ ^ n * (|s.a r j| + ∑ k ∈ range m, |f.a r k| * |f.a k j|) := fun m hm hred => by
      have := hred.mag
      simp only [abs_mul] at this
      refine this.trans (mul_le_mul_of_nonneg_right (pow_le_pow_right₀ h.one (by omega)) ?_)
      exact add_nonneg (abs_nonneg _) (sum_nonneg fun k _ => mul_nonneg (abs_nonneg _) (abs_nonneg _))
    by_cases hr' : j ≤ r
    · rw [min_eq_right hr']; exact red j hj (hlo r hr' hr)
    · rw [min_eq_left (by omega)]; exact red r hr (hhi r (by omega))

theorem column_ok (h : Good ρ rnd) (hlt : ρ < 2) {n j : Nat} {A : Nat → Nat → ℝ} {D : Nat → ℝ} {s s' : State ℝ}
    (hD : ∀ r < n, 0 < D r ∧ ∀ c < n, D r * |A r c| ≤ ρ)
    (I : Inv ρ n A D j s) (hj : j < n) (hc : column rnd n s j = some s') : Inv ρ n A D (j + 1) s' := by
  obtain ⟨hcol, hj', hmag, hmax, f4, f5⟩ := column_mid h hlt I hj
  unfold column at hc
  simp only at hc
  generalize search rnd n j s.vv (upper rnd j s.a) s.imax = f at *
  have hsw : ∀ r c, (if j = f.imax then f.a else swapRows n j f.imax f.a) r c =
      if c < n then f.a (Equiv.swap j f.imax r) c else f.a r c := by
    intro r c
    by_cases e : j = f.imax
    · rw [if_pos e, ← e, Equiv.swap_self, Equiv.refl_apply, ite_self]
    · rw [if_neg e, Lu.swapRows_spec]
  generalize (if j = f.imax then f.a else swapRows n j f.imax f.a) = a at hc hsw
  have hvv : ∀ r < n, 0 < (if j = f.imax then s.vv else put s.vv f.imax (s.vv j)) r := by
    intro r hr
    split
    · exact I.pos r hr
    · unfold put; split
      · exact I.pos j hj
      · exact I.pos r hr
  have hvs : ∀ r, j + 1 ≤ r → r < n →
      (if j = f.imax then s.vv else put s.vv f.imax (s.vv j)) r = s.vv (Equiv.swap j f.imax r) := by
    intro r hr hrn
    by_cases e : j = f.imax
    · rw [if_pos e, ← e, Equiv.swap_self, Equiv.refl_apply]
    · rw [if_neg e]; unfold put
      by_cases e2 : r = f.imax
      · rw [if_pos e2, e2, Equiv.swap_apply_right]
      · rw [if_neg e2, Equiv.swap_apply_of_ne_of_ne (by omega) e2]
  generalize (if j = f.imax then s.vv else put s.vv f.imax (s.vv j)) = vv at hc hvv hvs
  split at hc
  · cases hc
  · rename_i hp
    obtain ⟨a'', hs', hd⟩ : ∃ a'', s' = ⟨a'', vv, put s.indx j f.imax, f.imax⟩ ∧
        ∀ r c, r < n ∨ n ≤ c → a'' r c = if c = j ∧ j < r then rnd (a r j * rnd (1 / a j j)) else a r c := by
      split at hc
      · rename_i e
        refine ⟨a, (Option.some.inj hc).symm, fun r c hr => ?_⟩
        rw [if_neg (by omega)]
      · refine ⟨_, (Option.some.inj hc).symm, fun r c hr => ?_⟩
        rw [divide_spec]
        by_cases h1 : c = j ∧ j < r ∧ r < n
        · rw [if_pos h1, if_pos (by omega)]
        · rw [if_neg h1, if_neg (by omega)]
    subst hs'
    clear hc
    have hsig : ∀ r, sig (put s.indx j f.imax) (j + 1) r = sig s.indx j (Equiv.swap j f.imax r) := by
      intro r
      rw [sig, Lu.sig_congr (put s.indx j f.imax) s.indx j (fun k hk => by unfold put; rw [if_neg (by omega)])]
      simp [put]
    have hlow : ∀ k < j, ∀ c, c < n → a'' k c = f.a k c := fun k hk c hc => by
      rw [hd k c (by omega), if_neg (by omega), hsw, if_pos hc, Lu.swap_low f4 hk]
    have hoff : ∀ r < n, ∀ c, c < n → c ≠ j → a'' r c = f.a (Equiv.swap j f.imax r) c := fun r hr c hc hcj => by
      rw [hd r c (by omega), if_neg (by omega), hsw, if_pos hc]
    have hL : ∀ r < n, ∀ k < j, L a'' r k = L f.a (Equiv.swap j f.imax r) k := by
      intro r hr k hk
      by_cases h : r < j
      · rw [Lu.swap_low f4 h]; unfold L
        by_cases h' : k < r
        · rw [if_pos h', if_pos h', hlow r h k (by omega)]
        · rw [if_neg h', if_neg h']
      · have := Lu.swap_high f4 (not_lt.1 h)
        unfold L
        rw [if_pos (by omega), if_pos (by omega), hoff r hr k (by omega) (by omega)]
    have hcc : a'' j j = a j j := by rw [hd j j (Or.inl hj), if_neg (by omega)]
    have hjj : a j j = f.a f.imax j := by rw [hsw, if_pos hj, Equiv.swap_apply_left]
    have hsr : ∀ r < n, sig s.indx j r < n := fun r hr =>
      Lu.sig_lt s.indx n j hj.le (fun i hi => (I.swaps i hi).2) r hr
    -- an entry below the diagonal
    have hdiv : ∀ r, j < r → r < n → ∃ w, Close (ρ ^ 2) w ∧ f.a (Equiv.swap j f.imax r) j = w * (a'' r j * a'' j j) := by
      intro r hr hrn
      obtain ⟨w1, hw1, e1⟩ := h.bwd (a r j * rnd (1 / a j j))
      obtain ⟨w2, hw2, e2⟩ := h.bwd (1 / a j j)
      refine ⟨w1 * w2, by rw [pow_two]; exact hw1.mul hw2, ?_⟩
      rw [hcc, hd r j (Or.inl hrn), if_pos ⟨rfl, hr⟩]
      have e3 : a r j = f.a (Equiv.swap j f.imax r) j := by rw [hsw, if_pos hj]
      rw [← e3]
      have e4 : a r j = w2 * (a r j * rnd (1 / a j j)) * a j j := by
        have : a r j = a r j * (1 / a j j) * a j j := by field_simp
        calc a r j = a r j * (1 / a j j) * a j j := this
          _ = a r j * (w2 * rnd (1 / a j j)) * a j j := by rw [← e2]
          _ = _ := by ring
      calc a r j = w2 * (a r j * rnd (1 / a j j)) * a j j := e4
        _ = w2 * (w1 * rnd (a r j * rnd (1 / a j j))) * a j j := by rw [← e1]
        _ = _ := by ring
    have hρ0 : 0 ≤ ρ := by linarith [h.one]
    have hmono : ∀ {m : Nat} {t : ℝ}, m ≤ n + 1 → Close (ρ ^ m) t → Close (ρ ^ (n + 1)) t := fun hm ht =>
      ht.mono (pow_le_pow_right₀ h.one hm)
    refine ⟨hvv, ?_, ?_, ?_, ?_, ?_, ?_, ?_, ?_⟩
    · intro i hi
      show i ≤ put s.indx j f.imax i ∧ put s.indx j f.imax i < n
      unfold put
      split
      · rename_i e; rw [e]; exact ⟨f4, f5⟩
      · exact I.swaps i (by omega)
    · intro r hr c hc hcn
      show a'' r c = _
      simp only [hsig]
      rw [hoff r hr c hcn (by omega), hcol _ _ (by omega), I.rest _ (Lu.swap_lt hj f5 hr) c (by omega) hcn]
    · intro r c hc
      show a'' r c = _
      rw [hd r c (Or.inr hc), if_neg (by omega), hsw, if_neg (by omega), hcol _ _ (by omega), I.rhs r c hc]
    · intro r hr c hc
      simp only [hsig]
      have hr' := Lu.swap_lt hj f5 hr
      by_cases e : c = j
      · subst e
        obtain ⟨E, t, hE, ht, eq⟩ := hj' _ hr'
        obtain ⟨z, hz, ez⟩ : ∃ z, Close (ρ ^ (n + 1)) z ∧
            (if c ≤ Equiv.swap c f.imax r then E * f.a (Equiv.swap c f.imax r) c else 0) = z * L a'' r c * a'' c c := by
          unfold L
          rcases Nat.lt_trichotomy r c with hl | hl | hl
          · refine ⟨1, Close.one (one_le_pow₀ h.one), ?_⟩
            rw [Lu.swap_low f4 hl, if_neg (by omega), if_neg (by omega), if_neg (by omega)]; ring
          · subst hl
            refine ⟨E, hmono (by omega) hE, ?_⟩
            rw [if_pos (Lu.swap_high f4 (le_refl _)), if_neg (by omega), if_pos rfl, hcc, hjj, Equiv.swap_apply_left]; ring
          · obtain ⟨w, hw, ew⟩ := hdiv r hl hr
            refine ⟨E * w, hmono (m := c + 2) (by omega) (by rw [pow_add]; exact hE.mul hw), ?_⟩
            rw [if_pos (Lu.swap_high f4 hl.le), if_pos hl, ew]; ring
        refine ⟨fun k => if k < c then t k else z, fun k => ?_, ?_⟩
        · beta_reduce
          split
          · exact hmono (by omega) (ht k)
          · exact hz
        · rw [Lu.sum_U_col n a'' (fun k => (if k < c then t k else z) * L a'' r k) c hj, ← I.rest _ hr' c (le_refl _) hj, eq, ez,
            if_neg (by omega)]
          congr 1
          apply sum_congr rfl
          intro k hk
          rw [mem_range] at hk
          rw [hL r hr k hk, hlow k hk c hj, if_pos hk]
      · obtain ⟨θ, hθ, eq⟩ := I.done _ hr' c (by omega)
        refine ⟨θ, hθ, ?_⟩
        rw [eq]
        apply sum_congr rfl
        intro k hk
        rw [mem_range] at hk
        by_cases hkc : k ≤ c
        · rw [hL r hr k (by omega)]
          unfold U
          rw [if_pos hkc, if_pos hkc, hlow k (by omega) c (by omega), hcol k c e]
          congr 2
          unfold L
          rw [hcol _ _ (by omega)]
        · unfold U; rw [if_neg hkc, if_neg hkc, mul_zero, mul_zero]
    · intro k hk
      show a'' k k ≠ 0
      by_cases e : k = j
      · subst e; rw [hcc]; exact hp
      · rw [hlow k (by omega) k (by omega), hcol k k e]; exact I.piv k (by omega)
    · intro r hr hrn
      show vv r = _
      simp only [hsig]
      rw [hvs r hr hrn, I.scale _ (Lu.swap_high f4 (by omega)) (Lu.swap_lt hj f5 hrn)]
    · intro r hr k hk hkr
      simp only [hsig]
      show _ * |a'' r k| ≤ _
      by_cases e : k = j
      · subst e
        rw [Equiv.swap_apply_left]
        have hh := Lu.swap_high f4 hkr.le
        have hl' := Lu.swap_lt hj f5 hr
        have hm := hmax _ hh hl'
        rw [I.scale _ hh hl', I.scale _ f4 f5] at hm
        have hd1 := (hD _ (hsr _ hl')).1
        have hd2 := (hD _ (hsr _ f5)).1
        rw [hd r k (Or.inl hr), if_pos ⟨rfl, hkr⟩, hsw r k, if_pos hj, hjj]
        generalize D (sig s.indx k (Equiv.swap k f.imax r)) = d1 at hm hd1
        generalize D (sig s.indx k f.imax) = d2 at hm hd2
        generalize f.a (Equiv.swap k f.imax r) k = v at hm
        rw [hjj] at hp
        generalize f.a f.imax k = p at hm hp
        have hp' : 0 < |p| := abs_pos.2 hp
        have k1 : d1 * |v| ≤ ρ ^ 2 * (d2 * |p|) := by
          have q1 := h.le_abs (d1 * |v|)
          have q2 := h.abs_le (d2 * |p|)
          rw [abs_of_nonneg (mul_nonneg hd1.le (abs_nonneg _)),
            abs_of_nonneg (h.nonneg hlt (mul_nonneg hd1.le (abs_nonneg _)))] at q1
          rw [abs_of_nonneg (h.nonneg hlt (mul_nonneg hd2.le (abs_nonneg _))),
            abs_of_nonneg (mul_nonneg hd2.le (abs_nonneg _))] at q2
          calc d1 * |v| ≤ ρ * rnd (d1 * |v|) := q1
            _ ≤ ρ * (ρ * (d2 * |p|)) := mul_le_mul_of_nonneg_left (hm.trans q2) hρ0
            _ = _ := by ring
        have k2 : |rnd (v * rnd (1 / p))| ≤ ρ ^ 2 * (|v| / |p|) := by
          calc |rnd (v * rnd (1 / p))| ≤ ρ * |v * rnd (1 / p)| := h.abs_le _
            _ = ρ * (|v| * |rnd (1 / p)|) := by rw [abs_mul]
            _ ≤ ρ * (|v| * (ρ * |1 / p|)) :=
                mul_le_mul_of_nonneg_left (mul_le_mul_of_nonneg_left (h.abs_le _) (abs_nonneg _)) hρ0
            _ = _ := by rw [abs_div, abs_one]; ring
        calc d1 * |rnd (v * rnd (1 / p))| ≤ d1 * (ρ ^ 2 * (|v| / |p|)) := mul_le_mul_of_nonneg_left k2 hd1.le
          _ = ρ ^ 2 * ((d1 * |v|) / |p|) := by ring
          _ ≤ ρ ^ 2 * ((ρ ^ 2 * (d2 * |p|)) / |p|) :=
              mul_le_mul_of_nonneg_left (div_le_div_of_nonneg_right k1 hp'.le) (by positivity)
          _ = ρ ^ 4 * d2 := by field_simp
      · rw [hoff r hr k (by omega) e, hcol _ _ e, Lu.swap_low f4 (show k < j by omega)]
        apply I.lower _ (Lu.swap_lt hj f5 hr) k (by omega)
        by_cases hr' : r < j
        · rw [Lu.swap_low f4 hr']; exact hkr
        · have := Lu.swap_high f4 (not_lt.1 hr'); omega
    · intro c hc k hk
      simp only [hsig]
      show _ * |a'' k c| ≤ ρ ^ (n + 1) * (ρ + ∑ i ∈ range k, ρ ^ 4 * (_ * |a'' i c|))
      by_cases e : c = j
      · subst e
        have hkv : a'' k c = f.a (Equiv.swap c f.imax k) c := by
          by_cases e : k = c
          · rw [e, hcc, hjj, Equiv.swap_apply_left]
          · rw [hlow k (by omega) c hj, Lu.swap_low f4 (by omega)]
        have hkn : Equiv.swap c f.imax k < n := Lu.swap_lt hj f5 (by omega)
        have hmin : min (Equiv.swap c f.imax k) c = k := by
          by_cases e : k = c
          · rw [e, Equiv.swap_apply_left]; omega
          · rw [Lu.swap_low f4 (by omega)]; omega
        have hm := hmag _ hkn
        rw [hmin] at hm
        rw [hkv]
        obtain ⟨hd0, hd1⟩ := hD _ (hsr _ hkn)
        rw [I.rest _ hkn c (le_refl _) hj] at hm
        have hterm : ∀ i ∈ range k, D (sig s.indx c (Equiv.swap c f.imax k)) *
            (|f.a (Equiv.swap c f.imax k) i| * |f.a i c|) ≤
            ρ ^ 4 * (D (sig s.indx c (Equiv.swap c f.imax i)) * |a'' i c|) := by
          intro i hi
          rw [mem_range] at hi
          have hlw := I.lower _ hkn i (by omega) (by
            by_cases e : k = c
            · rw [e, Equiv.swap_apply_left]; omega
            · rw [Lu.swap_low f4 (by omega)]; exact hi)
          rw [Lu.swap_low f4 (show i < c by omega), hlow i (by omega) c hj, hcol _ i (by omega)]
          calc _ = (D (sig s.indx c (Equiv.swap c f.imax k)) * |s.a (Equiv.swap c f.imax k) i|) * |f.a i c| := by ring
            _ ≤ (ρ ^ 4 * D (sig s.indx c i)) * |f.a i c| := mul_le_mul_of_nonneg_right hlw (abs_nonneg _)
            _ = _ := by ring
        have hs0 : 0 ≤ ∑ i ∈ range k, ρ ^ 4 * (D (sig s.indx c (Equiv.swap c f.imax i)) * |a'' i c|) :=
          sum_nonneg fun i hi => by
            rw [mem_range] at hi
            have := (hD _ (hsr _ (Lu.swap_lt hj f5 (show i < n by omega)))).1
            positivity
        calc D (sig s.indx c (Equiv.swap c f.imax k)) * |f.a (Equiv.swap c f.imax k) c|
            ≤ D (sig s.indx c (Equiv.swap c f.imax k)) * (ρ ^ n * (|A (sig s.indx c (Equiv.swap c f.imax k)) c| +
              ∑ i ∈ range k, |f.a (Equiv.swap c f.imax k) i| * |f.a i c|)) := mul_le_mul_of_nonneg_left hm hd0.le
          _ = ρ ^ n * (D (sig s.indx c (Equiv.swap c f.imax k)) * |A (sig s.indx c (Equiv.swap c f.imax k)) c| +
              ∑ i ∈ range k, D (sig s.indx c (Equiv.swap c f.imax k)) *
                (|f.a (Equiv.swap c f.imax k) i| * |f.a i c|)) := by rw [← mul_sum]; ring
          _ ≤ ρ ^ n * (ρ + ∑ i ∈ range k, ρ ^ 4 * (D (sig s.indx c (Equiv.swap c f.imax i)) * |a'' i c|)) :=
              mul_le_mul_of_nonneg_left (add_le_add (hd1 c hj) (sum_le_sum hterm)) (by positivity)
          _ ≤ _ := mul_le_mul_of_nonneg_right (pow_le_pow_right₀ h.one (by omega)) (by linarith)
      · have := I.up c (by omega) k hk
        rw [Lu.swap_low f4 (show k < j by omega), hlow k (by omega) c (by omega), hcol k c e]
        refine this.trans (le_of_eq ?_)
        congr 2
        apply sum_congr rfl
        intro i hi
        rw [mem_range] at hi
        rw [Lu.swap_low f4 (show i < j by omega), hlow i (by omega) c (by omega), hcol i c e]

end Verif.LuFloat
