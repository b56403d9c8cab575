import Verif.IdwFloat
import Mathlib.Tactic.Linarith
import Mathlib.Tactic.Positivity
import Mathlib.Tactic.FieldSimp

/-
Helper lemmas for `IdwFloatProps`: a calculus of relative errors. All factors are at least one.
-/

namespace Verif.IdwFloat

open Verif.Idw (Station Cell)

/-- Two numbers that are not negative differ at most by the factor `k`. -/
def Rel (k a b : ℝ) : Prop := a ≤ k * b ∧ b ≤ k * a

/-- `y` is an approximation of `x`, off by at most `k - 1` times the magnitude `m`. -/
def Near (k x y m : ℝ) : Prop := |y - x| ≤ (k - 1) * m ∧ |x| ≤ m

/-- A rounding with relative error `u`, written with the factor `r`. -/
def Rounds (r : ℝ) (f : ℝ → ℝ) : Prop := ∀ x, |f x - x| ≤ (r - 1) * |x| ∧ |x| ≤ r * |f x|

theorem rounds_of {u : ℝ} {f : ℝ → ℝ} (h0 : 0 ≤ u) (h1 : u < 1) (h : ∀ x, |f x - x| ≤ u * |x|) : Rounds (1 / (1 - u)) f := by
  have hp : 0 < 1 - u := by linarith
  intro x
  constructor
  · refine (h x).trans (mul_le_mul_of_nonneg_right ?_ (abs_nonneg x))
    rw [le_sub_iff_add_le, le_div_iff₀ hp]
    nlinarith
  · have h2 : |x| ≤ |f x| + |f x - x| := by
      have := abs_sub_abs_le_abs_sub x (f x)
      rw [abs_sub_comm x] at this
      linarith
    rw [div_mul_eq_mul_div, one_mul, le_div_iff₀ hp]
    nlinarith [h x]

theorem Near.abs_le {k x y m : ℝ} (h : Near k x y m) : |y| ≤ k * m := by
  have := abs_sub_abs_le_abs_sub y x
  have := h.1
  have := h.2
  linarith

theorem Near.exact {x : ℝ} : Near 1 x x |x| := ⟨by simp, le_refl _⟩

theorem Near.mag_nonneg {k x y m : ℝ} (h : Near k x y m) : 0 ≤ m := (abs_nonneg x).trans h.2

theorem Near.mono {k k' x y m : ℝ} (h : Near k x y m) (hk : k ≤ k') : Near k' x y m :=
  ⟨h.1.trans (mul_le_mul_of_nonneg_right (by linarith) h.mag_nonneg), h.2⟩

theorem Near.mag {k x y m m' : ℝ} (h : Near k x y m) (hk : 1 ≤ k) (hm : m ≤ m') : Near k x y m' :=
  ⟨h.1.trans (mul_le_mul_of_nonneg_left hm (by linarith)), h.2.trans hm⟩

theorem Near.rnd {r k x y m : ℝ} {f : ℝ → ℝ} (hf : Rounds r f) (hr : 1 ≤ r) (h : Near k x y m) : Near (k * r) x (f y) m := by
  refine ⟨?_, h.2⟩
  have h1 := (hf y).1
  have h2 := mul_le_mul_of_nonneg_left h.abs_le (by linarith : 0 ≤ r - 1)
  calc |f y - x| = |(f y - y) + (y - x)| := by congr 1; ring
    _ ≤ |f y - y| + |y - x| := abs_add_le _ _
    _ ≤ (r - 1) * (k * m) + (k - 1) * m := add_le_add (h1.trans h2) h.1
    _ = _ := by ring

theorem Near.add {k x y m x' y' m' : ℝ} (h : Near k x y m) (h' : Near k x' y' m') : Near k (x + x') (y + y') (m + m') := by
  constructor
  · calc |y + y' - (x + x')| = |(y - x) + (y' - x')| := by congr 1; ring
      _ ≤ |y - x| + |y' - x'| := abs_add_le _ _
      _ ≤ _ := by have := h.1; have := h'.1; linarith
  · exact (abs_add_le _ _).trans (add_le_add h.2 h'.2)

theorem Near.neg {k x y m : ℝ} (h : Near k x y m) : Near k (-x) (-y) m := by
  constructor
  · rw [show -y - -x = -(y - x) by ring, abs_neg]; exact h.1
  · rw [abs_neg]; exact h.2

theorem Near.mul {k x y m k' x' y' m' : ℝ} (h : Near k x y m) (h' : Near k' x' y' m') (hk : 1 ≤ k) :
    Near (k * k') (x * x') (y * y') (m * m') := by
  have hm := h.mag_nonneg
  have hm' := h'.mag_nonneg
  constructor
  · calc |y * y' - x * x'| = |(y - x) * y' + x * (y' - x')| := by congr 1; ring
      _ ≤ |(y - x) * y'| + |x * (y' - x')| := abs_add_le _ _
      _ = |y - x| * |y'| + |x| * |y' - x'| := by rw [abs_mul, abs_mul]
      _ ≤ ((k - 1) * m) * (k' * m') + m * ((k' - 1) * m') :=
          add_le_add (mul_le_mul h.1 h'.abs_le (abs_nonneg _) (mul_nonneg (by linarith) hm))
            (mul_le_mul h.2 h'.1 (abs_nonneg _) hm)
      _ = _ := by ring
  · rw [abs_mul]; exact mul_le_mul h.2 h'.2 (abs_nonneg _) hm

/-! ### Factors -/

theorem Rel.refl {a : ℝ} : Rel 1 a a := ⟨by linarith, by linarith⟩

theorem Rel.mono {k k' a b : ℝ} (h : Rel k a b) (hk : k ≤ k') (ha : 0 ≤ a) (hb : 0 ≤ b) : Rel k' a b :=
  ⟨h.1.trans (mul_le_mul_of_nonneg_right hk hb), h.2.trans (mul_le_mul_of_nonneg_right hk ha)⟩

theorem Rel.trans {k k' a b c : ℝ} (h : Rel k a b) (h' : Rel k' b c) (hk : 0 ≤ k) (hk' : 0 ≤ k') : Rel (k * k') a c := by
  constructor
  · calc a ≤ k * b := h.1
      _ ≤ k * (k' * c) := mul_le_mul_of_nonneg_left h'.1 hk
      _ = _ := by ring
  · calc c ≤ k' * b := h'.2
      _ ≤ k' * (k * a) := mul_le_mul_of_nonneg_left h.2 hk'
      _ = _ := by ring

theorem Rel.mul {k k' a b a' b' : ℝ} (h : Rel k a b) (h' : Rel k' a' b') (ha : 0 ≤ a) (hb : 0 ≤ b) (ha' : 0 ≤ a') (hb' : 0 ≤ b') :
    Rel (k * k') (a * a') (b * b') := by
  constructor
  · calc a * a' ≤ (k * b) * (k' * b') := mul_le_mul h.1 h'.1 ha' (ha.trans h.1)
      _ = _ := by ring
  · calc b * b' ≤ (k * a) * (k' * a') := mul_le_mul h.2 h'.2 hb' (hb.trans h.2)
      _ = _ := by ring

theorem Rel.add {k a b a' b' : ℝ} (h : Rel k a b) (h' : Rel k a' b') : Rel k (a + a') (b + b') :=
  ⟨by have := h.1; have := h'.1; linarith, by have := h.2; have := h'.2; linarith⟩

theorem Rel.inv {k a b : ℝ} (h : Rel k a b) (ha : 0 < a) (hb : 0 < b) : Rel k (1 / a) (1 / b) := by
  constructor
  · rw [mul_one_div, div_le_div_iff₀ ha hb, one_mul]; exact h.2
  · rw [mul_one_div, div_le_div_iff₀ hb ha, one_mul]; exact h.1

theorem Rel.sqrt {k a b : ℝ} (h : Rel (k ^ 2) a b) (hk : 0 ≤ k) : Rel k (Real.sqrt a) (Real.sqrt b) := by
  constructor
  · calc Real.sqrt a ≤ Real.sqrt (k ^ 2 * b) := Real.sqrt_le_sqrt h.1
      _ = k * Real.sqrt b := by rw [Real.sqrt_mul (sq_nonneg k), Real.sqrt_sq hk]
  · calc Real.sqrt b ≤ Real.sqrt (k ^ 2 * a) := Real.sqrt_le_sqrt h.2
      _ = k * Real.sqrt a := by rw [Real.sqrt_mul (sq_nonneg k), Real.sqrt_sq hk]

theorem Rel.rpow {k a b p : ℝ} (h : Rel k a b) (hk : 0 ≤ k) (ha : 0 ≤ a) (hb : 0 ≤ b) (hp : 0 ≤ p) : Rel (k ^ p) (a ^ p) (b ^ p) := by
  constructor
  · rw [← Real.mul_rpow hk hb]; exact Real.rpow_le_rpow ha h.1 hp
  · rw [← Real.mul_rpow hk ha]; exact Real.rpow_le_rpow hb h.2 hp

theorem rnd_nonneg {r x : ℝ} {f : ℝ → ℝ} (hf : Rounds r f) (hr2 : r < 2) (hx : 0 ≤ x) : 0 ≤ f x := by
  have h := (hf x).1
  rw [abs_of_nonneg hx] at h
  have := (_root_.abs_le.1 h).1
  nlinarith

theorem rnd_rel_abs {r x : ℝ} {f : ℝ → ℝ} (hf : Rounds r f) : Rel r |f x| |x| := by
  refine ⟨?_, (hf x).2⟩
  have h := (hf x).1
  have := abs_sub_abs_le_abs_sub (f x) x
  linarith

theorem rnd_rel {r x : ℝ} {f : ℝ → ℝ} (hf : Rounds r f) (hr2 : r < 2) (hx : 0 ≤ x) : Rel r (f x) x := by
  have h := rnd_rel_abs hf (x := x)
  rwa [abs_of_nonneg hx, abs_of_nonneg (rnd_nonneg hf hr2 hx)] at h

theorem Rel.near {k a b : ℝ} (h : Rel k a b) (hk : 1 ≤ k) (hb : 0 ≤ b) : Near k b a b := by
  refine ⟨?_, by rw [abs_of_nonneg hb]⟩
  rw [_root_.abs_le]
  constructor
  · have h2 := h.2
    have : b * (2 - k) ≤ a := by
      by_cases hk2 : k ≤ 2
      · -- `1 / k ≥ 2 - k`
        have hkp : 0 < k := by linarith
        have : b / k ≤ a := by rw [div_le_iff₀ hkp]; linarith
        refine le_trans ?_ this
        rw [le_div_iff₀ hkp]
        nlinarith [mul_nonneg hb (sq_nonneg (k - 1))]
      · have ha : 0 ≤ a := by
          by_contra hc
          have hc := not_le.1 hc
          nlinarith
        have : b * (2 - k) ≤ 0 := mul_nonpos_of_nonneg_of_nonpos hb (by linarith)
        linarith
    linarith
  · linarith [h.1]

theorem Near.div {k k' x y m D D' : ℝ} (h : Near k x y m) (hd : Rel k' D' D) (hk : 1 ≤ k) (hk' : 1 ≤ k') (hD : 0 < D) (hD' : 0 < D') :
    Near (k * k') (x / D) (y / D') (m / D) := by
  have h1 : Near k' (1 / D) (1 / D') (1 / D) := (hd.inv hD' hD).near hk' (by positivity)
  have h2 := h.mul h1 hk
  rw [mul_one_div, mul_one_div, mul_one_div] at h2
  exact h2

/-! ### Sums -/

theorem sum_near {α : Type} (A : Arith) {r : ℝ} (hf : Rounds r A.rnd) (hr : 1 ≤ r) {k : ℝ} (hk : 1 ≤ k) (x y m : α → ℝ)
    (o : Order α) (h : ∀ a ∈ o.items, Near k (x a) (y a) (m a)) :
    Near (k * r ^ o.depth) ((o.items.map x).sum) (o.sum A y) ((o.items.map m).sum) := by
  induction o with
  | one a => simpa [Order.items, Order.depth, Order.sum] using h a (by simp [Order.items])
  | both l s ihl ihr =>
    have hl := ihl fun a ha => h a (by simp [Order.items, ha])
    have hs := ihr fun a ha => h a (by simp [Order.items, ha])
    simp only [Order.items, List.map_append, List.sum_append, Order.depth, Order.sum]
    have e1 : k * r ^ l.depth ≤ k * r ^ max l.depth s.depth :=
      mul_le_mul_of_nonneg_left (pow_le_pow_right₀ hr (le_max_left _ _)) (by linarith)
    have e2 : k * r ^ s.depth ≤ k * r ^ max l.depth s.depth :=
      mul_le_mul_of_nonneg_left (pow_le_pow_right₀ hr (le_max_right _ _)) (by linarith)
    have := ((hl.mono e1).add (hs.mono e2)).rnd hf hr
    rwa [mul_assoc, ← pow_succ] at this

theorem sum_rel {α : Type} (A : Arith) {r : ℝ} (hf : Rounds r A.rnd) (hr : 1 ≤ r) (hr2 : r < 2) {k : ℝ} (hk : 1 ≤ k) (x y : α → ℝ)
    (o : Order α) (hx : ∀ a ∈ o.items, 0 < x a) (hy : ∀ a ∈ o.items, 0 < y a) (h : ∀ a ∈ o.items, Rel k (y a) (x a)) :
    Rel (k * r ^ o.depth) (o.sum A y) ((o.items.map x).sum) ∧ 0 < o.sum A y ∧ 0 < (o.items.map x).sum := by
  induction o with
  | one a =>
    have ha : a ∈ (Order.one a).items := by simp [Order.items]
    simpa [Order.items, Order.depth, Order.sum] using ⟨h a ha, hy a ha, hx a ha⟩
  | both l s ihl ihr =>
    obtain ⟨l1, l2, l3⟩ := ihl (fun a ha => hx a (by simp [Order.items, ha])) (fun a ha => hy a (by simp [Order.items, ha])) fun a ha => h a (by simp [Order.items, ha])
    obtain ⟨s1, s2, s3⟩ := ihr (fun a ha => hx a (by simp [Order.items, ha])) (fun a ha => hy a (by simp [Order.items, ha])) fun a ha => h a (by simp [Order.items, ha])
    simp only [Order.items, List.map_append, List.sum_append, Order.depth, Order.sum]
    have e1 : k * r ^ l.depth ≤ k * r ^ max l.depth s.depth :=
      mul_le_mul_of_nonneg_left (pow_le_pow_right₀ hr (le_max_left _ _)) (by linarith)
    have e2 : k * r ^ s.depth ≤ k * r ^ max l.depth s.depth :=
      mul_le_mul_of_nonneg_left (pow_le_pow_right₀ hr (le_max_right _ _)) (by linarith)
    have hsum := (l1.mono e1 l2.le l3.le).add (s1.mono e2 s2.le s3.le)
    have hp : 0 < l.sum A y + s.sum A y := by linarith
    have hrel := rnd_rel hf hr2 hp.le
    have := hrel.trans hsum (by linarith) (by positivity)
    refine ⟨?_, ?_, by linarith⟩
    · rw [pow_succ, ← mul_assoc, mul_comm _ r]; exact this
    · by_contra hc
      have hc := not_lt.1 hc
      have := hrel.2
      nlinarith

/-! ### Distance and weight -/

/-- The distance on the map. -/
noncomputable def trueDist (g : Cell) (s : Station) : ℝ := Real.sqrt ((g.x - s.x) ^ 2 + (g.y - s.y) ^ 2)

theorem dist_rel (A : Arith) {r : ℝ} (hf : Rounds r A.rnd) (hr : 1 ≤ r) (hr2 : r < 2) (g : Cell) (s : Station) :
    Rel (r ^ 3) (dist A g s) (trueDist g s) ∧ 0 ≤ dist A g s := by
  have hsq : ∀ x : ℝ, Rel (r ^ 3) (A.rnd (A.rnd x * A.rnd x)) (x ^ 2) ∧ 0 ≤ A.rnd (A.rnd x * A.rnd x) := by
    intro x
    have h1 := rnd_rel_abs hf (x := x)
    have h2 := h1.mul h1 (abs_nonneg _) (abs_nonneg _) (abs_nonneg _) (abs_nonneg _)
    rw [abs_mul_abs_self, abs_mul_abs_self] at h2
    have h3 := (rnd_rel hf hr2 (mul_self_nonneg (A.rnd x))).trans h2 (by linarith) (by positivity)
    refine ⟨?_, rnd_nonneg hf hr2 (mul_self_nonneg _)⟩
    rw [show r ^ 3 = r * (r * r) by ring, show x ^ 2 = x * x by ring]
    exact h3
  obtain ⟨x1, x2⟩ := hsq (g.x - s.x)
  obtain ⟨y1, y2⟩ := hsq (g.y - s.y)
  have h4 := (rnd_rel hf hr2 (add_nonneg x2 y2)).trans (x1.add y1) (by linarith) (by positivity)
  have h5 : Rel ((r ^ 2) ^ 2) (A.rnd (A.rnd (A.rnd (g.x - s.x) * A.rnd (g.x - s.x)) + A.rnd (A.rnd (g.y - s.y) * A.rnd (g.y - s.y))))
      ((g.x - s.x) ^ 2 + (g.y - s.y) ^ 2) := by
    rw [show (r ^ 2) ^ 2 = r * r ^ 3 by ring]; exact h4
  have h6 := h5.sqrt (by positivity)
  have h7 := (rnd_rel hf hr2 (Real.sqrt_nonneg _)).trans h6 (by linarith) (by positivity)
  refine ⟨?_, rnd_nonneg hf hr2 (Real.sqrt_nonneg _)⟩
  rw [show r ^ 3 = r * r ^ 2 by ring]
  exact h7

theorem weight_rel (A : Arith) {r q p m : ℝ} (hf : Rounds r A.rnd) (hr : 1 ≤ r) (hr2 : r < 2) (hq : 1 ≤ q) (hp : 0 ≤ p)
    (hpow : ∀ d, 0 < d → Rel q (A.pow d p) (d ^ p) ∧ 0 < A.pow d p) (g : Cell) (s : Station) (hd : 0 < trueDist g s) :
    Rel (q * (r ^ 3) ^ p * r) (weight A p m g s) (1 / trueDist g s ^ p) ∧ 0 < weight A p m g s := by
  obtain ⟨h1, h2⟩ := dist_rel A hf hr hr2 g s
  have hpos : 0 < dist A g s := by
    rcases h2.lt_or_eq with h | h
    · exact h
    · have := h1.2; rw [← h] at this; linarith
  have hdist : distance A m g s = dist A g s := if_neg hpos.ne'
  unfold weight
  rw [hdist]
  obtain ⟨p1, p2⟩ := hpow _ hpos
  have h3 := p1.trans (h1.rpow (by positivity) hpos.le hd.le hp) (by linarith) (by positivity)
  have hdp : 0 < trueDist g s ^ p := Real.rpow_pos_of_pos hd p
  have h4 := h3.inv p2 hdp
  have hi : 0 < 1 / A.pow (dist A g s) p := by positivity
  have h5 := rnd_rel hf hr2 hi.le
  have h6 := h5.trans h4 (by linarith) (by positivity)
  refine ⟨?_, ?_⟩
  · rw [mul_comm _ r]; exact h6
  · by_contra hc
    have hc := not_lt.1 hc
    have := h5.2
    nlinarith

end Verif.IdwFloat
