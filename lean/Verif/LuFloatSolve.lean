import Verif.LuFloatLemmas

/-! Helper lemmas for `LuFloatProps`: the substitutions, and the size of the factors. -/

namespace Verif.LuFloat

open Finset
open Verif.Lu (set put span rowBig swapRows State Search Forward Junk L U sig)

variable {ρ : ℝ} {rnd : ℝ → ℝ}

/-! ### Substitution -/

/-- `x` is a row of a triangular system with factors near one. -/
def Row (P x d : ℝ) (S : Finset Nat) (g : Nat → ℝ) : Prop :=
  ∃ (E : ℝ) (c : Nat → ℝ), Close P E ∧ (∀ k, Close P (c k)) ∧ x = E * d + ∑ k ∈ S, c k * g k

theorem Row.congr {P x d : ℝ} {S : Finset Nat} {f g : Nat → ℝ} (h : Row P x d S f) (hfg : ∀ k ∈ S, f k = g k) : Row P x d S g := by
  obtain ⟨E, c, hE, hc, e⟩ := h
  exact ⟨E, c, hE, hc, by rw [e]; congr 1; exact sum_congr rfl fun k hk => by rw [hfg k hk]⟩

theorem Row.of_red (h : Good ρ rnd) {m n : Nat} {x s : ℝ} {S : Finset Nat} {f : Nat → ℝ} (hr : Red ρ m x s S f) (hm : m + 1 ≤ n) :
    Row (ρ ^ n) x s S f := by
  obtain ⟨E, c, hE, hc, e⟩ := hr.eq
  exact ⟨E, c, hE.mono (pow_le_pow_right₀ h.one (by omega)), fun k => (hc k).mono (pow_le_pow_right₀ h.one hm), e⟩

theorem Row.extend {P x d : ℝ} {S T : Finset Nat} {f : Nat → ℝ} (h : Row P x d S f) (hST : S ⊆ T)
    (h0 : ∀ k ∈ T, k ∉ S → f k = 0) : Row P x d T f := by
  obtain ⟨E, c, hE, hc, e⟩ := h
  refine ⟨E, c, hE, hc, ?_⟩
  rw [e]; congr 1
  exact sum_subset hST fun k hk hk' => by rw [h0 k hk hk', mul_zero]

/-- The forward substitution when no right-hand side is negative. -/
theorem forward_spec (hg : Good ρ rnd) (n : Nat) (a : Nat → Nat → ℝ) (indx : Nat → Nat) (h : ∀ i < n, i ≤ indx i ∧ indx i < n)
    (hb : ∀ r < n, 0 ≤ a r n) :
    let f := (List.range n).foldl (forwardRow rnd n indx) ⟨a, none⟩
    (∀ r c, c ≠ n → f.a r c = a r c) ∧
    ∀ i < n, Row (ρ ^ n) (a (sig indx n i) n) (f.a i n) (range i) (fun k => a i k * f.a k n) := by
  suffices key : ∀ m ≤ n, ∀ f, f = (List.range m).foldl (forwardRow rnd n indx) ⟨a, none⟩ →
      (∀ r c, c ≠ n → f.a r c = a r c) ∧
      (∀ r, m ≤ r → r < n → f.a r n = a (sig indx m r) n) ∧
      (∀ i < m, Row (ρ ^ n) (a (sig indx (i + 1) i) n) (f.a i n) (range i) (fun k => a i k * f.a k n)) ∧
      (match f.ii with
        | none => ∀ i < m, f.a i n = 0
        | some ii => ii < m ∧ ∀ i < ii, f.a i n = 0) ∧ (∀ r, m ≤ r → r < n → sig indx m r < n) by
    obtain ⟨h1, -, h3, -⟩ := key n (le_refl _) _ rfl
    exact ⟨h1, fun i hi => by
      rw [Lu.sig_low indx n (fun i hi => (h i hi).1) i n hi (le_refl _)]; exact h3 i hi⟩
  intro m
  induction m with
  | zero => rintro - f rfl; simp [sig]
  | succ m ih =>
    rintro hm f rfl
    rw [List.range_succ, List.foldl_append]
    simp only [List.foldl]
    obtain ⟨h1, h2, h3, h4, h5⟩ := ih (by omega) _ rfl
    generalize (List.range m).foldl (forwardRow rnd n indx) ⟨a, none⟩ = f at h1 h2 h3 h4
    obtain ⟨p1, p2⟩ := h m (by omega)
    have hsig : ∀ r, sig indx (m + 1) r = sig indx m (Equiv.swap m (indx m) r) := fun r => by
      rw [sig, Equiv.Perm.mul_apply]
    have hfin : ∃ v, (forwardRow rnd n indx f m).a = set (set f.a (indx m) n (f.a m n)) m n v ∧
        Row (ρ ^ n) (f.a (indx m) n) v (range m) (fun k => a m k * f.a k n) ∧ (f.ii = none → v = f.a (indx m) n) := by
      unfold forwardRow
      simp only
      cases hii : f.ii with
      | none =>
        rw [hii] at h4
        refine ⟨_, rfl, ?_, fun _ => rfl⟩
        refine ⟨1, fun _ => 1, Close.one (one_le_pow₀ hg.one), fun _ => Close.one (one_le_pow₀ hg.one), ?_⟩
        rw [sum_eq_zero (fun k hk => ?_)]
        · ring
        · rw [mem_range] at hk
          show (1 : ℝ) * (a m k * f.a k n) = 0
          rw [h4 k hk]; ring
      | some ii =>
        rw [hii] at h4
        obtain ⟨q1, q2⟩ := h4
        refine ⟨_, rfl, ?_, fun h => by cases h⟩
        have := red_span hg (fun j => set f.a (indx m) n (f.a m n) m j * set f.a (indx m) n (f.a m n) j n) ii m (f.a (indx m) n)
        refine (Row.of_red hg this (by omega)).congr (g := fun k => a m k * f.a k n) (fun k hk => ?_) |>.extend ?_ ?_
        · rw [mem_Ico] at hk
          rw [Lu.set_other _ _ _ _ _ _ (Or.inr (by omega)), Lu.set_other _ _ _ _ _ _ (Or.inl (by omega)), h1 m k (by omega)]
        · intro k; simp only [mem_range, mem_Ico]; omega
        · intro k hk hk'
          simp only [mem_range, mem_Ico] at hk hk'
          rw [q2 k (by omega), mul_zero]
    obtain ⟨v, ha, hv, hvn⟩ := hfin
    have hsum : f.a (indx m) n = a (sig indx (m + 1) m) n := by
      rw [h2 _ p1 p2, hsig, Equiv.swap_apply_left]
    have hlow : ∀ k < m, (forwardRow rnd n indx f m).a k n = f.a k n := fun k hk => by
      rw [ha, Lu.set_other _ _ _ _ _ _ (by omega), Lu.set_other _ _ _ _ _ _ (by omega)]
    have hmv : (forwardRow rnd n indx f m).a m n = v := by rw [ha, Lu.set_same]
    have hbound : ∀ r, m ≤ r → r < n → sig indx (m + 1) r < n := fun r hr hr' => by
      rw [hsig]; exact h5 _ (Lu.swap_high p1 hr) (Lu.swap_lt (by omega) p2 hr')
    refine ⟨fun r c hc => ?_, fun r hr hr' => ?_, fun i hi => ?_, ?_, fun r hr hr' => hbound r (by omega) hr'⟩
    · rw [ha, Lu.set_other _ _ _ _ _ _ (Or.inr hc), Lu.set_other _ _ _ _ _ _ (Or.inr hc), h1 r c hc]
    · rw [ha, Lu.set_other _ _ _ _ _ _ (Or.inl (by omega)), hsig]
      by_cases e : r = indx m
      · subst e
        rw [Lu.set_same, Equiv.swap_apply_right, h2 m (le_refl _) (by omega)]
      · rw [Lu.set_other _ _ _ _ _ _ (Or.inl e), Equiv.swap_apply_of_ne_of_ne (by omega) e, h2 r (by omega) hr']
    · by_cases e : i = m
      · subst e
        rw [hmv, ← hsum]
        refine hv.congr fun k hk => ?_
        rw [mem_range] at hk
        rw [hlow k hk]
      · rw [hlow i (by omega)]
        refine (h3 i (by omega)).congr fun k hk => ?_
        rw [mem_range] at hk
        rw [hlow k (by omega)]
    · cases hii : f.ii with
      | some ii =>
        rw [hii] at h4
        have : (forwardRow rnd n indx f m).ii = some ii := by unfold forwardRow; simp only [hii]
        rw [this]
        exact ⟨by omega, fun i hi => by rw [hlow i (by omega)]; exact h4.2 i hi⟩
      | none =>
        rw [hii] at h4
        have : (forwardRow rnd n indx f m).ii = if 0 < f.a (indx m) n then some m else none := by
          unfold forwardRow; simp only [hii]
        rw [this]
        have hv' := hvn hii
        by_cases hp : 0 < f.a (indx m) n
        · rw [if_pos hp]
          exact ⟨by omega, fun i hi => by rw [hlow i hi]; exact h4 i hi⟩
        · rw [if_neg hp]
          intro i hi
          by_cases e : i = m
          · rw [e, hmv, hv']
            apply le_antisymm (not_lt.1 hp)
            rw [hsum]
            exact hb _ (hbound m (le_refl _) (by omega))
          · rw [hlow i (by omega)]; exact h4 i (by omega)

theorem back_spec (hg : Good ρ rnd) (n : Nat) (a : Nat → Nat → ℝ) (hp : ∀ i < n, a i i ≠ 0) :
    let x := (List.range n).reverse.foldl (backRow rnd n) a
    (∀ r c, c ≠ n → x r c = a r c) ∧
    ∀ i < n, Row (ρ ^ n) (a i n) (a i i * x i n) (Ico (i + 1) n) (fun k => a i k * x k n) := by
  suffices key : ∀ m ≤ n, ∀ b : Nat → Nat → ℝ, (∀ r c, c ≠ n → b r c = a r c) → (∀ i < m, b i n = a i n) →
      (∀ i, m ≤ i → i < n → Row (ρ ^ n) (a i n) (a i i * b i n) (Ico (i + 1) n) (fun k => a i k * b k n)) →
      let x := (List.range m).reverse.foldl (backRow rnd n) b
      (∀ r c, c ≠ n → x r c = a r c) ∧
      ∀ i < n, Row (ρ ^ n) (a i n) (a i i * x i n) (Ico (i + 1) n) (fun k => a i k * x k n) by
    exact key n (le_refl _) a (fun _ _ _ => rfl) (fun _ _ => rfl) (fun i h1 h2 => by omega)
  intro m
  induction m with
  | zero => intro _ b h1 _ h3; exact ⟨h1, fun i hi => h3 i (by omega) hi⟩
  | succ m ih =>
    intro hm b h1 h2 h3
    rw [List.range_succ, List.reverse_append]
    simp only [List.reverse_singleton, List.singleton_append, List.foldl_cons]
    have hval : Row (ρ ^ n) (a m n) (a m m * backRow rnd n b m m n) (Ico (m + 1) n) (fun k => a m k * b k n) := by
      unfold backRow
      rw [Lu.set_same]
      unfold reduced
      obtain ⟨E, c, hE, hc, e⟩ := (red_span hg (fun k => b m k * b k n) (m + 1) n (b m n)).eq
      generalize (span (m + 1) n).foldl (fun sum k => rnd (sum - rnd (b m k * b k n))) (b m n) = s at e
      obtain ⟨w, hw, ew⟩ := hg.bwd (s / b m m)
      rw [h1 m m (by omega)] at ew ⊢
      refine ⟨E * w, c, ?_, fun k => (hc k).mono (pow_le_pow_right₀ hg.one (by omega)), ?_⟩
      · have := hE.mul hw
        rw [← pow_succ] at this
        exact this.mono (pow_le_pow_right₀ hg.one (by omega))
      · have hpm := hp m (by omega)
        have es : s = a m m * (w * rnd (s / a m m)) := by rw [← ew]; field_simp
        rw [← h2 m (by omega), e]
        have hs : ∑ k ∈ Ico (m + 1) n, c k * (b m k * b k n) = ∑ k ∈ Ico (m + 1) n, c k * (a m k * b k n) := by
          apply sum_congr rfl
          intro k hk
          rw [mem_Ico] at hk
          rw [h1 m k (by omega)]
        rw [hs]
        congr 1
        calc E * s = E * (a m m * (w * rnd (s / a m m))) := by rw [← es]
          _ = _ := by ring
    have hoth : ∀ i, i ≠ m → backRow rnd n b m i n = b i n := fun i hi => by
      unfold backRow; rw [Lu.set_other _ _ _ _ _ _ (Or.inl hi)]
    apply ih (by omega)
    · intro r c hc
      unfold backRow; rw [Lu.set_other _ _ _ _ _ _ (Or.inr hc), h1 r c hc]
    · intro i hi
      rw [hoth i (by omega)]; exact h2 i (by omega)
    · intro i hi hi'
      by_cases e : i = m
      · subst e
        refine hval.congr fun k hk => ?_
        rw [mem_Ico] at hk
        rw [hoth k (by omega)]
      · rw [hoth i e]
        refine (h3 i (by omega) hi').congr fun k hk => ?_
        rw [mem_Ico] at hk
        rw [hoth k (by omega)]

/-! ### Size of the factors -/

theorem grow {ρ : ℝ} (h1 : 1 ≤ ρ) (n m : Nat) (g : Nat → ℝ)
    (hg : ∀ k < m, g k ≤ ρ ^ (n + 1) * (ρ + ∑ i ∈ range k, ρ ^ 4 * g i)) (k : Nat) (hk : k ≤ m) :
    1 + ∑ i ∈ range k, g i ≤ (1 + ρ ^ (n + 5)) ^ k := by
  induction k with
  | zero => simp
  | succ k ih =>
    have h := ih (by omega)
    have h2 := hg k (by omega)
    have hp : ρ ≤ ρ ^ 4 := by
      calc ρ = ρ ^ 1 := (pow_one ρ).symm
        _ ≤ _ := pow_le_pow_right₀ h1 (by omega)
    have hq : 0 ≤ ρ ^ (n + 1) := pow_nonneg (by linarith) _
    rw [← mul_sum] at h2
    have h3 : g k ≤ ρ ^ (n + 5) * (1 + ∑ i ∈ range k, g i) := by
      refine h2.trans ?_
      calc ρ ^ (n + 1) * (ρ + ρ ^ 4 * ∑ i ∈ range k, g i) ≤ ρ ^ (n + 1) * (ρ ^ 4 + ρ ^ 4 * ∑ i ∈ range k, g i) :=
            mul_le_mul_of_nonneg_left (by linarith) hq
        _ = _ := by ring
    have h4 : (1 + ∑ i ∈ range k, g i) * (1 + ρ ^ (n + 5)) ≤ (1 + ρ ^ (n + 5)) ^ k * (1 + ρ ^ (n + 5)) :=
      mul_le_mul_of_nonneg_right h (by have : 0 ≤ ρ ^ (n + 5) := pow_nonneg (by linarith) _
                                       linarith)
    rw [sum_range_succ, pow_succ]
    linarith

/-- A row of the product of the factors, in absolute values. `D` is the scaling, `p` the order of the rows. -/
theorem product_le {ρ : ℝ} (h1 : 1 ≤ ρ) (n m : Nat) (l u : Nat → ℝ) (d : Nat → ℝ) (r : Nat) (hm : m ≤ n)
    (hd : ∀ k < m, 0 < d k) (hr : 0 < d r) (hl : ∀ k < m, d r * |l k| ≤ ρ ^ 4 * d k)
    (hu : ∀ k < m, d k * |u k| ≤ ρ ^ (n + 1) * (ρ + ∑ i ∈ range k, ρ ^ 4 * (d i * |u i|))) :
    d r * ∑ k ∈ range m, |l k| * |u k| ≤ ρ ^ 4 * (1 + ρ ^ (n + 5)) ^ n := by
  have h0 : 0 ≤ ρ := by linarith
  have hg := grow h1 n m (fun k => d k * |u k|) hu m (le_refl _)
  have hq : 0 ≤ ρ ^ (n + 5) := pow_nonneg h0 _
  calc d r * ∑ k ∈ range m, |l k| * |u k| = ∑ k ∈ range m, (d r * |l k|) * |u k| := by
        rw [mul_sum]; exact sum_congr rfl fun k _ => by ring
    _ ≤ ∑ k ∈ range m, ρ ^ 4 * (d k * |u k|) := by
        apply sum_le_sum
        intro k hk
        rw [mem_range] at hk
        calc (d r * |l k|) * |u k| ≤ (ρ ^ 4 * d k) * |u k| := mul_le_mul_of_nonneg_right (hl k hk) (abs_nonneg _)
          _ = _ := by ring
    _ = ρ ^ 4 * ∑ k ∈ range m, d k * |u k| := by rw [mul_sum]
    _ ≤ ρ ^ 4 * (1 + ρ ^ (n + 5)) ^ m := mul_le_mul_of_nonneg_left (by linarith) (by positivity)
    _ ≤ _ := mul_le_mul_of_nonneg_left (pow_le_pow_right₀ (by linarith) hm) (by positivity)

theorem Inv.product (h1 : 1 ≤ ρ) {n j : Nat} {A : Nat → Nat → ℝ} {D : Nat → ℝ} {s : State ℝ} (hD : ∀ r < n, 0 < D r)
    (I : Inv ρ n A D j s) (hj : j ≤ n) (r : Nat) (hr : r < n) (c : Nat) (hc : c < j) :
    D (sig s.indx j r) * ∑ k ∈ range n, |L s.a r k| * |U s.a k c| ≤ ρ ^ 4 * (1 + ρ ^ (n + 5)) ^ n := by
  have hsr : ∀ r < n, sig s.indx j r < n := fun r hr => Lu.sig_lt s.indx n j hj (fun i hi => (I.swaps i hi).2) r hr
  have hcut : ∑ k ∈ range n, |L s.a r k| * |U s.a k c| = ∑ k ∈ range (c + 1), |L s.a r k| * |U s.a k c| := by
    symm
    apply sum_subset
    · intro k; simp only [mem_range]; omega
    · intro k _ hk
      simp only [mem_range] at hk
      unfold U; rw [if_neg (by omega), abs_zero, mul_zero]
  rw [hcut]
  apply product_le h1 n (c + 1) (L s.a r) (fun k => U s.a k c) (fun k => D (sig s.indx j k)) r (by omega)
  · intro k hk; exact hD _ (hsr k (by omega))
  · exact hD _ (hsr r hr)
  · intro k hk
    have hd := hD _ (hsr k (by omega))
    have hd' := hD _ (hsr r hr)
    have hp : (1 : ℝ) ≤ ρ ^ 4 := one_le_pow₀ h1
    beta_reduce
    unfold L
    rcases Nat.lt_trichotomy k r with h | h | h
    · rw [if_pos h]; exact I.lower r hr k (by omega) h
    · subst h
      rw [if_neg (lt_irrefl _), if_pos rfl, abs_one, mul_one]
      nlinarith
    · rw [if_neg (by omega), if_neg (by omega), abs_zero, mul_zero]
      positivity
  · intro k hk
    have := I.up c hc k (by omega)
    have e : ∀ i ≤ k, U s.a i c = s.a i c := fun i hi => by unfold U; rw [if_pos (by omega)]
    beta_reduce
    rw [e k (le_refl _)]
    refine this.trans (le_of_eq ?_)
    congr 2
    exact sum_congr rfl fun i hi => by rw [mem_range] at hi; rw [e i (by omega)]

/-- The bound relative to the largest entry of a row. -/
noncomputable def size (ρ : ℝ) (n : Nat) : ℝ := ρ ^ 5 * (1 + ρ ^ (n + 5)) ^ n

theorem size_nonneg {ρ : ℝ} (h1 : 1 ≤ ρ) (n : Nat) : 0 ≤ size ρ n := by
  unfold size
  have : 0 ≤ ρ := by linarith
  positivity

theorem scaleOf_spec (h : Good ρ rnd) (hlt : ρ < 2) {n : Nat} {A : Nat → Nat → ℝ} {r : Nat} (hb : rowBig n A r ≠ 0) :
    0 < scaleOf rnd n A r ∧ (∀ c < n, scaleOf rnd n A r * |A r c| ≤ ρ) ∧ 1 ≤ ρ * (scaleOf rnd n A r * rowBig n A r) := by
  obtain ⟨b0, b1⟩ := Lu.rowBig_pos n A r
  have hp : 0 < rowBig n A r := lt_of_le_of_ne b0 (Ne.symm hb)
  have hd : 0 < scaleOf rnd n A r := h.pos hlt (one_div_pos.2 hp)
  have h1 := h.abs_le (1 / rowBig n A r)
  have h2 := h.le_abs (1 / rowBig n A r)
  change |scaleOf rnd n A r| ≤ _ at h1
  change _ ≤ ρ * |scaleOf rnd n A r| at h2
  rw [abs_of_pos hd, abs_of_pos (one_div_pos.2 hp)] at h1 h2
  have h0 : 0 ≤ ρ := by linarith [h.one]
  refine ⟨hd, fun c hc => ?_, ?_⟩
  · calc scaleOf rnd n A r * |A r c| ≤ (ρ * (1 / rowBig n A r)) * rowBig n A r :=
        mul_le_mul h1 (b1 c hc) (abs_nonneg _) (by positivity)
      _ = ρ := by field_simp
  · calc (1 : ℝ) = 1 / rowBig n A r * rowBig n A r := by field_simp
      _ ≤ (ρ * scaleOf rnd n A r) * rowBig n A r := mul_le_mul_of_nonneg_right h2 hp.le
      _ = _ := by ring

/-- Sums of products with factors near one against the products themselves. -/
theorem sum_close {p q : ℝ} (n : Nat) (l u : Nat → ℝ) (f g : Nat → ℝ) (h : ∀ k < n, |f k - g k| ≤ p - q) :
    |∑ k ∈ range n, (f k * l k) * u k - ∑ k ∈ range n, (g k * l k) * u k| ≤ (p - q) * ∑ k ∈ range n, |l k| * |u k| := by
  rw [← sum_sub_distrib, mul_sum]
  refine (abs_sum_le_sum_abs _ _).trans (sum_le_sum fun k hk => ?_)
  rw [mem_range] at hk
  calc |f k * l k * u k - g k * l k * u k| = |f k - g k| * (|l k| * |u k|) := by
        rw [← abs_mul, ← abs_mul]; congr 1; ring
    _ ≤ _ := mul_le_mul_of_nonneg_right (h k hk) (mul_nonneg (abs_nonneg _) (abs_nonneg _))

theorem ludcmp_loop (h : Good ρ rnd) (hlt : ρ < 2) (n : Nat) (A : Nat → Nat → ℝ) (D : Nat → ℝ)
    (hD : ∀ r < n, 0 < D r ∧ ∀ c < n, D r * |A r c| ≤ ρ) (s : State ℝ) (I : Inv ρ n A D 0 s) (m : Nat) (hm : m ≤ n) :
    match (List.range m).foldlM (column rnd n) s with
    | some s' => Inv ρ n A D m s'
    | none => ∃ j < m, ∃ s', Inv ρ n A D j s' ∧ column rnd n s' j = none := by
  induction m with
  | zero => exact I
  | succ m ih =>
    have hh := ih (by omega)
    rw [List.range_succ, List.foldlM_append]
    cases e : (List.range m).foldlM (column rnd n) s with
    | none =>
      rw [e] at hh
      obtain ⟨j, hj, hh⟩ := hh
      exact ⟨j, by omega, hh⟩
    | some s' =>
      rw [e] at hh
      simp only [List.foldlM_cons, List.foldlM_nil, Option.bind_eq_bind, Option.bind_some]
      cases e' : column rnd n s' m with
      | none => exact ⟨m, by omega, s', hh, e'⟩
      | some s'' => exact column_ok h hlt hD hh (by omega) e'

theorem Inv.zero {n : Nat} {A : Nat → Nat → ℝ} {D vv : Nat → ℝ} {indx : Nat → Nat} {imax : Nat}
    (h : ∀ r < n, vv r = D r ∧ 0 < D r) : Inv ρ n A D 0 ⟨A, vv, indx, imax⟩ :=
  ⟨fun r hr => by show 0 < vv r; rw [(h r hr).1]; exact (h r hr).2, fun i hi => by omega, fun _ _ _ _ _ => rfl, fun _ _ _ => rfl,
    fun _ _ c hc => by omega, fun k hk => by omega, fun r _ hr => (h r hr).1, fun _ _ k hk => by omega, fun c hc => by omega⟩

/-- From a bound with the scaling to one with the largest entry. -/
theorem unscale {n : Nat} {D b S : ℝ} (h0 : 0 ≤ ρ) (hS : 0 ≤ S) (hb : 0 ≤ b) (h1 : 1 ≤ ρ * (D * b))
    (h2 : D * S ≤ ρ ^ 4 * (1 + ρ ^ (n + 5)) ^ n) : S ≤ size ρ n * b := by
  calc S = 1 * S := (one_mul S).symm
    _ ≤ (ρ * (D * b)) * S := mul_le_mul_of_nonneg_right h1 hS
    _ = (ρ * b) * (D * S) := by ring
    _ ≤ (ρ * b) * (ρ ^ 4 * (1 + ρ ^ (n + 5)) ^ n) := mul_le_mul_of_nonneg_left h2 (by positivity)
    _ = _ := by unfold size; ring

/-- With the computed factors, the substitutions solve a system near the given one. -/
theorem lubksb_near (h : Good ρ rnd) {n : Nat} {A : Nat → Nat → ℝ} {D : Nat → ℝ} {s : State ℝ} (I : Inv ρ n A D n s)
    (hb : ∀ r < n, 0 ≤ A r n) (r : Nat) (hr : r < n) :
    ∃ e : Nat → ℝ, (∀ c < n, |e c| ≤ (ρ ^ (3 * n + 1) - 1) * ∑ k ∈ range n, |L s.a r k| * |U s.a k c|) ∧
      ∑ c ∈ range n, (A (sig s.indx n r) c + e c) * lubksb rnd n s.a s.indx c n = A (sig s.indx n r) n := by
  have hb' : ∀ r < n, 0 ≤ s.a r n := fun r hr => by rw [I.rhs r n (le_refl _)]; exact hb r hr
  obtain ⟨f1, f2⟩ := forward_spec h n s.a s.indx I.swaps hb'
  unfold lubksb
  generalize (List.range n).foldl (forwardRow rnd n s.indx) ⟨s.a, none⟩ = f at f1 f2
  obtain ⟨x1, x2⟩ := back_spec h n f.a (fun i hi => by rw [f1 i i (by omega)]; exact I.piv i hi)
  generalize (List.range n).reverse.foldl (backRow rnd n) f.a = x at x1 x2
  have hP : (1 : ℝ) ≤ ρ ^ n := one_le_pow₀ h.one
  have hU : ∀ k < n, ∃ ψ : Nat → ℝ, (∀ c, Close (ρ ^ n) (ψ c)) ∧ f.a k n = ∑ c ∈ range n, (ψ c * U s.a k c) * x c n := by
    intro k hk
    obtain ⟨E, c, hE, hc, e⟩ := x2 k hk
    refine ⟨fun i => if i = k then E else c i, fun i => ?_, ?_⟩
    · beta_reduce; split
      · exact hE
      · exact hc i
    · have := Lu.sum_U n s.a (fun i => (if i = k then E else c i) * x i n) k hk
      rw [if_pos rfl] at this
      have e2 : ∑ i ∈ range n, (if i = k then E else c i) * U s.a k i * x i n =
          ∑ i ∈ range n, U s.a k i * ((if i = k then E else c i) * x i n) := sum_congr rfl fun i _ => by ring
      rw [e2, this, e, f1 k k (by omega)]
      congr 1
      · ring
      · apply sum_congr rfl
        intro i hi
        rw [mem_Ico] at hi
        beta_reduce
        rw [if_neg (by omega), f1 k i (by omega)]; ring
  choose! ψ hψ eψ using hU
  obtain ⟨φ, hφ, eφ⟩ : ∃ φ : Nat → ℝ, (∀ c, Close (ρ ^ n) (φ c)) ∧
      s.a (sig s.indx n r) n = ∑ k ∈ range n, (φ k * L s.a r k) * f.a k n := by
    obtain ⟨E, c, hE, hc, e⟩ := f2 r hr
    refine ⟨fun i => if i = r then E else c i, fun i => ?_, ?_⟩
    · beta_reduce; split
      · exact hE
      · exact hc i
    · have := Lu.sum_L n s.a (fun i => (if i = r then E else c i) * f.a i n) r hr
      rw [if_pos rfl] at this
      have e2 : ∑ i ∈ range n, (if i = r then E else c i) * L s.a r i * f.a i n =
          ∑ i ∈ range n, L s.a r i * ((if i = r then E else c i) * f.a i n) := sum_congr rfl fun i _ => by ring
      rw [e2, this, e, add_comm]
      congr 1
      apply sum_congr rfl
      intro i hi
      rw [mem_range] at hi
      rw [if_neg (by omega)]; ring
  choose! θ hθ eθ using I.done r hr
  rw [I.rhs _ n (le_refl _)] at eφ
  refine ⟨fun c => ∑ k ∈ range n, ((φ k * ψ k c) * L s.a r k) * U s.a k c - A (sig s.indx n r) c, fun c hc => ?_, ?_⟩
  · beta_reduce
    rw [eθ c hc]
    refine sum_close n _ _ _ _ fun k hk => ?_
    refine (((hφ k).mul (hψ k hk c)).sub (hθ c hc k)).trans ?_
    have hq : (1 : ℝ) ≤ ρ ^ (n + 1) := one_le_pow₀ h.one
    have hp2 : 1 ≤ ρ ^ n * ρ ^ n := one_le_mul_of_one_le_of_one_le hP hP
    have e : ρ ^ (3 * n + 1) = (ρ ^ n * ρ ^ n) * ρ ^ (n + 1) := by rw [← pow_add, ← pow_add]; congr 1; ring
    rw [e]
    nlinarith
  · calc _ = ∑ c ∈ range n, ∑ k ∈ range n, (φ k * L s.a r k) * ((ψ k c * U s.a k c) * x c n) := by
          apply sum_congr rfl
          intro c _
          rw [add_sub_cancel, sum_mul]
          exact sum_congr rfl fun k _ => by ring
      _ = ∑ k ∈ range n, (φ k * L s.a r k) * f.a k n := by
          rw [sum_comm]
          apply sum_congr rfl
          intro k hk
          rw [mem_range] at hk
          rw [← mul_sum, ← eψ k hk]
      _ = _ := eφ.symm

/-- A column without a pivot: a matrix near the given one is singular. -/
theorem column_none (h : Good ρ rnd) (hlt : ρ < 2) {n j : Nat} {A : Nat → Nat → ℝ} {D : Nat → ℝ} {s : State ℝ}
    (hD : ∀ r < n, 0 < D r ∧ ∀ c < n, D r * |A r c| ≤ ρ) (I : Inv ρ n A D j s) (hj : j < n)
    (hc : column rnd n s j = none) :
    ∃ E : Nat → Nat → ℝ, (∀ r < n, ∀ c < n, ∃ S, 0 ≤ S ∧ |E r c| ≤ (ρ ^ (n + 1) - 1) * S ∧
      D r * S ≤ ρ ^ 4 * (1 + ρ ^ (n + 5)) ^ n) ∧ Lu.Singular n (fun r c => A r c + E r c) := by
  obtain ⟨hcol, hj', hmag, hbig, f4, f5⟩ := column_mid h hlt I hj
  unfold column at hc
  simp only at hc
  generalize search rnd n j s.vv (upper rnd j s.a) s.imax = f at *
  have hpj : f.a f.imax j = 0 := by
    have hsw : (if j = f.imax then f.a else swapRows n j f.imax f.a) j j = f.a f.imax j := by
      by_cases e : j = f.imax
      · rw [if_pos e, ← e]
      · rw [if_neg e, Lu.swapRows_spec, if_pos hj, Equiv.swap_apply_left]
    generalize (if j = f.imax then f.a else swapRows n j f.imax f.a) = a at hc hsw
    split at hc
    · rename_i e; rw [← hsw, e]
    · split at hc <;> cases hc
  have hzero : ∀ r, j ≤ r → r < n → f.a r j = 0 := by
    intro r h1 h2
    have := hbig r h1 h2
    rw [hpj, abs_zero, mul_zero, (h.zero_iff 0).2 rfl] at this
    by_contra hne
    exact absurd this (not_le.2 (h.pos hlt (mul_pos (I.pos r h2) (abs_pos.2 hne))))
  obtain ⟨b1, b2⟩ := Lu.back_spec j (fun r c => if c = j then -f.a r j else f.a r c)
  generalize (List.range j).reverse.foldl (Lu.backRow j) (fun r c => if c = j then -f.a r j else f.a r c) = x at b1 b2
  simp only [if_true] at b2
  have hsolve : ∀ k < j, ∑ c ∈ range j, U f.a k c * x c j = -f.a k j := by
    intro k hk
    have hpk : f.a k k ≠ 0 := by rw [hcol k k (by omega)]; exact I.piv k hk
    have := b2 k hk
    rw [if_neg (by omega), eq_div_iff hpk] at this
    rw [Lu.sum_U j f.a (fun c => x c j) k hk]
    have e : ∑ c ∈ Ico (k + 1) j, (if c = j then -f.a k j else f.a k c) * x c j =
        ∑ c ∈ Ico (k + 1) j, f.a k c * x c j := by
      apply sum_congr rfl
      intro c hc
      rw [mem_Ico] at hc
      rw [if_neg (by omega)]
    rw [e] at this
    linarith
  have hsr : ∀ r < n, sig s.indx j r < n := fun r hr => Lu.sig_lt s.indx n j hj.le (fun i hi => (I.swaps i hi).2) r hr
  -- the singular matrix, by rows in the order of the factors
  let B : Nat → Nat → ℝ := fun r c => if c < j then ∑ k ∈ range n, L s.a r k * U s.a k c
    else if c = j then ∑ k ∈ range j, L f.a r k * f.a k j else A (sig s.indx j r) c
  refine ⟨fun r c => B ((sig s.indx j).symm r) c - A r c, fun r hr c hc => ?_, ?_⟩
  · obtain ⟨r', hr', rfl⟩ := Lu.sig_onto s.indx n j hj.le (fun i hi => (I.swaps i hi).2) r hr
    beta_reduce
    rw [Equiv.symm_apply_apply]
    have hq : (0 : ℝ) ≤ ρ ^ (n + 1) - 1 := sub_nonneg.2 (one_le_pow₀ h.one)
    by_cases h1 : c < j
    · refine ⟨_, sum_nonneg fun k _ => mul_nonneg (abs_nonneg _) (abs_nonneg _), ?_,
        I.product h.one (fun r hr => (hD r hr).1) hj.le r' hr' c h1⟩
      obtain ⟨θ, hθ, eθ⟩ := I.done r' hr' c h1
      simp only [B]
      rw [if_pos h1, eθ]
      have := sum_close (p := ρ ^ (n + 1)) (q := 1) n (L s.a r') (fun k => U s.a k c) (fun _ => 1) θ
        (fun k _ => by rw [abs_sub_comm]; exact hθ k)
      simpa only [one_mul] using this
    · by_cases h2 : c = j
      · subst h2
        refine ⟨∑ k ∈ range c, |L f.a r' k| * |f.a k c|, sum_nonneg fun k _ => mul_nonneg (abs_nonneg _) (abs_nonneg _), ?_, ?_⟩
        · obtain ⟨E, t, hE, ht, et⟩ := hj' r' hr'
          have hl : (if c ≤ r' then E * f.a r' c else 0) = 0 := by
            split
            · rename_i hle; rw [hzero r' hle hr', mul_zero]
            · rfl
          rw [hl, add_zero, I.rest r' hr' c (le_refl _) hj] at et
          simp only [B]
          rw [if_neg (lt_irrefl _), if_pos trivial, et]
          have := sum_close (p := ρ ^ (n + 1)) (q := 1) c (L f.a r') (fun k => f.a k c) (fun _ => 1) t
            (fun k _ => by
              rw [abs_sub_comm]
              exact (ht k).mono (pow_le_pow_right₀ h.one (by omega)))
          simpa only [one_mul] using this
        · apply product_le h.one n c (L f.a r') (fun k => f.a k c) (fun k => D (sig s.indx c k)) r' hj.le
          · intro k hk; exact (hD _ (hsr k (by omega))).1
          · exact (hD _ (hsr r' hr')).1
          · intro k hk
            have hd := (hD _ (hsr k (by omega))).1
            have hd' := (hD _ (hsr r' hr')).1
            have hp : (1 : ℝ) ≤ ρ ^ 4 := one_le_pow₀ h.one
            beta_reduce
            unfold L
            rcases Nat.lt_trichotomy k r' with hk' | hk' | hk'
            · rw [if_pos hk', hcol _ _ (by omega)]; exact I.lower r' hr' k hk hk'
            · subst hk'
              rw [if_neg (lt_irrefl _), if_pos rfl, abs_one, mul_one]
              nlinarith
            · rw [if_neg (by omega), if_neg (by omega), abs_zero, mul_zero]
              positivity
          · intro k hk
            beta_reduce
            have hm := hmag k (by omega)
            rw [min_eq_left (by omega), I.rest k (by omega) c (le_refl _) hj] at hm
            obtain ⟨hd0, hd1⟩ := hD _ (hsr k (by omega))
            have hterm : ∀ i ∈ range k, D (sig s.indx c k) * (|f.a k i| * |f.a i c|) ≤
                ρ ^ 4 * (D (sig s.indx c i) * |f.a i c|) := by
              intro i hi
              rw [mem_range] at hi
              have hlw := I.lower k (by omega) i (by omega) hi
              rw [hcol k i (by omega)]
              calc _ = (D (sig s.indx c k) * |s.a k i|) * |f.a i c| := by ring
                _ ≤ (ρ ^ 4 * D (sig s.indx c i)) * |f.a i c| := mul_le_mul_of_nonneg_right hlw (abs_nonneg _)
                _ = _ := by ring
            have hs0 : 0 ≤ ∑ i ∈ range k, ρ ^ 4 * (D (sig s.indx c i) * |f.a i c|) :=
              sum_nonneg fun i hi => by
                rw [mem_range] at hi
                have := (hD _ (hsr i (by omega))).1
                have : 0 ≤ ρ := by linarith [h.one]
                positivity
            have h0 : 0 ≤ ρ := by linarith [h.one]
            calc D (sig s.indx c k) * |f.a k c|
                ≤ D (sig s.indx c k) * (ρ ^ n * (|A (sig s.indx c k) c| + ∑ i ∈ range k, |f.a k i| * |f.a i c|)) :=
                  mul_le_mul_of_nonneg_left hm hd0.le
              _ = ρ ^ n * (D (sig s.indx c k) * |A (sig s.indx c k) c| +
                  ∑ i ∈ range k, D (sig s.indx c k) * (|f.a k i| * |f.a i c|)) := by rw [← mul_sum]; ring
              _ ≤ ρ ^ n * (ρ + ∑ i ∈ range k, ρ ^ 4 * (D (sig s.indx c i) * |f.a i c|)) :=
                  mul_le_mul_of_nonneg_left (add_le_add (hd1 c hj) (sum_le_sum hterm)) (by positivity)
              _ ≤ _ := mul_le_mul_of_nonneg_right (pow_le_pow_right₀ h.one (by omega)) (by linarith)
      · refine ⟨0, le_refl _, ?_, ?_⟩
        · simp only [B]
          rw [if_neg h1, if_neg h2, sub_self, abs_zero, mul_zero]
        · rw [mul_zero]
          have : 0 ≤ ρ := by linarith [h.one]
          positivity
  · refine ⟨fun c => if c < j then x c j else if c = j then 1 else 0, ⟨j, hj, by simp⟩, fun r hr => ?_⟩
    obtain ⟨r', hr', rfl⟩ := Lu.sig_onto s.indx n j hj.le (fun i hi => (I.swaps i hi).2) r hr
    simp only [add_sub_cancel, Equiv.symm_apply_apply]
    have hsub : ∑ c ∈ range n, B r' c * (if c < j then x c j else if c = j then (1 : ℝ) else 0) =
        ∑ c ∈ range (j + 1), B r' c * (if c < j then x c j else if c = j then (1 : ℝ) else 0) := by
      symm
      apply sum_subset
      · intro c; simp only [mem_range]; omega
      · intro c _ hc
        simp only [mem_range] at hc
        rw [if_neg (by omega), if_neg (by omega), mul_zero]
    rw [hsub, sum_range_succ, if_neg (lt_irrefl j), if_pos rfl, mul_one]
    have hBj : B r' j = ∑ k ∈ range j, L f.a r' k * f.a k j := by simp only [B]; rw [if_neg (lt_irrefl j), if_pos trivial]
    rw [hBj]
    have h1 : ∑ c ∈ range j, B r' c * (if c < j then x c j else if c = j then (1 : ℝ) else 0) =
        ∑ c ∈ range j, ∑ k ∈ range j, L f.a r' k * (U f.a k c * x c j) := by
      apply sum_congr rfl
      intro c hc
      rw [mem_range] at hc
      have hBc : B r' c = ∑ k ∈ range n, L s.a r' k * U s.a k c := by simp only [B]; rw [if_pos hc]
      rw [if_pos hc, hBc, sum_mul]
      have h2 : ∑ k ∈ range n, L s.a r' k * U s.a k c * x c j = ∑ k ∈ range j, L s.a r' k * U s.a k c * x c j := by
        symm
        apply sum_subset
        · intro k; simp only [mem_range]; omega
        · intro k _ hk
          simp only [mem_range] at hk
          unfold U; rw [if_neg (by omega), mul_zero, zero_mul]
      rw [h2]
      apply sum_congr rfl
      intro k hk
      rw [mem_range] at hk
      have e1 : L s.a r' k = L f.a r' k := by unfold L; rw [hcol r' k (by omega)]
      have e2 : U s.a k c = U f.a k c := by unfold U; rw [hcol k c (by omega)]
      rw [e1, e2]; ring
    rw [h1, sum_comm, ← sum_add_distrib]
    apply sum_eq_zero
    intro k hk
    rw [mem_range] at hk
    rw [← mul_sum, hsolve k hk]
    ring

end Verif.LuFloat
