import Verif.Ninja
import Mathlib.Tactic.Linarith
import Mathlib.Tactic.NormNum
import Mathlib.Tactic.FieldSimp
import Mathlib.Tactic.Ring
import Mathlib.Tactic.LinearCombination
import Mathlib.Tactic.Positivity

/-!
Properties of the WindNinja speeds: the height conversion (C66), the filling of the edges (C88) and the limits of
the speed (C89).
-/

namespace Verif.Ninja

/-! ### C66 -/

/-- The limited roughness is in the range given, and is the roughness itself if that is in the range. -/
theorem limit_range (r : Option ℝ) : 0.01 ≤ limitRoughness r ∧ limitRoughness r ≤ 1.6 ∧
    ∀ v, r = some v → 0.01 ≤ v → v ≤ 1.6 → limitRoughness r = v := by
  unfold limitRoughness
  cases r with
  | none =>
    simp only [Option.map_none, Option.getD_none]
    rw [if_neg (by norm_num)]
    exact ⟨le_rfl, by norm_num, fun v h => by cases h⟩
  | some v =>
    simp only [Option.map_some, Option.getD_some]
    by_cases h1 : v < 0.01
    · simp only [if_pos h1]
      rw [if_neg (by norm_num)]
      refine ⟨le_rfl, by norm_num, fun u h hu => ?_⟩
      cases h
      linarith
    · simp only [if_neg h1]
      by_cases h2 : v > 1.6
      · rw [if_pos h2]
        refine ⟨by norm_num, le_rfl, fun u h _ hu => ?_⟩
        cases h
        linarith
      · rw [if_neg h2]
        exact ⟨not_lt.1 h1, not_lt.1 h2, fun u h _ _ => by cases h; rfl⟩

theorem log_pos_of {r h : ℝ} (hr : 0 < r) (hh : 0 < h) : 0 < Real.log ((r + h) / r) := by
  apply Real.log_pos
  rw [lt_div_iff₀ hr]; linarith

theorem log_anti {r s h : ℝ} (hr : 0 < r) (hrs : r < s) (hh : 0 < h) :
    Real.log ((s + h) / s) < Real.log ((r + h) / r) := by
  have hs : 0 < s := lt_trans hr hrs
  apply Real.log_lt_log (by positivity)
  rw [div_lt_div_iff₀ hs hr]
  nlinarith

/-- The conversion multiplies the speed with a positive number, for every vegetation height (or NaN): speeds
that are not negative stay so, zero comes only from zero, and faster stays faster. -/
theorem C66_scale (veg : Option ℝ) (wn height : ℝ) (hwn : 0 < wn) (hh : 0 < height) :
    (∀ v, 0 ≤ v → 0 ≤ v * scale (roughness veg) wn height) ∧
    (∀ v, v * scale (roughness veg) wn height = 0 ↔ v = 0) ∧
    ∀ v v', v < v' → v * scale (roughness veg) wn height < v' * scale (roughness veg) wn height := by
  have hr : 0 < roughness veg := lt_of_lt_of_le (by norm_num) (limit_range _).1
  have hs : 0 < scale (roughness veg) wn height := div_pos (log_pos_of hr hh) (log_pos_of hwn hh)
  refine ⟨fun v hv => by positivity, fun v => ?_, fun v v' h => mul_lt_mul_of_pos_right h hs⟩
  rw [mul_eq_zero]
  exact ⟨fun h => h.resolve_right hs.ne', Or.inl⟩

example : 0 ≤ (4 : ℝ) * scale (roughness (some 20)) 0.43 5 :=
  (C66_scale (some 20) 0.43 5 (by norm_num) (by norm_num)).1 4 (by norm_num)

/-- Higher vegetation slows the wind, and nothing is changed where the roughness is that of the simulation. -/
theorem C66_roughness (a b wn height : ℝ) (hwn : 0 < wn) (hh : 0 < height) :
    scale wn wn height = 1 ∧ (a ≤ b → scale (roughness (some b)) wn height ≤ scale (roughness (some a)) wn height) ∧
    (0.0739 ≤ a → a < b → b ≤ 11.824 → scale (roughness (some b)) wn height < scale (roughness (some a)) wn height) := by
  have lw := log_pos_of hwn hh
  refine ⟨div_self lw.ne', fun hab => ?_, fun h1 hab h2 => ?_⟩
  · have hmono : roughness (some a) ≤ roughness (some b) := by
      unfold roughness limitRoughness
      simp only [Option.map_some, Option.getD_some]
      have : a / 7.39 ≤ b / 7.39 := by apply div_le_div_of_nonneg_right hab; norm_num
      split_ifs <;> linarith
    have hr : 0 < roughness (some a) := lt_of_lt_of_le (by norm_num) (limit_range _).1
    unfold scale
    apply div_le_div_of_nonneg_right _ lw.le
    rcases hmono.eq_or_lt with h | h
    · rw [h]
    · exact (log_anti hr h hh).le
  · have e : ∀ v : ℝ, 0.0739 ≤ v → v ≤ 11.824 → roughness (some v) = v / 7.39 := by
      intro v hv1 hv2
      refine (limit_range _).2.2 (v / 7.39) rfl ?_ ?_
      · rw [le_div_iff₀ (by norm_num)]; linarith
      · rw [div_le_iff₀ (by norm_num)]; linarith
    rw [e a h1 (by linarith), e b (by linarith) h2]
    have : a / 7.39 < b / 7.39 := by apply div_lt_div_of_pos_right hab; norm_num
    unfold scale
    exact div_lt_div_of_pos_right (log_anti (by linarith [show (0 : ℝ) < a / 7.39 by apply div_pos; linarith; norm_num]) this hh) lw

/-- An interpolated speed lies between the speeds at the corners of its triangle. -/
theorem C66_interpolate (a b v0 v1 v2 lo hi v : ℝ) (h : interpolate a b v0 v1 v2 = some v)
    (h0 : lo ≤ v0 ∧ v0 ≤ hi) (h1 : lo ≤ v1 ∧ v1 ≤ hi) (h2 : lo ≤ v2 ∧ v2 ≤ hi) : lo ≤ v ∧ v ≤ hi := by
  unfold interpolate at h
  simp only at h
  split at h
  · cases h
  · next hc =>
    have hv := (Option.some.inj h).symm
    simp only [not_or, not_lt] at hc
    obtain ⟨ca, cb, cc⟩ := hc
    subst hv
    constructor <;> nlinarith

example : interpolate 0.25 0.25 2 4 6 = some 4.5 := by
  unfold interpolate
  norm_num

/-- The full claim: speeds that are not negative where they are known give speeds that are not negative. -/
def C66_full : Prop :=
  ∀ (X Y : Nat → ℝ) (nr nc : Nat) (sc : Nat → Nat → ℝ) (g out : Nat → Nat → Option ℝ),
    StrictMono X → StrictAnti Y → (∀ r c, 0 < sc r c) → (∀ r c v, g r c = some v → 0 ≤ v) →
    speeds X Y nr nc false sc g = .ok out → ∀ r < nr, ∀ c < nc, ∀ v, out r c = some v → 0 ≤ v

/-- Where the grids have the same cells, nothing is filled and the claim holds. -/
theorem C66_same_partial (X Y : Nat → ℝ) (nr nc : Nat) (sc : Nat → Nat → ℝ) (g : Nat → Nat → Option ℝ)
    (hsc : ∀ r c, 0 < sc r c) (hg : ∀ r c v, g r c = some v → 0 ≤ v) :
    ∃ out, speeds X Y nr nc true sc g = .ok out ∧ ∀ r c, (out r c = none ↔ g r c = none) ∧
      ∀ v, out r c = some v → 0 ≤ v := by
  refine ⟨_, rfl, fun r c => ⟨by simp, fun v hv => ?_⟩⟩
  simp only [Option.map_eq_some_iff] at hv
  obtain ⟨u, hu, rfl⟩ := hv
  exact mul_nonneg (hg r c u hu) (hsc r c).le

/-! ### C88: filling of the edges -/

theorem fillData_ok {X Y : Nat → ℝ} {nr nc : Nat} {g out : Nat → Nat → Option ℝ} (h : fillData X Y nr nc g = .ok out) :
    ∃ ix iy, ix = countNaN (g 0) nc ∧ ix + 1 < nc ∧ iy = countNaN (fun r => g r (ix + 1)) nr ∧ (0 < iy → iy + 2 ≤ nr) ∧
      out = (if iy > 0 then fillBottom Y nr iy (if ix > 0 then fillLeft X ix g else g)
        else if ix > 0 then fillLeft X ix g else g) ∧
      ∀ r < nr, ∀ c < nc, out r c ≠ none := by
  unfold fillData at h
  simp only at h
  split at h
  · cases h
  · next h1 =>
    split at h
    · cases h
    · next h2 =>
      generalize hg2 : (if countNaN (fun r => g r (countNaN (g 0) nc + 1)) nr > 0 then
        fillBottom Y nr (countNaN (fun r => g r (countNaN (g 0) nc + 1)) nr)
          (if countNaN (g 0) nc > 0 then fillLeft X (countNaN (g 0) nc) g else g)
        else if countNaN (g 0) nc > 0 then fillLeft X (countNaN (g 0) nc) g else g) = g2 at h
      by_cases h3 : ∃ r < nr, ∃ c < nc, g2 r c = none
      · rw [if_pos h3] at h; cases h
      · rw [if_neg h3] at h
        cases h
        refine ⟨_, _, rfl, by omega, rfl, ?_, hg2.symm, ?_⟩
        · intro h4
          by_contra h5
          exact h2 ⟨h4, by omega⟩
        · intro r hr c hc hn
          exact h3 ⟨r, hr, c, hc, hn⟩

/-- Whenever filling succeeds, no NaN is left, and the cells to the right of the first `ix` columns and above
the last `iy` rows are as they were. -/
theorem C88_complete (X Y : Nat → ℝ) (nr nc : Nat) (g out : Nat → Nat → Option ℝ) (h : fillData X Y nr nc g = .ok out) :
    (∀ r < nr, ∀ c < nc, ∃ v, out r c = some v) ∧
    ∀ r c, countNaN (g 0) nc ≤ c → r < nr - countNaN (fun r => g r (countNaN (g 0) nc + 1)) nr → out r c = g r c := by
  obtain ⟨ix, iy, hix, hi1, hiy, hi2, ho, hn⟩ := fillData_ok h
  refine ⟨fun r hr c hc => Option.ne_none_iff_exists'.1 (hn r hr c hc), ?_⟩
  rw [← hix, ← hiy]
  intro r c hc hr
  have hl : (if ix > 0 then fillLeft X ix g else g) r c = g r c := by
    split
    · unfold fillLeft; rw [if_neg (by omega)]
    · rfl
  rw [ho]
  split
  · unfold fillBottom
    rw [if_neg (by omega)]; exact hl
  · exact hl

theorem countNaN_zero {f : Nat → Option ℝ} {n : Nat} (h : ∀ k < n, f k ≠ none) : countNaN f n = 0 := by
  unfold countNaN
  rw [List.length_eq_zero_iff, List.filter_eq_nil_iff]
  intro k hk
  simp only [List.mem_range] at hk
  simpa using h k hk

/-- NaN exactly in the first `m` places. -/
theorem countNaN_prefix {f : Nat → Option ℝ} {n m : Nat} (hm : m ≤ n) (h : ∀ k < n, f k = none ↔ k < m) :
    countNaN f n = m := by
  unfold countNaN
  induction n with
  | zero => simp; omega
  | succ n ih =>
    rw [List.range_succ, List.filter_append, List.length_append]
    by_cases hn : m ≤ n
    · rw [ih hn (fun k hk => h k (by omega))]
      have : f n ≠ none := fun hc => by have := (h n (by omega)).1 hc; omega
      simp [Option.isNone_iff_eq_none, this]
    · have hmn : m = n + 1 := by omega
      have hall : ∀ k < n, f k = none ↔ k < n := fun k hk => by rw [h k (by omega)]; omega
      rw [ih0 hall]
      have : f n = none := (h n (by omega)).2 (by omega)
      simp [this, hmn]
where
  ih0 {f : Nat → Option ℝ} {n : Nat} (h : ∀ k < n, f k = none ↔ k < n) :
      ((List.range n).filter fun k => (f k).isNone).length = n := by
    rw [List.filter_eq_self.2]
    · simp
    · intro k hk
      have hk := List.mem_range.1 hk
      simp [(h k hk).2 hk]

/-- NaN exactly in the last `m` places. -/
theorem countNaN_suffix {f : Nat → Option ℝ} {n m : Nat} (hm : m ≤ n) (h : ∀ k < n, f k = none ↔ n - m ≤ k) :
    countNaN f n = m := by
  unfold countNaN
  obtain ⟨a, rfl⟩ : ∃ a, n = a + m := ⟨n - m, by omega⟩
  rw [List.range_add, List.filter_append, List.length_append]
  have h1 : (List.range a).filter (fun k => (f k).isNone) = [] := by
    rw [List.filter_eq_nil_iff]
    intro k hk
    have hk := List.mem_range.1 hk
    have : f k ≠ none := fun hc => by have := (h k (by omega)).1 hc; omega
    simpa using this
  have h2 : ((List.range m).map (a + ·)).filter (fun k => (f k).isNone) = (List.range m).map (a + ·) := by
    rw [List.filter_eq_self]
    intro k hk
    obtain ⟨j, hj, rfl⟩ := List.mem_map.1 hk
    have hj := List.mem_range.1 hj
    simp [(h (a + j) (by omega)).2 (by omega)]
  rw [h1, h2]; simp

/-- The NaN cells are the first `ix` columns and the last `iy` rows of the image. -/
def Edges (nr nc ix iy : Nat) (g : Nat → Nat → Option ℝ) : Prop :=
  ∀ r < nr, ∀ c < nc, g r c = none ↔ c < ix ∨ nr - iy ≤ r

theorem extrapolate_some (x0 x1 a b x : ℝ) : ∃ v, extrapolate x0 x1 (some a) (some b) x = some v := ⟨_, rfl⟩

/-- With NaN along the left and the bottom edge only, and two columns and two rows of data beside them, filling
succeeds. -/
theorem C88_succeeds (X Y : Nat → ℝ) (nr nc ix iy : Nat) (g : Nat → Nat → Option ℝ) (he : Edges nr nc ix iy g)
    (hx : ix + 2 ≤ nc) (hy : iy + 2 ≤ nr) :
    countNaN (g 0) nc = ix ∧ countNaN (fun r => g r (ix + 1)) nr = iy ∧ ∃ out, fillData X Y nr nc g = .ok out := by
  have e1 : countNaN (g 0) nc = ix :=
    countNaN_prefix (by omega) (fun k hk => by rw [he 0 (by omega) k hk]; omega)
  have e2 : countNaN (fun r => g r (ix + 1)) nr = iy :=
    countNaN_suffix (by omega) (fun k hk => by
      show g k (ix + 1) = none ↔ _
      rw [he k hk (ix + 1) (by omega)]; omega)
  refine ⟨e1, e2, ?_⟩
  unfold fillData
  simp only [e1, e2]
  rw [if_neg (by omega), if_neg (by omega)]
  have hg : ∀ r < nr - iy, ∀ c < nc, ix ≤ c → ∃ v, g r c = some v := by
    intro r hr c hc hc'
    apply Option.ne_none_iff_exists'.1
    intro hn
    have := (he r (by omega) c hc).1 hn
    omega
  have h1 : ∀ r < nr - iy, ∀ c < nc, ∃ v, (if ix > 0 then fillLeft X ix g else g) r c = some v := by
    intro r hr c hc
    split
    · unfold fillLeft
      split
      · obtain ⟨a, ha⟩ := hg r hr ix (by omega) le_rfl
        obtain ⟨b, hb⟩ := hg r hr (ix + 1) (by omega) (by omega)
        rw [ha, hb]; exact extrapolate_some _ _ _ _ _
      · exact hg r hr c hc (by omega)
    · exact hg r hr c hc (by omega)
  rw [if_neg]
  · exact ⟨_, rfl⟩
  · rintro ⟨r, hr, c, hc, hn⟩
    split at hn
    · unfold fillBottom at hn
      split at hn
      · obtain ⟨a, ha⟩ := h1 (nr - iy - 1) (by omega) c hc
        obtain ⟨b, hb⟩ := h1 (nr - iy - 2) (by omega) c hc
        rw [ha, hb] at hn
        cases hn
      · obtain ⟨a, ha⟩ := h1 r (by omega) c hc
        rw [ha] at hn; cases hn
    · obtain ⟨a, ha⟩ := h1 r (by omega) c hc
      rw [ha] at hn; cases hn

/-- Data that lie in a plane are continued in that plane. -/
theorem C88_plane (X Y : Nat → ℝ) (nr nc ix iy : Nat) (g : Nat → Nat → Option ℝ) (he : Edges nr nc ix iy g)
    (hx : ix + 2 ≤ nc) (hy : iy + 2 ≤ nr) (hX : Function.Injective X) (hY : Function.Injective Y) (p q s : ℝ)
    (hp : ∀ r < nr, ∀ c < nc, ∀ v, g r c = some v → v = p + q * X c + s * Y r)
    (out : Nat → Nat → Option ℝ) (h : fillData X Y nr nc g = .ok out) (r : Nat) (hr : r < nr) (c : Nat) (hc : c < nc) :
    out r c = some (p + q * X c + s * Y r) := by
  obtain ⟨e1, e2, _⟩ := C88_succeeds X Y nr nc ix iy g he hx hy
  obtain ⟨ix', iy', hix, hi1, hiy, hi2, ho, hn⟩ := fillData_ok h
  rw [e1] at hix
  subst hix
  rw [e2] at hiy
  subst hiy
  have hg : ∀ r < nr - iy', ∀ c < nc, ix' ≤ c → g r c = some (p + q * X c + s * Y r) := by
    intro r hr c hc hc'
    cases hgv : g r c with
    | none =>
      have := (he r (by omega) c hc).1 hgv
      omega
    | some v => rw [hp r (by omega) c hc v hgv]
  have h1 : ∀ r < nr - iy', ∀ c < nc,
      (if ix' > 0 then fillLeft X ix' g else g) r c = some (p + q * X c + s * Y r) := by
    intro r hr c hc
    split
    · unfold fillLeft
      split
      · rw [hg r hr ix' (by omega) le_rfl, hg r hr (ix' + 1) (by omega) (by omega)]
        have : X (ix' + 1) - X ix' ≠ 0 := sub_ne_zero.2 (fun h => by have := hX h; omega)
        simp only [extrapolate]
        congr 1
        field_simp
        ring
      · exact hg r hr c hc (by omega)
    · exact hg r hr c hc (by omega)
  rw [ho]
  split
  · unfold fillBottom
    split
    · rw [h1 _ (by omega) c hc, h1 _ (by omega) c hc]
      have : Y (nr - iy' - 2) - Y (nr - iy' - 1) ≠ 0 := sub_ne_zero.2 (fun h => by have := hY h; omega)
      simp only [extrapolate]
      congr 1
      field_simp
      ring
    · exact h1 r (by omega) c hc
  · exact h1 r (by omega) c hc

/-- A row of four columns with a NaN at its left end, three rows. -/
noncomputable def sample : Nat → Nat → Option ℝ := fun _ c => if c = 0 then none else if c = 1 then some 1 else some 3

theorem sample_edges : Edges 3 4 1 0 sample := by
  intro r hr c hc
  unfold sample
  by_cases h : c = 0
  · simp [h]
  · have : ¬ (c < 1 ∨ 3 - 0 ≤ r) := by omega
    simp only [this, iff_false]
    simp only [if_neg h]
    split <;> simp

example : ∃ out, fillData (fun c => c) (fun r => -r) 3 4 sample = .ok out :=
  (C88_succeeds _ _ 3 4 1 0 sample sample_edges (by omega) (by omega)).2.2

/-- Extrapolating the drop of the speed towards the edge gives a negative speed. -/
theorem C66_edge_fails : ∃ out, speeds (fun c => c) (fun r => -r) 3 4 false (fun _ _ => 1) sample = .ok out ∧
    out 0 0 = some (-1) := by
  obtain ⟨e1, e2, out, ho⟩ := C88_succeeds (fun c => (c : ℝ)) (fun r => -(r : ℝ)) 3 4 1 0 sample sample_edges (by omega) (by omega)
  obtain ⟨ix', iy', hix, hi1, hiy, hi2, ho2, hn⟩ := fillData_ok ho
  rw [e1] at hix
  subst hix
  rw [e2] at hiy
  subst hiy
  refine ⟨fun r c => (out r c).map fun v => v * 1, ?_, ?_⟩
  · unfold speeds
    simp only [Bool.false_eq_true, if_false]
    rw [ho]; rfl
  · rw [ho2]
    simp [fillLeft, sample, extrapolate]
    norm_num

theorem C66_fails : ¬ C66_full := by
  intro hf
  obtain ⟨out, h1, h2⟩ := C66_edge_fails
  have := hf (fun c => c) (fun r => -r) 3 4 (fun _ _ => 1) sample out (fun a b h => by
      show (a : ℝ) < b
      exact_mod_cast h)
    (fun a b h => by
      show -(b : ℝ) < -(a : ℝ)
      have : (a : ℝ) < b := by exact_mod_cast h
      linarith) (fun _ _ => one_pos) (by
      intro r c v hv
      unfold sample at hv
      split at hv
      · cases hv
      · split at hv
        · cases hv; norm_num
        · cases hv; norm_num) h1 0 (by omega) 0 (by omega) (-1) h2
  norm_num at this

/-- NaN on the right edge: the columns on the left, which hold data, are overwritten, and the filling fails. -/
theorem C88_right_edge_fails (X Y : Nat → ℝ) (nr nc : Nat) (g : Nat → Nat → Option ℝ) (hnr : 0 < nr)
    (c : Nat) (hc : c < nc) (hleft : countNaN (g 0) nc ≤ c) (hnan : g 0 c = none) :
    ¬ ∃ out, fillData X Y nr nc g = .ok out := by
  rintro ⟨out, h⟩
  obtain ⟨h1, h2⟩ := C88_complete X Y nr nc g out h
  obtain ⟨ix, iy, hix, hi1, hiy, hi2, _, _⟩ := fillData_ok h
  rw [← hix] at h2 hleft
  rw [← hiy] at h2
  have := h2 0 c hleft (by omega)
  obtain ⟨v, hv⟩ := h1 0 hnr c hc
  rw [this, hnan] at hv
  cases hv

/-- Rows of four columns with a NaN at the right end. -/
example (X Y : Nat → ℝ) : ¬ ∃ out, fillData X Y 3 4 (fun _ c => if c = 3 then none else some 2) = .ok out :=
  C88_right_edge_fails X Y 3 4 _ (by omega) 3 (by omega) (by
    rw [show countNaN ((fun _ c => if c = 3 then none else some 2 : Nat → Nat → Option ℝ) 0) 4 = 1 from by
      simp [countNaN, List.range_succ]]
    omega) (by simp)

/-! ### C89 -/

/-- The speed handed to the other threads keeps the limits for every wind model, although it is read from the
wind model and not from the object that was limited. NaN stays NaN, and a speed within the limits is
not changed. -/
theorem C89_limited (k : Kind) (lo hi : ℝ) (hlh : lo ≤ hi) (h : Heap) (p : Nat) :
    (∀ v, handedOn k lo hi h p = some v → lo ≤ v ∧ v ≤ hi) ∧
    (handedOn k lo hi h p = none ↔ h p = none) ∧
    (∀ v, h p = some v → lo ≤ v → v ≤ hi → handedOn k lo hi h p = some v) := by
  have e : handedOn k lo hi h p = limit lo hi (h p) := by
    unfold handedOn finish setMinMax
    cases k <;> simp
  rw [e]
  unfold limit
  cases h p with
  | none => simp
  | some u =>
    refine ⟨?_, by simp, ?_⟩
    · intro v hv
      simp only [Option.map_some, Option.some.injEq] at hv
      subst hv
      split_ifs <;> constructor <;> linarith
    · intro v hv h1 h2
      cases hv
      simp only [Option.map_some, Option.some.injEq]
      split_ifs <;> linarith

example : handedOn .ninja 0.447 35 (fun _ => some (-1)) 0 = some 0.447 := by
  unfold handedOn finish setMinMax limit
  norm_num

end Verif.Ninja
