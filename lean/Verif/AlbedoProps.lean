import Verif.Albedo
import Mathlib.Analysis.Complex.ExponentialBounds
import Mathlib.Analysis.SpecialFunctions.Pow.Continuity
import Mathlib.Analysis.SpecialFunctions.Pow.Asymptotics
import Mathlib.Tactic.Linarith
import Mathlib.Tactic.NormNum
import Mathlib.Tactic.Positivity
import Mathlib.Tactic.FieldSimp
import Mathlib.Tactic.Ring

/-! C36 - C39: snow albedo and its decay. -/

namespace Verif.Albedo

/-! ### C36 -/

theorem growth_eq (t : ℝ) (h : 0 < 2 + t + t * t) : growth t = (t * t - t) / (2 + t + t * t) := by
  unfold growth
  have h2 : 2 + t + t ^ 2 ≠ 0 := by rw [sq]; exact h.ne'
  simp only [one_mul]
  field_simp
  ring

theorem growth_den (t : ℝ) : 0 < 2 + t + t * t := by nlinarith [sq_nonneg (t + 1 / 2)]

theorem growth_range (t : ℝ) (h : 1 ≤ t) : 0 ≤ growth t ∧ growth t < 1 := by
  rw [growth_eq t (growth_den t)]
  constructor
  · apply div_nonneg _ (growth_den t).le
    nlinarith
  · rw [div_lt_one (growth_den t)]; linarith

theorem growth_mono (s t : ℝ) (h : 1 ≤ s) (hst : s ≤ t) : growth s ≤ growth t := by
  rw [growth_eq s (growth_den s), growth_eq t (growth_den t),
    div_le_div_iff₀ (growth_den s) (growth_den t)]
  nlinarith [mul_nonneg (sub_nonneg.2 hst) (sub_nonneg.2 h), mul_nonneg (mul_nonneg (sub_nonneg.2 hst) (sub_nonneg.2 h)) (sub_nonneg.2 (le_trans h hst)), mul_nonneg (sub_nonneg.2 hst) (sub_nonneg.2 (le_trans h hst))]

theorem grain_range (r m a : ℝ) (hrm : r ≤ m) (ha : 0 ≤ a) : r ≤ grain r m a ∧ grain r m a ≤ m := by
  unfold grain
  obtain ⟨h0, h1⟩ := growth_range (a + 1) (by linarith)
  constructor <;> nlinarith

theorem grain_mono (r m a b : ℝ) (hrm : r ≤ m) (ha : 0 ≤ a) (hab : a ≤ b) :
    grain r m a ≤ grain r m b := by
  unfold grain
  have := growth_mono (a + 1) (b + 1) (by linarith) (by linarith)
  nlinarith

theorem vis_antitone (g g' c : ℝ) (hg : g ≤ g') (hc : -1 ≤ c) (hc1 : c ≤ 1) :
    visCell g' c ≤ visCell g c := by
  unfold visCell
  simp only
  split
  · nlinarith
  · linarith

theorem exp_bound (g : ℝ) (h : g ≤ 45) : (367 / 1000 : ℝ) ≤ Real.exp (-(2123 / 100000) * g) := by
  have h1 : Real.exp (-1) ≤ Real.exp (-(2123 / 100000) * g) := Real.exp_le_exp.2 (by linarith)
  have h2 : (367 / 1000 : ℝ) ≤ Real.exp (-1) := by
    rw [Real.exp_neg, le_inv_comm₀ (by norm_num) (Real.exp_pos 1)]
    have := Real.exp_one_lt_d9
    norm_num at this ⊢
    linarith
  linarith

theorem ir_antitone (g g' c : ℝ) (hg : g ≤ g') (hg' : g' ≤ 45) (hc : -1 ≤ c) (hc1 : c ≤ 1) :
    irCell g' c ≤ irCell g c := by
  have he := exp_bound g' hg'
  have key : Real.exp (-(2123 / 100000) * g') * (1 + 2123 / 100000 * (g' - g)) ≤
      Real.exp (-(2123 / 100000) * g) := by
    have h1 : Real.exp (-(2123 / 100000) * g) =
        Real.exp (-(2123 / 100000) * g') * Real.exp (2123 / 100000 * (g' - g)) := by
      rw [← Real.exp_add]; congr 1; ring
    rw [h1]
    apply mul_le_mul_of_nonneg_left _ (Real.exp_pos _).le
    have := Real.add_one_le_exp (2123 / 100000 * (g' - g))
    linarith
  unfold irCell
  simp only
  have h2 : (367 / 1000 : ℝ) * (g' - g) ≤ Real.exp (-(2123 / 100000) * g') * (g' - g) :=
    mul_le_mul_of_nonneg_right he (by linarith)
  split
  · nlinarith
  · nlinarith

/-- The grain-size configurations the code is meant for. -/
def Accepted (gsize maxgsz dirt : ℝ) : Prop :=
  0 < gsize ∧ gsize ≤ 500 ∧ gsize < maxgsz ∧ maxgsz ≤ 2000 ∧ 0 ≤ dirt

theorem albedo_ok {ι : Type} (a c : ι → ℝ) (g m d : ℝ) (h : Accepted g m d) :
    albedo a c g m d = .ok (fun i => visCell (grain (Real.sqrt (d * g)) (Real.sqrt (d * m)) (a i)) (c i),
      fun i => irCell (grain (Real.sqrt g) (Real.sqrt m) (a i)) (c i)) := by
  obtain ⟨h1, h2, h3, h4, h5⟩ := h
  unfold albedo pySqrt
  rw [if_neg (by rw [not_or]; constructor <;> linarith), if_neg (by rw [not_or]; constructor <;> linarith),
    if_neg (fun hd => by linarith [hd.1, hd.2]),
    if_neg (by linarith), if_neg (by linarith), if_neg (not_lt.2 (mul_nonneg h5 h1.le)),
    if_neg (not_lt.2 (mul_nonneg h5 (by linarith)))]
  rfl

theorem sqrt_max (m : ℝ) (h : m ≤ 2000) : Real.sqrt m ≤ 45 := by
  rw [Real.sqrt_le_left (by norm_num)]; linarith

/-- Accepted configurations always give an albedo, and older snow is never brighter. -/
theorem C36_declines {ι : Type} (a a' c : ι → ℝ) (g m d : ℝ) (h : Accepted g m d)
    (ha : ∀ i, 0 ≤ a i) (haa : ∀ i, a i ≤ a' i) (hc : ∀ i, -1 ≤ c i ∧ c i ≤ 1) :
    ∃ v ir v' ir', albedo a c g m d = .ok (v, ir) ∧ albedo a' c g m d = .ok (v', ir') ∧
      ∀ i, v' i ≤ v i ∧ ir' i ≤ ir i := by
  refine ⟨_, _, _, _, albedo_ok a c g m d h, albedo_ok a' c g m d h, fun i => ?_⟩
  obtain ⟨h1, h2, h3, h4, h5⟩ := h
  have hv : Real.sqrt (d * g) ≤ Real.sqrt (d * m) :=
    Real.sqrt_le_sqrt (mul_le_mul_of_nonneg_left h3.le h5)
  have hi : Real.sqrt g ≤ Real.sqrt m := Real.sqrt_le_sqrt h3.le
  constructor
  · exact vis_antitone _ _ _ (grain_mono _ _ _ _ hv (ha i) (haa i)) (hc i).1 (hc i).2
  · exact ir_antitone _ _ _ (grain_mono _ _ _ _ hi (ha i) (haa i))
      (le_trans (grain_range _ _ _ hi (le_trans (ha i) (haa i))).2 (sqrt_max m h4)) (hc i).1 (hc i).2

/-- Before any clamping the albedo is a fraction, for dirt factors up to 10. -/
theorem C36_physical {ι : Type} (a c v ir : ι → ℝ) (g m d : ℝ) (h : Accepted g m d) (hd : d ≤ 10)
    (ha : ∀ i, 0 ≤ a i) (hc : ∀ i, -1 ≤ c i ∧ c i ≤ 1) (hr : albedo a c g m d = .ok (v, ir)) (i : ι) :
    0 < v i ∧ v i ≤ 1 ∧ 0 < ir i ∧ ir i < 1 := by
  rw [albedo_ok a c g m d h] at hr
  simp only [Except.ok.injEq, Prod.mk.injEq] at hr
  obtain ⟨rfl, rfl⟩ := hr
  obtain ⟨h1, h2, h3, h4, h5⟩ := h
  have hv : Real.sqrt (d * g) ≤ Real.sqrt (d * m) :=
    Real.sqrt_le_sqrt (mul_le_mul_of_nonneg_left h3.le h5)
  have hi : Real.sqrt g ≤ Real.sqrt m := Real.sqrt_le_sqrt h3.le
  obtain ⟨ha1, ha2⟩ := grain_range _ _ _ hv (ha i)
  obtain ⟨hb1, hb2⟩ := grain_range _ _ _ hi (ha i)
  have hs : Real.sqrt (d * m) ≤ 142 := by
    rw [Real.sqrt_le_left (by norm_num)]; nlinarith
  have hm := sqrt_max m h4
  have hg0 : 0 ≤ grain (Real.sqrt (d * g)) (Real.sqrt (d * m)) (a i) :=
    le_trans (Real.sqrt_nonneg _) ha1
  have hi0 : 0 ≤ grain (Real.sqrt g) (Real.sqrt m) (a i) := le_trans (Real.sqrt_nonneg _) hb1
  have hi45 : grain (Real.sqrt g) (Real.sqrt m) (a i) ≤ 45 := le_trans hb2 hm
  have hg142 : grain (Real.sqrt (d * g)) (Real.sqrt (d * m)) (a i) ≤ 142 := le_trans ha2 hs
  have hci := hc i
  refine ⟨?_, ?_, ?_, ?_⟩
  · simp only [visCell]
    split <;> nlinarith
  · simp only [visCell]
    split <;> nlinarith
  · have := exp_bound _ hi45
    simp only [irCell]
    split <;> nlinarith
  · have h0 := ir_antitone 0 _ (c i) hi0 hi45 hci.1 hci.2
    refine lt_of_le_of_lt h0 ?_
    simp only [irCell, mul_zero, Real.exp_zero, zero_mul, zero_add, mul_one]
    split
    · nlinarith
    · norm_num

/-- Where the sun is on the terrain the albedo is at least the value without sun, and the two agree
under vertical illumination; where it is not they are equal. -/
theorem C36_sun_raises {ι : Type} (a c v ir v0 ir0 : ι → ℝ) (g m d : ℝ) (h : Accepted g m d)
    (ha : ∀ i, 0 ≤ a i) (hc : ∀ i, c i ≤ 1)
    (hr : albedo a c g m d = .ok (v, ir)) (hr0 : albedo a (fun _ => 0) g m d = .ok (v0, ir0)) (i : ι) :
    v0 i ≤ v i ∧ ir0 i ≤ ir i ∧ (c i ≤ 0 ∨ c i = 1 → v i = v0 i ∧ ir i = ir0 i) := by
  rw [albedo_ok a _ g m d h] at hr hr0
  simp only [Except.ok.injEq, Prod.mk.injEq] at hr hr0
  obtain ⟨rfl, rfl⟩ := hr
  obtain ⟨rfl, rfl⟩ := hr0
  obtain ⟨h1, h2, h3, h4, h5⟩ := h
  have hv : Real.sqrt (d * g) ≤ Real.sqrt (d * m) :=
    Real.sqrt_le_sqrt (mul_le_mul_of_nonneg_left h3.le h5)
  have hi : Real.sqrt g ≤ Real.sqrt m := Real.sqrt_le_sqrt h3.le
  have hg0 : 0 ≤ grain (Real.sqrt (d * g)) (Real.sqrt (d * m)) (a i) :=
    le_trans (Real.sqrt_nonneg _) (grain_range _ _ _ hv (ha i)).1
  have hi0 : 0 ≤ grain (Real.sqrt g) (Real.sqrt m) (a i) :=
    le_trans (Real.sqrt_nonneg _) (grain_range _ _ _ hi (ha i)).1
  have hci := hc i
  simp only [visCell, irCell, lt_irrefl, if_false]
  refine ⟨?_, ?_, ?_⟩
  · split <;> nlinarith
  · split
    · have := mul_nonneg (add_nonneg (mul_nonneg hi0 (show (0 : ℝ) ≤ 2 / 1000 by norm_num))
        (show (0 : ℝ) ≤ 1 / 10 by norm_num)) (sub_nonneg.2 hci)
      linarith
    · exact le_refl _
  · rintro (h0 | h0)
    · rw [if_neg (not_lt.2 h0), if_neg (not_lt.2 h0)]; exact ⟨rfl, rfl⟩
    · rw [h0]; simp

/-- What is published lies within the configured limits, whatever the decay method. -/
theorem C36_published_in_limits {ι : Type} (cfg : Cfg) (lo hi : ℝ) (hl : cfg.lo = some lo)
    (hh : cfg.hi = some hi) (hlh : lo ≤ hi) (vt : ι → Int) (t : Int) (cz a : ι → ℝ)
    (v ir : ι → Option ℝ) (h : distribute cfg vt t (some cz) a = .ok (v, ir)) (i : ι) :
    (∃ x, v i = some x ∧ lo ≤ x ∧ x ≤ hi) ∧ (∃ x, ir i = some x ∧ lo ≤ x ∧ x ≤ hi) := by
  have key : ∀ x : ℝ, ∃ y, Utils.clampCell (some lo) (some hi) (some x) = some y ∧ lo ≤ y ∧ y ≤ hi := by
    intro x
    unfold Utils.clampCell Utils.clampHigh Utils.clampLow
    by_cases h1 : x ≤ lo
    · simp only [h1, if_true]
      by_cases h2 : hi ≤ lo
      · exact ⟨hi, by simp [h2], hlh, le_refl _⟩
      · exact ⟨lo, by simp [h2], le_refl _, hlh⟩
    · simp only [h1, if_false]
      by_cases h2 : hi ≤ x
      · exact ⟨hi, by simp [h2], hlh, le_refl _⟩
      · exact ⟨x, by simp [h2], (not_le.1 h1).le, (not_le.1 h2).le⟩
  unfold distribute at h
  simp only [hl, hh] at h
  split at h
  · cases h
  · split at h
    · cases h
    · simp only [Except.ok.injEq, Prod.mk.injEq] at h
      obtain ⟨rfl, rfl⟩ := h
      exact ⟨key _, key _⟩

/-- Each decay method reads its own dictionary: the date method does not depend on the litter
values, the litter method not on the vegetation values, and without decay neither matters. -/
theorem C36_own_dictionary {ι : Type} (cfg : Cfg) (d : Dict) (vt : ι → Int) (t : Int)
    (cz : Option (ι → ℝ)) (a : ι → ℝ) :
    (cfg.decay ≠ .hardy → distribute { cfg with litter := d } vt t cz a = distribute cfg vt t cz a) ∧
    (cfg.decay = .hardy ∨ cfg.decay = .none →
      distribute { cfg with veg := d } vt t cz a = distribute cfg vt t cz a) := by
  constructor
  · intro h
    cases hd : cfg.decay with
    | none => unfold distribute; simp only [hd]
    | date _ _ _ => unfold distribute; simp only [hd]
    | hardy => exact absurd hd h
  · rintro (h | h) <;> (unfold distribute; simp only [h])

example : Accepted 100 700 2 := by unfold Accepted; norm_num

/-! ### C37 -/

/-- C37 as stated. -/
def C37_full : Prop :=
  ∀ (a c : Unit → ℝ) (g m d : ℝ), (∃ e, albedo a c g m d = .error e) ↔
    ¬ (0 < g ∧ g ≤ 500) ∨ ¬ (g < m ∧ m ≤ 2000) ∨ ¬ (1 ≤ d ∧ d ≤ 10)

/-- The grain sizes are checked as documented; the dirt factor is only refused when negative (by the
square root). Missing: dirt outside [1,10]. -/
theorem C37_checks_partial {ι : Type} (a c : ι → ℝ) (g m d : ℝ) :
    (albedo a c g m d = .error .exception ↔ ¬ (0 < g ∧ g ≤ 500) ∨ ¬ (g < m ∧ m ≤ 2000)) ∧
    ((∃ r, albedo a c g m d = .ok r) ↔ (0 < g ∧ g ≤ 500) ∧ (g < m ∧ m ≤ 2000) ∧ 0 ≤ d) := by
  by_cases h1 : g ≤ 0 ∨ 500 < g
  · have hn : ¬ (0 < g ∧ g ≤ 500) := by
      rintro ⟨p, q⟩; rcases h1 with h | h <;> linarith
    have : albedo a c g m d = .error .exception := by unfold albedo; rw [if_pos h1]
    rw [this]
    simp [hn]
  · have hp : 0 < g ∧ g ≤ 500 := by
      rw [not_or] at h1; exact ⟨not_le.1 h1.1, not_lt.1 h1.2⟩
    by_cases h2 : m ≤ g ∨ 2000 < m
    · have hn : ¬ (g < m ∧ m ≤ 2000) := by
        rintro ⟨p, q⟩; rcases h2 with h | h <;> linarith
      have : albedo a c g m d = .error .exception := by
        unfold albedo; rw [if_neg h1, if_pos h2]
      rw [this]
      simp [hn]
    · have hq : g < m ∧ m ≤ 2000 := by
        rw [not_or] at h2; exact ⟨not_le.1 h2.1, not_lt.1 h2.2⟩
      by_cases h3 : 0 ≤ d
      · rw [albedo_ok a c g m d ⟨hp.1, hp.2, hq.1, hq.2, h3⟩]
        simp [hp, hq, h3]
      · have : albedo a c g m d = .error .valueError := by
          unfold albedo pySqrt
          rw [if_neg h1, if_neg h2, if_neg (fun hd => by linarith [hd.1, hd.2]),
            if_neg (by linarith), if_neg (by linarith [hp.1, hq.1]),
            if_pos (mul_neg_of_neg_of_pos (not_le.1 h3) hp.1)]
          rfl
        rw [this]
        simp [hp, hq, h3]

/-- The chained comparison is never true: no dirt factor is refused as unrealistic. -/
theorem C37_dirt_fails {ι : Type} (a c : ι → ℝ) (g m d : ℝ) (h : 0 < g ∧ g ≤ 500)
    (h2 : g < m ∧ m ≤ 2000) (hd : 10 < d) : ∃ r, albedo a c g m d = .ok r :=
  (C37_checks_partial a c g m d).2.2 ⟨h, h2, by linarith⟩

theorem C37_fails : ¬ C37_full := by
  intro h
  obtain ⟨r, hr⟩ := C37_dirt_fails (fun _ : Unit => (0 : ℝ)) (fun _ => 0) 100 700 50 (by norm_num)
    (by norm_num) (by norm_num)
  obtain ⟨e, he⟩ := (h (fun _ => 0) (fun _ => 0) 100 700 50).2 (by norm_num)
  rw [hr] at he
  cases he

/-! ### C38 -/

/-- The value of a vegetation class: its entry, or the default when it has none. -/
def ClassValue (d : Dict) (vt : Int) (dflt x : ℝ) : Prop :=
  (Key.cls vt, x) ∈ d ∨ ((∀ v, (Key.cls vt, v) ∉ d) ∧ x = dflt)

theorem assign_spec (d : Dict) (vt : Int) (init : ℝ) : ClassValue d vt init (assign d vt init) := by
  unfold assign
  induction d generalizing init with
  | nil => right; simp
  | cons kv d ih =>
    rw [List.foldl_cons]
    rcases ih (if kv.1 = Key.cls vt then kv.2 else init) with h | ⟨h1, h2⟩
    · exact .inl (List.mem_cons_of_mem _ h)
    · rw [h2]
      by_cases hk : kv.1 = Key.cls vt
      · left
        rw [if_pos hk]
        rw [← hk]
        exact List.mem_cons_self
      · right
        rw [if_neg hk]
        refine ⟨fun v hv => ?_, rfl⟩
        rcases List.mem_cons.1 hv with e | e
        · exact hk (by rw [← e])
        · exact h1 v e

theorem entry_unique : ∀ {d : Dict}, (d.map Prod.fst).Nodup → ∀ {k : Key} {a b : ℝ},
    (k, a) ∈ d → (k, b) ∈ d → a = b := by
  intro d hd k a b ha hb
  induction d with
  | nil => cases ha
  | cons kv d ih =>
    simp only [List.map_cons, List.nodup_cons] at hd
    rcases List.mem_cons.1 ha with e | e <;> rcases List.mem_cons.1 hb with e' | e'
    · rw [← e] at e'; exact (Prod.mk.inj e').2.symm
    · exact absurd (List.mem_map.2 ⟨_, e', by rw [← e]⟩) hd.1
    · exact absurd (List.mem_map.2 ⟨_, e, by rw [← e']⟩) hd.1
    · exact ih hd.2 e e'

/-- With distinct keys the class value is unique. -/
theorem ClassValue.unique {d : Dict} (hd : (d.map Prod.fst).Nodup) {vt : Int} {dflt x y : ℝ}
    (hx : ClassValue d vt dflt x) (hy : ClassValue d vt dflt y) : x = y := by
  rcases hx with hx | ⟨hx, rfl⟩ <;> rcases hy with hy | ⟨hy, rfl⟩
  · exact entry_unique hd hx hy
  · exact absurd hx (hy _)
  · exact absurd hy (hx _)
  · rfl

/-- Hours never go backwards, and depend on whole seconds only. -/
theorem hours_eq (us : Int) : hours us = ((us / 1000000 : Int) : ℝ) / 3600 := by
  unfold hours
  have h : us / 1000000 = us / 86400000000 * 86400 + us % 86400000000 / 1000000 := by omega
  rw [h]
  push_cast
  ring

theorem hours_mono {a b : Int} (h : a ≤ b) : hours a ≤ hours b := by
  rw [hours_eq, hours_eq]
  have : a / 1000000 ≤ b / 1000000 := by omega
  have h2 : ((a / 1000000 : Int) : ℝ) ≤ ((b / 1000000 : Int) : ℝ) := by exact_mod_cast this
  exact div_le_div_of_nonneg_right h2 (by norm_num)

/-- The documented reduction of a class with maximum `m`: 0 up to the start of the window, `m` from
its end on, `m * (x/T)^p` at `x` hours into a window of `T` hours. -/
noncomputable def reduction (m T p x : ℝ) : ℝ := m * (max 0 (min 1 (x / T))) ^ p

theorem powerDecay_ok (x T p m : ℝ) (hx : 0 < x) (hT : x ≤ T) (hp : 0 < p) (hm : 0 < m) :
    powerDecay x T p m = .ok (reduction m T p x) := by
  have hT0 : 0 < T := lt_of_lt_of_le hx hT
  have hr : 0 < m ^ (1 / p) := Real.rpow_pos_of_pos hm _
  unfold powerDecay
  rw [if_neg hp.ne', if_neg (not_lt.2 hm.le)]
  simp only
  rw [if_neg hr.ne']
  congr 1
  unfold reduction
  have h1 : x / T ≤ 1 := (div_le_one hT0).2 hT
  have h0 : 0 ≤ x / T := by positivity
  rw [min_eq_right h1, max_eq_right h0]
  have : x / (T / m ^ (1 / p)) = m ^ (1 / p) * (x / T) := by field_simp
  rw [this, Real.mul_rpow hr.le h0, ← Real.rpow_mul hm.le, one_div, inv_mul_cancel₀ hp.ne',
    Real.rpow_one]

theorem decayAll_ok (x T p : ℝ) (hx : 0 < x) (hT : x ≤ T) (hp : 0 < p) (d : Dict)
    (hd : ∀ kv ∈ d, 0 < kv.2) :
    decayAll x T p d = .ok (d.map fun kv => (kv.1, reduction kv.2 T p x)) := by
  induction d with
  | nil => rfl
  | cons kv d ih =>
    obtain ⟨k, v⟩ := kv
    unfold decayAll
    rw [powerDecay_ok x T p v hx hT hp (hd _ List.mem_cons_self),
      ih (fun kv h => hd kv (List.mem_cons_of_mem _ h))]
    rfl

theorem assign_map (d : Dict) (f : ℝ → ℝ) (vt : Int) (init : ℝ) :
    assign (d.map fun kv => (kv.1, f kv.2)) vt (f init) = f (assign d vt init) := by
  unfold assign
  induction d generalizing init with
  | nil => rfl
  | cons kv d ih =>
    simp only [List.map_cons, List.foldl_cons]
    by_cases h : kv.1 = Key.cls vt
    · rw [if_pos h, if_pos h]; exact ih kv.2
    · rw [if_neg h, if_neg h]; exact ih init

theorem get_mem {d : Dict} {k : Key} {v : ℝ} (hd : (d.map Prod.fst).Nodup) (h : (k, v) ∈ d) :
    d.get k = .ok v := by
  unfold Dict.get
  cases hf : d.find? (fun kv => kv.1 == k) with
  | none =>
    rw [List.find?_eq_none] at hf
    exact absurd (by simp) (hf _ h)
  | some kv =>
    have h1 := List.mem_of_find?_eq_some hf
    have h2 := List.find?_some hf
    simp only [beq_iff_eq] at h2
    obtain ⟨k', v'⟩ := kv
    simp only at h2
    subst h2
    simp only [entry_unique hd h1 h]

theorem reduction_le_zero (m T p x : ℝ) (hT : 0 < T) (hp : 0 < p) (hx : x ≤ 0) :
    reduction m T p x = 0 := by
  unfold reduction
  have : x / T ≤ 0 := div_nonpos_of_nonpos_of_nonneg hx hT.le
  rw [max_eq_left (le_trans (min_le_right _ _) this), Real.zero_rpow hp.ne', mul_zero]

theorem reduction_end (m T p x : ℝ) (hT : 0 < T) (hx : T ≤ x) : reduction m T p x = m := by
  unfold reduction
  rw [min_eq_left ((one_le_div hT).2 hx), max_eq_right zero_le_one, Real.one_rpow, mul_one]

/-- C38 as stated, for vegetation maxima that may be zero (a class whose albedo does not decay). -/
def C38_full : Prop :=
  ∀ (veg : Dict) (vt : Unit → Int) (start stop t : Int) (pwr dflt : ℝ) (v ir : Unit → ℝ),
    (veg.map Prod.fst).Nodup → (Key.word "default", dflt) ∈ veg → (∀ kv ∈ veg, 0 ≤ kv.2) →
    0 < pwr → 0 < hours (stop - start) →
    ∃ v' ir', decayAlbPower veg vt start stop t pwr v ir = .ok (v', ir')

/-- With positive maxima: both bands are reduced by the documented amount for the cell's class at
every time. Missing: a maximum of zero (`C38_zero_class_fails`). -/
theorem C38_value_partial {ι : Type} (veg : Dict) (vt : ι → Int) (start stop t : Int)
    (pwr dflt : ℝ) (v ir : ι → ℝ) (hd : (veg.map Prod.fst).Nodup)
    (hdf : (Key.word "default", dflt) ∈ veg) (hpos : ∀ kv ∈ veg, 0 < kv.2) (hp : 0 < pwr)
    (hT : 0 < hours (stop - start)) :
    ∃ v' ir', decayAlbPower veg vt start stop t pwr v ir = .ok (v', ir') ∧
      ∀ i m, ClassValue veg (vt i) dflt m →
        v' i = v i - reduction m (hours (stop - start)) pwr (hours (t - start)) ∧
        ir' i = ir i - reduction m (hours (stop - start)) pwr (hours (t - start)) := by
  have hget := get_mem hd hdf
  have key : ∃ dec, albDec veg vt start stop t pwr = .ok dec ∧
      ∀ i m, ClassValue veg (vt i) dflt m →
        dec i = reduction m (hours (stop - start)) pwr (hours (t - start)) := by
    unfold albDec
    simp only
    by_cases h0 : hours (t - start) ≤ 0
    · rw [if_pos h0]
      exact ⟨_, rfl, fun i m _ => (reduction_le_zero _ _ _ _ hT hp h0).symm⟩
    · rw [if_neg h0]
      by_cases h1 : hours (stop - start) < hours (t - start)
      · rw [if_pos h1, hget]
        refine ⟨_, rfl, fun i m hm => ?_⟩
        rw [reduction_end _ _ _ _ hT h1.le]
        exact ClassValue.unique hd (assign_spec veg (vt i) dflt) hm
      · rw [if_neg h1, hget]
        simp only
        rw [powerDecay_ok _ _ _ _ (not_le.1 h0) (not_lt.1 h1) hp (hpos _ hdf),
          decayAll_ok _ _ _ (not_le.1 h0) (not_lt.1 h1) hp veg hpos]
        refine ⟨_, rfl, fun i m hm => ?_⟩
        simp only
        rw [assign_map veg (fun m => reduction m (hours (stop - start)) pwr (hours (t - start)))]
        rw [ClassValue.unique hd (assign_spec veg (vt i) dflt) hm]
  obtain ⟨dec, h1, h2⟩ := key
  unfold decayAlbPower
  rw [h1]
  exact ⟨_, _, rfl, fun i m hm => by simp only [h2 i m hm, and_self]⟩

/-- The documented reduction: 0 before the window, the maximum after it, growing in between, never
outside `[0, m]`, and without jumps. -/
theorem C38_shape (m T p : ℝ) (hm : 0 ≤ m) (hT : 0 < T) (hp : 0 < p) :
    (∀ x, x ≤ 0 → reduction m T p x = 0) ∧ (∀ x, T ≤ x → reduction m T p x = m) ∧
    (∀ x y, x ≤ y → reduction m T p x ≤ reduction m T p y) ∧
    (∀ x, 0 ≤ reduction m T p x ∧ reduction m T p x ≤ m) ∧ Continuous (reduction m T p) := by
  have mono : ∀ x y, x ≤ y → reduction m T p x ≤ reduction m T p y := by
    intro x y hxy
    unfold reduction
    apply mul_le_mul_of_nonneg_left _ hm
    apply Real.rpow_le_rpow (le_max_left _ _) _ hp.le
    exact max_le_max_left _ (min_le_min_left _ (div_le_div_of_nonneg_right hxy hT.le))
  refine ⟨fun x hx => reduction_le_zero _ _ _ _ hT hp hx, fun x hx => reduction_end _ _ _ _ hT hx,
    mono, fun x => ⟨?_, ?_⟩, ?_⟩
  · have := mono (min x 0) x (min_le_left _ _)
    rw [reduction_le_zero _ _ _ _ hT hp (min_le_right _ _)] at this
    exact this
  · have := mono x (max x T) (le_max_left _ _)
    rw [reduction_end _ _ _ _ hT (le_max_right _ _)] at this
    exact this
  · unfold reduction
    apply continuous_const.mul
    exact (continuous_const.max (continuous_const.min (continuous_id.div_const T))).rpow_const
      (fun x => .inr hp.le)

/-- Before the window nothing changes, for any dictionary at all. -/
theorem C38_before {ι : Type} (veg : Dict) (vt : ι → Int) (start stop t : Int) (pwr : ℝ)
    (v ir : ι → ℝ) (h : t ≤ start) : decayAlbPower veg vt start stop t pwr v ir = .ok (v, ir) := by
  have h0 : hours (t - start) ≤ 0 := by
    have := hours_mono (show t - start ≤ 0 by omega)
    simpa [hours] using this
  unfold decayAlbPower albDec
  simp only [if_pos h0, sub_zero]

/-- Later times never have a brighter albedo (whole run of the season, positive maxima). -/
theorem C38_monotone_partial {ι : Type} (veg : Dict) (vt : ι → Int) (start stop t t' : Int)
    (pwr dflt : ℝ) (v ir : ι → ℝ) (hd : (veg.map Prod.fst).Nodup)
    (hdf : (Key.word "default", dflt) ∈ veg) (hpos : ∀ kv ∈ veg, 0 < kv.2) (hp : 0 < pwr)
    (hT : 0 < hours (stop - start)) (htt : t ≤ t') :
    ∃ r r', decayAlbPower veg vt start stop t pwr v ir = .ok r ∧
      decayAlbPower veg vt start stop t' pwr v ir = .ok r' ∧
      ∀ i, r'.1 i ≤ r.1 i ∧ r'.2 i ≤ r.2 i ∧ r.1 i ≤ v i ∧ r.2 i ≤ ir i := by
  obtain ⟨v1, i1, h1, e1⟩ := C38_value_partial veg vt start stop t pwr dflt v ir hd hdf hpos hp hT
  obtain ⟨v2, i2, h2, e2⟩ := C38_value_partial veg vt start stop t' pwr dflt v ir hd hdf hpos hp hT
  refine ⟨_, _, h1, h2, fun i => ?_⟩
  have hm := assign_spec veg (vt i) dflt
  have hm0 : 0 ≤ assign veg (vt i) dflt := by
    rcases hm with h | ⟨-, h⟩
    · exact (hpos _ h).le
    · rw [h]; exact (hpos _ hdf).le
  obtain ⟨a1, a2⟩ := e1 i _ hm
  obtain ⟨b1, b2⟩ := e2 i _ hm
  obtain ⟨-, -, mono, rng, -⟩ := C38_shape (assign veg (vt i) dflt) _ pwr hm0 hT hp
  have h3 := mono _ _ (hours_mono (show t - start ≤ t' - start by omega))
  have h4 := (rng (hours (t - start))).1
  simp only [a1, a2, b1, b2]
  refine ⟨?_, ?_, ?_, ?_⟩ <;> linarith

theorem decayAll_zero (x T p : ℝ) (hp : 0 < p) (d : Dict) (k : Key) (h : (k, 0) ∈ d) :
    ∃ e, decayAll x T p d = .error e := by
  induction d with
  | nil => cases h
  | cons kv d ih =>
    obtain ⟨k', v⟩ := kv
    unfold decayAll
    rcases List.mem_cons.1 h with e | e
    · obtain ⟨-, rfl⟩ := Prod.mk.inj e
      have : powerDecay x T p 0 = .error .zeroDivision := by
        unfold powerDecay
        simp only
        rw [if_neg hp.ne', if_neg (lt_irrefl _), if_pos]
        exact Real.zero_rpow (one_div_pos.2 hp).ne'
      rw [this]
      exact ⟨_, rfl⟩
    · obtain ⟨e', he⟩ := ih e
      cases powerDecay x T p v with
      | error e'' => exact ⟨_, rfl⟩
      | ok y => simp only [he]; exact ⟨_, rfl⟩

/-- One class with maximum 0 and the whole step raises an error inside the decay window. -/
theorem C38_zero_class_fails {ι : Type} (veg : Dict) (vt : ι → Int) (start stop t : Int)
    (pwr : ℝ) (v ir : ι → ℝ) (k : Key) (hk : (k, 0) ∈ veg) (hp : 0 < pwr)
    (h0 : 0 < hours (t - start)) (h1 : hours (t - start) ≤ hours (stop - start)) :
    ∃ e, decayAlbPower veg vt start stop t pwr v ir = .error e := by
  have : ∃ e, albDec veg vt start stop t pwr = .error e := by
    unfold albDec
    simp only
    rw [if_neg (not_le.2 h0), if_neg (not_lt.2 h1)]
    obtain ⟨e, he⟩ := decayAll_zero (hours (t - start)) (hours (stop - start)) pwr hp veg k hk
    cases veg.get (.word "default") with
    | error e' => exact ⟨_, rfl⟩
    | ok d =>
      simp only
      cases powerDecay (hours (t - start)) (hours (stop - start)) pwr d with
      | error e' => exact ⟨_, rfl⟩
      | ok x => simp only [he]; exact ⟨_, rfl⟩
  obtain ⟨e, he⟩ := this
  exact ⟨e, by unfold decayAlbPower; rw [he]⟩

theorem C38_fails : ¬ C38_full := by
  intro h
  have e : hours 3600000000 = 1 := by rw [hours_eq]; norm_num
  obtain ⟨v', ir', h1⟩ := h [(Key.word "default", 1 / 4), (Key.cls 41, 0)] (fun _ => 41) 0 3600000000
    3600000000 (714 / 1000) (1 / 4) (fun _ => 1) (fun _ => 1) (by decide) (by simp)
    (by intro kv hkv; simp at hkv; rcases hkv with rfl | rfl <;> norm_num) (by norm_num)
    (by simp [e])
  obtain ⟨e', h2⟩ := C38_zero_class_fails [(Key.word "default", 1 / 4), (Key.cls 41, 0)]
    (fun _ : Unit => 41) 0 3600000000 3600000000 (714 / 1000) (fun _ => 1) (fun _ => 1) (Key.cls 41)
    (by simp) (by norm_num) (by simp [e]) (le_refl _)
  rw [h1] at h2
  cases h2

/-- The default configuration meets the hypotheses. -/
example : ∃ v' ir', decayAlbPower [(Key.word "default", 25 / 100), (.cls 41, 36 / 100)]
    (fun _ : Unit => 41) 0 7200000000 3600000000 (714 / 1000) (fun _ => 9 / 10) (fun _ => 7 / 10) =
      .ok (v', ir') ∧ ir' () = 7 / 10 - reduction (36 / 100) 2 (714 / 1000) 1 := by
  have e2 : hours (7200000000 - 0) = 2 := by rw [hours_eq]; norm_num
  have e1 : hours (3600000000 - 0) = 1 := by rw [hours_eq]; norm_num
  obtain ⟨v', ir', h1, h2⟩ := C38_value_partial [(Key.word "default", 25 / 100), (.cls 41, 36 / 100)]
    (fun _ : Unit => 41) 0 7200000000 3600000000 (714 / 1000) (25 / 100) (fun _ => 9 / 10)
    (fun _ => 7 / 10) (by decide) (by simp)
    (by intro kv hkv; simp at hkv; rcases hkv with rfl | rfl <;> norm_num) (by norm_num)
    (by rw [e2]; norm_num)
  have := (h2 () (36 / 100) (.inl (by simp))).2
  rw [e1, e2] at this
  exact ⟨v', ir', h1, this⟩

/-! ### C39 -/

/-- Litter rates are fractions per day. -/
def GoodLitter (d : Dict) : Prop :=
  ∀ kv ∈ d, (∃ n, kv.1 = Key.cls n) ∨ kv.1 = Key.word "default" → 0 ≤ kv.2 ∧ kv.2 ≤ 1

theorem hardy_ok {ι : Type} (litter : Dict) (vt : ι → Int) (day v ir : ι → ℝ) (r al : ℝ)
    (hd : (litter.map Prod.fst).Nodup) (h1 : (Key.word "default", r) ∈ litter)
    (h2 : (Key.word "albedo", al) ∈ litter) :
    ∃ v' ir', decayAlbHardy litter vt day v ir = .ok (v', ir') ∧
      ∀ i q, ClassValue litter (vt i) r q →
        v' i = v i * (1 - q) ^ day i + al * (1 - (1 - q) ^ day i) ∧
        ir' i = ir i * (1 - q) ^ day i + al * (1 - (1 - q) ^ day i) := by
  unfold decayAlbHardy
  rw [get_mem hd h1, get_mem hd h2]
  refine ⟨_, _, rfl, fun i q hq => ?_⟩
  simp only
  rw [assign_map litter (fun m => snowCover m (day i)),
    ClassValue.unique hd (assign_spec litter (vt i) r) hq]
  exact ⟨rfl, rfl⟩

theorem good_class {litter : Dict} (hg : GoodLitter litter) {r q : ℝ} {vt : Int}
    (h1 : (Key.word "default", r) ∈ litter) (hq : ClassValue litter vt r q) : 0 ≤ q ∧ q ≤ 1 := by
  rcases hq with h | ⟨-, rfl⟩
  · exact hg _ h (.inl ⟨_, rfl⟩)
  · exact hg _ h1 (.inr rfl)

/-- Both bands are the same weighted mean of the snow and litter albedo, with a weight of the snow
that is 1 on the storm day. -/
theorem C39_weighted_mean {ι : Type} (litter : Dict) (vt : ι → Int) (day v ir : ι → ℝ) (r al : ℝ)
    (hd : (litter.map Prod.fst).Nodup) (hg : GoodLitter litter)
    (h1 : (Key.word "default", r) ∈ litter) (h2 : (Key.word "albedo", al) ∈ litter)
    (hday : ∀ i, 0 ≤ day i) :
    ∃ v' ir', decayAlbHardy litter vt day v ir = .ok (v', ir') ∧ ∀ i,
      (∃ w, 0 ≤ w ∧ w ≤ 1 ∧ v' i = w * v i + (1 - w) * al ∧ ir' i = w * ir i + (1 - w) * al) ∧
      min (v i) al ≤ v' i ∧ v' i ≤ max (v i) al ∧ min (ir i) al ≤ ir' i ∧ ir' i ≤ max (ir i) al ∧
      (day i = 0 → v' i = v i ∧ ir' i = ir i) := by
  obtain ⟨v', ir', h, e⟩ := hardy_ok litter vt day v ir r al hd h1 h2
  refine ⟨v', ir', h, fun i => ?_⟩
  obtain ⟨q, hq⟩ : ∃ q, ClassValue litter (vt i) r q := ⟨_, assign_spec litter (vt i) r⟩
  obtain ⟨q0, q1⟩ := good_class hg h1 hq
  obtain ⟨e1, e2⟩ := e i q hq
  have w0 : 0 ≤ (1 - q) ^ day i := Real.rpow_nonneg (by linarith) _
  have w1 : (1 - q) ^ day i ≤ 1 := Real.rpow_le_one (by linarith) (by linarith) (hday i)
  refine ⟨⟨_, w0, w1, by rw [e1]; ring, by rw [e2]; ring⟩, ?_, ?_, ?_, ?_, ?_⟩
  · rw [e1]; rcases le_total (v i) al with hle | hle
    · rw [min_eq_left hle]; nlinarith
    · rw [min_eq_right hle]; nlinarith
  · rw [e1]; rcases le_total (v i) al with hle | hle
    · rw [max_eq_right hle]; nlinarith
    · rw [max_eq_left hle]; nlinarith
  · rw [e2]; rcases le_total (ir i) al with hle | hle
    · rw [min_eq_left hle]; nlinarith
    · rw [min_eq_right hle]; nlinarith
  · rw [e2]; rcases le_total (ir i) al with hle | hle
    · rw [max_eq_right hle]; nlinarith
    · rw [max_eq_left hle]; nlinarith
  · intro h0
    rw [e1, e2, h0, Real.rpow_zero]
    constructor <;> ring

/-- Older snow is nearer the litter albedo, on the same side of it. -/
theorem C39_toward_litter {ι : Type} (litter : Dict) (vt : ι → Int) (day day' v ir : ι → ℝ) (r al : ℝ)
    (hd : (litter.map Prod.fst).Nodup) (hg : GoodLitter litter)
    (h1 : (Key.word "default", r) ∈ litter) (h2 : (Key.word "albedo", al) ∈ litter)
    (hday : ∀ i, 0 ≤ day i) (hdd : ∀ i, day i ≤ day' i) :
    ∃ a b, decayAlbHardy litter vt day v ir = .ok a ∧ decayAlbHardy litter vt day' v ir = .ok b ∧
      ∀ i, (al ≤ v i → al ≤ b.1 i ∧ b.1 i ≤ a.1 i) ∧ (v i ≤ al → a.1 i ≤ b.1 i ∧ b.1 i ≤ al) ∧
        (al ≤ ir i → al ≤ b.2 i ∧ b.2 i ≤ a.2 i) ∧ (ir i ≤ al → a.2 i ≤ b.2 i ∧ b.2 i ≤ al) := by
  obtain ⟨v1, i1, ha, ea⟩ := hardy_ok litter vt day v ir r al hd h1 h2
  obtain ⟨v2, i2, hb, eb⟩ := hardy_ok litter vt day' v ir r al hd h1 h2
  refine ⟨_, _, ha, hb, fun i => ?_⟩
  obtain ⟨q, hq⟩ : ∃ q, ClassValue litter (vt i) r q := ⟨_, assign_spec litter (vt i) r⟩
  obtain ⟨q0, q1⟩ := good_class hg h1 hq
  obtain ⟨a1, a2⟩ := ea i q hq
  obtain ⟨b1, b2⟩ := eb i q hq
  have w0 : 0 ≤ (1 - q) ^ day' i := Real.rpow_nonneg (by linarith) _
  have w1 : (1 - q) ^ day' i ≤ (1 - q) ^ day i := by
    rcases eq_or_lt_of_le q1 with rfl | hlt
    · rw [sub_self]
      rcases eq_or_lt_of_le (hday i) with h0 | h0
      · rw [← h0, Real.rpow_zero]
        rcases eq_or_lt_of_le (le_trans (hday i) (hdd i)) with h0' | h0'
        · rw [← h0', Real.rpow_zero]
        · rw [Real.zero_rpow h0'.ne']; exact zero_le_one
      · rw [Real.zero_rpow h0.ne', Real.zero_rpow (lt_of_lt_of_le h0 (hdd i)).ne']
    · exact Real.rpow_le_rpow_of_exponent_ge (by linarith) (by linarith) (hdd i)
  simp only [a1, a2, b1, b2]
  refine ⟨fun h => ⟨?_, ?_⟩, fun h => ⟨?_, ?_⟩, fun h => ⟨?_, ?_⟩, fun h => ⟨?_, ?_⟩⟩ <;> nlinarith

/-- With a positive litter rate the albedo approaches that of litter as the snow ages. -/
theorem C39_limit (q al a : ℝ) (hq : 0 < q) (hq1 : q ≤ 1) (litter : Dict) (vt : Int)
    (hd : (litter.map Prod.fst).Nodup) (r : ℝ) (h1 : (Key.word "default", r) ∈ litter)
    (h2 : (Key.word "albedo", al) ∈ litter) (hcl : ClassValue litter vt r q) (ε : ℝ) (hε : 0 < ε) :
    ∃ D, ∀ day, D ≤ day → ∃ v' ir', decayAlbHardy litter (fun _ : Unit => vt) (fun _ => day)
      (fun _ => a) (fun _ => a) = .ok (v', ir') ∧ |v' () - al| ≤ ε ∧ |ir' () - al| ≤ ε := by
  have ht : Filter.Tendsto (fun x : ℝ => (a - al) * (1 - q) ^ x) Filter.atTop (nhds 0) := by
    have := (tendsto_rpow_atTop_of_base_lt_one (1 - q) (by linarith) (by linarith)).const_mul (a - al)
    simpa using this
  rw [Metric.tendsto_atTop] at ht
  obtain ⟨D, hD⟩ := ht ε hε
  refine ⟨D, fun day hday => ?_⟩
  obtain ⟨v', ir', h, e⟩ := hardy_ok litter (fun _ : Unit => vt) (fun _ => day) (fun _ => a)
    (fun _ => a) r al hd h1 h2
  obtain ⟨e1, e2⟩ := e () q hcl
  have hb := hD day hday
  rw [Real.dist_eq, sub_zero] at hb
  have hx : a * (1 - q) ^ day + al * (1 - (1 - q) ^ day) - al = (a - al) * (1 - q) ^ day := by ring
  exact ⟨v', ir', h, by rw [e1, hx]; exact hb.le, by rw [e2, hx]; exact hb.le⟩

example : GoodLitter [(Key.word "albedo", 2 / 10), (.word "default", 3 / 1000), (.cls 41, 6 / 1000)] := by
  intro kv hkv h
  simp at hkv
  rcases hkv with rfl | rfl | rfl
  · rcases h with ⟨n, h⟩ | h
    · cases h
    · exact absurd h (by decide)
  · norm_num
  · norm_num

end Verif.Albedo
