import Verif.NasdeProps
import Mathlib.Analysis.Complex.ExponentialBounds

/-!
C178: how the density of new snow follows temperature and amount of the precipitation (smrf/envphys/snow.py 36-75 and
nasde_model/*.py, modelled in `Nasde`). No new model.
-/

namespace Verif.Nasde

/-- The density of the Marks 2017 model at a cell with snow (C32, C81). -/
noncomputable def settled (t pp : ℝ) : ℝ := uncompacted t * (1 + overburden t pp + metamorphism t)

/-- `x exp (-x)` falls no steeper than this. -/
theorem ebb_le (x y : ℝ) (h : x ≤ y) (h0 : 0 ≤ x) :
    x * Real.exp (-x) - y * Real.exp (-y) ≤ x * Real.exp (-x) * (y - x) := by
  have e : Real.exp (-y) = Real.exp (-x) * Real.exp (-(y - x)) := by rw [← Real.exp_add]; congr 1; ring
  have h1 : 1 - (y - x) ≤ Real.exp (-(y - x)) := by have := Real.add_one_le_exp (-(y - x)); linarith
  have p := Real.exp_pos (-x)
  have q := Real.exp_pos (-(y - x))
  have k1 : x * Real.exp (-x) * (1 - (y - x)) ≤ x * Real.exp (-x) * Real.exp (-(y - x)) :=
    mul_le_mul_of_nonneg_left h1 (mul_nonneg h0 p.le)
  have k2 : x * (Real.exp (-x) * Real.exp (-(y - x))) ≤ y * (Real.exp (-x) * Real.exp (-(y - x))) :=
    mul_le_mul_of_nonneg_right h (mul_pos p q).le
  rw [e]
  linarith

/-- `x exp (c - x)` from `x = c` on, for `c` at least one. -/
theorem ebb_peak (c x : ℝ) (hc : 1 ≤ c) (h : c ≤ x) : x * Real.exp (-(x - c)) ≤ c := by
  have h1 := Real.add_one_le_exp (x - c)
  have p := Real.exp_pos (-(x - c))
  have e : Real.exp (x - c) * Real.exp (-(x - c)) = 1 := by rw [← Real.exp_add]; simp
  have k : x ≤ c * Real.exp (x - c) := by nlinarith
  calc x * Real.exp (-(x - c)) ≤ c * Real.exp (x - c) * Real.exp (-(x - c)) := mul_le_mul_of_nonneg_right k p.le
    _ = c := by rw [mul_assoc, e, mul_one]

theorem ebb_top (x : ℝ) : x * Real.exp (-x) ≤ 37 / 100 := by
  have h1 := Real.add_one_le_exp (x - 1)
  have p := Real.exp_pos (-x)
  have e : Real.exp (x - 1) * Real.exp (-x) = Real.exp (-1) := by rw [← Real.exp_add]; congr 1; ring
  have e1 : Real.exp (-1) < 37 / 100 := by have := Real.exp_neg_one_lt_d9; linarith
  have k : x * Real.exp (-x) ≤ Real.exp (x - 1) * Real.exp (-x) := mul_le_mul_of_nonneg_right (by linarith) p.le
  linarith

/-- The part that overburden adds, per unit of snow: how much less it can be for denser snow. -/
theorem burden_ebb (u v : ℝ) (h : u ≤ v) (h0 : 0 ≤ u) :
    u * Real.exp (-21 * (u / 1000)) - v * Real.exp (-21 * (v / 1000)) ≤ 37 / 100 * (v - u) := by
  have k := ebb_le (21 / 1000 * u) (21 / 1000 * v) (by linarith) (by linarith)
  have k2 := mul_le_mul_of_nonneg_right (ebb_top (21 / 1000 * u)) (sub_nonneg.2 h)
  rw [show -21 * (u / 1000) = -(21 / 1000 * u) by ring, show -21 * (v / 1000) = -(21 / 1000 * v) by ring]
  linarith

/-- The part that metamorphism adds. -/
noncomputable def aging (u : ℝ) : ℝ :=
  u * (if 100 ≤ u / 1000 * 1000 then Real.exp (-(46 / 1000) * (u / 1000 * 1000 - 100)) else 1)

theorem aging_nonneg (u : ℝ) (h : 0 ≤ u) : 0 ≤ aging u := by
  unfold aging
  apply mul_nonneg h
  split
  · exact (Real.exp_pos _).le
  · exact zero_le_one

theorem aging_dense (u v : ℝ) (hu : 100 ≤ u) (h : u ≤ v) : aging u - aging v ≤ 46 / 10 * (v - u) := by
  have e : ∀ x, x / 1000 * 1000 = (x : ℝ) := fun x => by ring
  unfold aging
  rw [e, e, if_pos hu, if_pos (hu.trans h)]
  have k := ebb_le (46 / 1000 * u) (46 / 1000 * v) (by linarith) (by linarith)
  have k2 := ebb_peak (46 / 10) (46 / 1000 * u) (by norm_num) (by linarith)
  have e1 : ∀ x : ℝ, Real.exp (-(46 / 1000) * (x - 100)) = Real.exp (46 / 10) * Real.exp (-(46 / 1000 * x)) := by
    intro x; rw [← Real.exp_add]; congr 1; ring
  have e2 : Real.exp (-(46 / 1000 * u - 46 / 10)) = Real.exp (46 / 10) * Real.exp (-(46 / 1000 * u)) := by
    rw [← Real.exp_add]; congr 1; ring
  rw [e1, e1]
  rw [e2] at k2
  have P := Real.exp_pos (46 / 10 : ℝ)
  have k3 := mul_le_mul_of_nonneg_left k P.le
  have k4 := mul_le_mul_of_nonneg_right k2 (sub_nonneg.2 h)
  linarith

theorem aging_ebb (u v : ℝ) (h0 : 0 ≤ u) (h : u ≤ v) : aging u - aging v ≤ 46 / 10 * (v - u) := by
  by_cases hu : 100 ≤ u
  · exact aging_dense u v hu h
  · have e : ∀ x, x / 1000 * 1000 = (x : ℝ) := fun x => by ring
    have eu : aging u = u := by unfold aging; rw [e, if_neg hu, mul_one]
    by_cases hv : 100 ≤ v
    · have k := aging_dense 100 v le_rfl hv
      have e100 : aging 100 = 100 := by unfold aging; norm_num
      linarith
    · have ev : aging v = v := by unfold aging; rw [e, if_neg hv, mul_one]
      rw [eu, ev]
      linarith

theorem uncompacted_mono (s t : ℝ) (h : s ≤ t) : uncompacted s ≤ uncompacted t := by
  have := C31_monotone 0 (-10) s t 0 0 (by norm_num) (by norm_num) h _ _ _ _
    (by unfold piecewise; rw [if_pos rfl]) (by unfold piecewise; rw [if_pos rfl])
  simpa only [uncompacted, check_fst, check_snd] using this

/-- From -0.5 degrees up the uncompacted density rises by more than 10 per degree and is at least 197. -/
theorem uncompacted_steep (s t : ℝ) (hs : -(1 / 2) ≤ s) (h : s ≤ t) :
    102 / 10 * (t - s) ≤ uncompacted t - uncompacted s ∧ 197 ≤ uncompacted s := by
  have ms : max (-10) s = s := max_eq_right (by linarith)
  have mt : max (-10) t = t := max_eq_right (by linarith)
  unfold uncompacted density
  rw [ms, mt, sub_zero, sub_zero]
  set e := exponent 0 (-10) (min 0 s) with he
  set e' := exponent 0 (-10) (min 0 t) with he'
  have hm := exponent_mono 0 (-10) (min 0 s) (min 0 t) (by norm_num) (min_le_min_left _ h)
  rw [← he, ← he'] at hm
  have e17 : 17 / 10 ≤ e := by
    rw [he]
    unfold exponent
    simp only
    have : -(1 / 2) ≤ min 0 s := le_min (by norm_num) hs
    split <;> linarith
  have s15 : 29 / 2 ≤ s + 15 := by linarith
  have root : (6 : ℝ) ≤ (29 / 2 : ℝ) ^ (7 / 10 : ℝ) := by
    have k : (6 : ℝ) ^ (10 : ℝ) ≤ (29 / 2 : ℝ) ^ (7 : ℝ) := by
      rw [show (10 : ℝ) = ((10 : ℕ) : ℝ) by norm_num, show (7 : ℝ) = ((7 : ℕ) : ℝ) by norm_num, Real.rpow_natCast, Real.rpow_natCast]
      norm_num
    have k2 := Real.rpow_le_rpow (by positivity) k (show (0 : ℝ) ≤ 1 / 10 by norm_num)
    rw [← Real.rpow_mul (by norm_num), ← Real.rpow_mul (by norm_num)] at k2
    norm_num at k2
    exact k2
  have pw : 6 ≤ (s + 15) ^ (e - 1) := by
    have k1 : (29 / 2 : ℝ) ^ (7 / 10 : ℝ) ≤ (s + 15) ^ (7 / 10 : ℝ) := Real.rpow_le_rpow (by norm_num) s15 (by norm_num)
    have k2 : (s + 15) ^ (7 / 10 : ℝ) ≤ (s + 15) ^ (e - 1) := Real.rpow_le_rpow_of_exponent_le (by linarith) (by linarith)
    linarith
  have f1 : (s + 15) ^ e = (s + 15) ^ (e - 1) * (s + 15) := by
    rw [Real.rpow_sub_one (by linarith), div_mul_cancel₀ _ (by linarith)]
  have f2 : (t + 15) ^ e = (t + 15) ^ (e - 1) * (t + 15) := by
    rw [Real.rpow_sub_one (by linarith), div_mul_cancel₀ _ (by linarith)]
  have g1 : (s + 15) ^ (e - 1) ≤ (t + 15) ^ (e - 1) := Real.rpow_le_rpow (by linarith) (by linarith) (by linarith)
  have g2 : (t + 15) ^ e ≤ (t + 15) ^ e' := Real.rpow_le_rpow_of_exponent_le (by linarith) hm
  have g3 : (s + 15) ^ (e - 1) * (t + 15) ≤ (t + 15) ^ (e - 1) * (t + 15) := mul_le_mul_of_nonneg_right g1 (by linarith)
  have g4 : 6 * (t - s) ≤ (s + 15) ^ (e - 1) * (t - s) := mul_le_mul_of_nonneg_right pw (by linarith)
  have g5 : 6 * (s + 15) ≤ (s + 15) ^ (e - 1) * (s + 15) := mul_le_mul_of_nonneg_right pw (by linarith)
  constructor
  · linarith
  · linarith

theorem fraction_anti (s t : ℝ) (h : s ≤ t) : fraction t ≤ fraction s :=
  C30_antitone 0 _ _ (by norm_num) (max_le_max_left _ h)

theorem snowTemp_mono (s t : ℝ) (h : s ≤ t) : snowTemp s ≤ snowTemp t := min_le_min_left _ (max_le_max_left _ h)

/-- The three parts of the density. -/
theorem settled_eq (t pp : ℝ) : settled t pp = uncompacted t
    + 26 / 1000 * pp * Real.exp (-(8 / 100) * (0 - snowTemp t)) * (fraction t * (uncompacted t * Real.exp (-21 * (uncompacted t / 1000))))
    + 1 / 100 * (Real.exp (-(4 / 100) * (0 - snowTemp t)) * aging (uncompacted t)) := by
  unfold settled overburden metamorphism aging
  ring

/-- The density rises with the temperature where the fraction of snow falls slowly enough. -/
theorem settled_step (s t pp : ℝ) (h : s ≤ t) (h0 : 0 ≤ pp) (h50 : pp ≤ 50)
    (hf : (fraction s - fraction t) * (uncompacted s * Real.exp (-21 * (uncompacted s / 1000))) * (13 / 10)
      ≤ 473 / 1000 * (uncompacted t - uncompacted s)) : settled s pp ≤ settled t pp := by
  rw [settled_eq, settled_eq]
  have uv := uncompacted_mono s t h
  have u0 : 0 ≤ uncompacted s := by linarith [uncompacted_ge s]
  have v0 : 0 ≤ uncompacted t := u0.trans uv
  have hb := burden_ebb _ _ uv u0
  have ha := aging_ebb _ _ u0 uv
  have ag := aging_nonneg _ v0
  have ff := fraction_anti s t h
  have ft := fraction_range t
  have st := snowTemp_mono s t h
  have sneg : snowTemp s ≤ 0 := min_le_left _ _
  have E1 : Real.exp (-(8 / 100) * (0 - snowTemp s)) ≤ Real.exp (-(8 / 100) * (0 - snowTemp t)) := Real.exp_le_exp.2 (by linarith)
  have E2 : Real.exp (-(8 / 100) * (0 - snowTemp s)) ≤ 1 := Real.exp_le_one_iff.2 (by linarith)
  have E3 : Real.exp (-(4 / 100) * (0 - snowTemp s)) ≤ Real.exp (-(4 / 100) * (0 - snowTemp t)) := Real.exp_le_exp.2 (by linarith)
  have E4 : Real.exp (-(4 / 100) * (0 - snowTemp s)) ≤ 1 := Real.exp_le_one_iff.2 (by linarith)
  have E5 := Real.exp_pos (-(8 / 100) * (0 - snowTemp s))
  have E6 := Real.exp_pos (-(4 / 100) * (0 - snowTemp s))
  have hu0 : 0 ≤ uncompacted s * Real.exp (-21 * (uncompacted s / 1000)) := mul_nonneg u0 (Real.exp_pos _).le
  have hv0 : 0 ≤ uncompacted t * Real.exp (-21 * (uncompacted t / 1000)) := mul_nonneg v0 (Real.exp_pos _).le
  generalize Real.exp (-(8 / 100) * (0 - snowTemp s)) = a at *
  generalize Real.exp (-(8 / 100) * (0 - snowTemp t)) = a' at *
  generalize Real.exp (-(4 / 100) * (0 - snowTemp s)) = c at *
  generalize Real.exp (-(4 / 100) * (0 - snowTemp t)) = c' at *
  generalize uncompacted s * Real.exp (-21 * (uncompacted s / 1000)) = hu at *
  generalize uncompacted t * Real.exp (-21 * (uncompacted t / 1000)) = hv at *
  generalize aging (uncompacted s) = gu at *
  generalize aging (uncompacted t) = gv at *
  generalize uncompacted s = u at *
  generalize uncompacted t = v at *
  generalize fraction s = f at *
  generalize fraction t = f' at *
  -- metamorphism
  have m1 : c * gv ≤ c' * gv := mul_le_mul_of_nonneg_right E3 ag
  have m2 : c * (gu - gv) ≤ c * (46 / 10 * (v - u)) := mul_le_mul_of_nonneg_left ha E6.le
  have m3 : c * (46 / 10 * (v - u)) ≤ 1 * (46 / 10 * (v - u)) := mul_le_mul_of_nonneg_right E4 (by linarith)
  -- overburden
  set q := 26 / 1000 * pp with hq
  have q0 : 0 ≤ q := by rw [hq]; linarith
  have q1 : q ≤ 13 / 10 := by rw [hq]; linarith
  have o1 : q * a * (f' * hv) ≤ q * a' * (f' * hv) :=
    mul_le_mul_of_nonneg_right (mul_le_mul_of_nonneg_left E1 q0) (mul_nonneg ft.1 hv0)
  have o2 : f' * (hu - hv) ≤ f' * (37 / 100 * (v - u)) := mul_le_mul_of_nonneg_left hb ft.1
  have o3 : f' * (37 / 100 * (v - u)) ≤ 1 * (37 / 100 * (v - u)) := mul_le_mul_of_nonneg_right ft.2 (by linarith)
  have L0 : 0 ≤ (f - f') * hu := mul_nonneg (by linarith) hu0
  have o4 : f * hu - f' * hv ≤ 37 / 100 * (v - u) + (f - f') * hu := by linarith
  have qa0 : 0 ≤ q * a := mul_nonneg q0 E5.le
  have qa1 : q * a ≤ 13 / 10 := by nlinarith
  have o5 : q * a * (f * hu - f' * hv) ≤ q * a * (37 / 100 * (v - u) + (f - f') * hu) := mul_le_mul_of_nonneg_left o4 qa0
  have o6 : q * a * (37 / 100 * (v - u) + (f - f') * hu) ≤ 13 / 10 * (37 / 100 * (v - u) + (f - f') * hu) :=
    mul_le_mul_of_nonneg_right qa1 (by linarith)
  linarith

theorem burden_small (u : ℝ) (h : 197 ≤ u) : u * Real.exp (-21 * (u / 1000)) ≤ 36 / 10 := by
  have k := ebb_peak 4 (21 / 1000 * u) (by norm_num) (by linarith)
  have e : Real.exp (-(21 / 1000 * u - 4)) = Real.exp 4 * Real.exp (-21 * (u / 1000)) := by
    rw [← Real.exp_add]; congr 1; ring
  have e4 : 54 ≤ Real.exp 4 := by
    have h1 := Real.exp_one_gt_d9
    have : Real.exp 4 = Real.exp 1 ^ 4 := by rw [← Real.exp_nat_mul]; norm_num
    rw [this]
    calc (54 : ℝ) ≤ 2.7182818283 ^ 4 := by norm_num
      _ ≤ Real.exp 1 ^ 4 := pow_le_pow_left₀ (by norm_num) h1.le 4
  rw [e] at k
  have p : 0 ≤ u * Real.exp (-21 * (u / 1000)) := mul_nonneg (by linarith) (Real.exp_pos _).le
  have k2 := mul_le_mul_of_nonneg_right e4 p
  nlinarith

theorem settled_warm (s t pp : ℝ) (hs : -(1 / 2) ≤ s) (h : s ≤ t) (h0 : 0 ≤ pp) (h50 : pp ≤ 50) : settled s pp ≤ settled t pp := by
  apply settled_step s t pp h h0 h50
  obtain ⟨k1, k2⟩ := uncompacted_steep s t hs h
  have k3 := burden_small _ k2
  have k4 := C30_no_jumps (0 : ℝ) (max (-10) s) (max (-10) t) (by norm_num)
  rw [max_eq_right (show (-10 : ℝ) ≤ s by linarith), max_eq_right (show (-10 : ℝ) ≤ t by linarith),
    abs_of_nonpos (sub_nonpos.2 h)] at k4
  have k5 : max (1 / 2 : ℝ) (3 / 4 / (0 + 1)) = 3 / 4 := by norm_num
  rw [k5] at k4
  have k6 : fraction s - fraction t ≤ 3 / 4 * (t - s) := by
    unfold fraction
    rw [max_eq_right (show (-10 : ℝ) ≤ s by linarith), max_eq_right (show (-10 : ℝ) ≤ t by linarith)]
    have := le_abs_self (percentSnow (0 : ℝ) s - percentSnow 0 t)
    linarith
  have p : 0 ≤ uncompacted s * Real.exp (-21 * (uncompacted s / 1000)) := mul_nonneg (by linarith) (Real.exp_pos _).le
  have d := sub_nonneg.2 (fraction_anti s t h)
  have k7 : (fraction s - fraction t) * (uncompacted s * Real.exp (-21 * (uncompacted s / 1000))) ≤ 3 / 4 * (t - s) * (36 / 10) :=
    mul_le_mul k6 k3 p (by linarith)
  linarith

theorem fraction_cold' (t : ℝ) (h : t ≤ -(1 / 2)) : fraction t = 1 :=
  ps_cold _ _ (max_le (by norm_num) (by linarith))

theorem settled_mono (s t pp : ℝ) (h : s ≤ t) (h0 : 0 ≤ pp) (h50 : pp ≤ 50) : settled s pp ≤ settled t pp := by
  have cold : ∀ a b : ℝ, a ≤ b → b ≤ -(1 / 2) → settled a pp ≤ settled b pp := by
    intro a b hab hb
    apply settled_step a b pp hab h0 h50
    rw [fraction_cold' a (hab.trans hb), fraction_cold' b hb, sub_self, zero_mul, zero_mul]
    linarith [uncompacted_mono a b hab]
  rcases le_total t (-(1 / 2)) with h1 | h1
  · exact cold s t h h1
  · rcases le_total s (-(1 / 2)) with h2 | h2
    · exact (cold s _ h2 le_rfl).trans (settled_warm _ t pp le_rfl h1 h0 h50)
    · exact settled_warm s t pp h2 h h0 h50

/-- C178 in full: where it still snows in warmer air, the new snow is no lighter. -/
def C178_full : Prop :=
  ∀ (ι : Type) (_ : Fintype ι) (m : String) (temp temp' precip : ι → ℝ) (r r' : (ι → ℝ) × (ι → ℝ)), (∀ i, 0 ≤ precip i) →
    phaseAndDensity temp precip m = .ok r → phaseAndDensity temp' precip m = .ok r' →
    ∀ i, temp i ≤ temp' i → 0 < precip i → 0 < r'.2 i → r.1 i ≤ r'.1 i

variable {ι : Type} [Fintype ι]

theorem documented_mono (s t : ℝ) (h : s ≤ t) (hp : 0 < (documented t).1) : (documented s).2 ≤ (documented t).2 := by
  unfold documented at *
  split_ifs at * <;> norm_num at * <;> linarith

theorem model_known {temp precip : ι → ℝ} {m : String} {r : (ι → ℝ) × (ι → ℝ)} (h : phaseAndDensity temp precip m = .ok r) : KnownModel m := by
  by_contra hn
  rw [(C81_known temp precip m).2 hn] at h
  cases h

theorem marks_fraction {temp precip : ι → ℝ} {r : (ι → ℝ) × (ι → ℝ)} (h : phaseAndDensity temp precip "marks2017" = .ok r)
    (i : ι) (hp : 0 < precip i) : r.2 i = fraction (temp i) := by
  unfold phaseAndDensity at h
  rw [if_neg (by decide), if_neg (by decide), if_pos rfl] at h
  cases h
  exact marks_pcs temp precip ⟨i, hp⟩ i

/-- Where it still snows in warmer air, the new snow is no lighter: all three models, for the Marks 2017 model up to 50 mm
of precipitation in a step. The other cells may be anything. Missing: more than 50 mm in a step (`C178_heavy_fails`). -/
theorem C178_warmer_partial (m : String) (temp temp' precip : ι → ℝ) (r r' : (ι → ℝ) × (ι → ℝ)) (hp : ∀ i, 0 ≤ precip i)
    (h : phaseAndDensity temp precip m = .ok r) (h' : phaseAndDensity temp' precip m = .ok r') (i : ι) (ht : temp i ≤ temp' i)
    (hpos : 0 < precip i) (hs : 0 < r'.2 i) (h50 : m = "marks2017" → precip i ≤ 50) : r.1 i ≤ r'.1 i := by
  obtain ⟨a1, a2, a3⟩ := C81_density temp precip hp m r h i hpos
  obtain ⟨b1, b2, b3⟩ := C81_density temp' precip hp m r' h' i hpos
  rcases model_known h with rfl | rfl | rfl
  · rw [(a1 rfl).1, (b1 rfl).1]
    rw [(b1 rfl).2] at hs
    exact documented_mono _ _ ht hs
  · exact C31_monotone 0 (-10) _ _ _ _ (by norm_num) (by norm_num) ht _ _ _ _ (a2 rfl) (b2 rfl)
  · rw [marks_fraction h' i hpos] at hs
    rw [a3 rfl (lt_of_lt_of_le hs (fraction_anti _ _ ht)), b3 rfl hs]
    exact settled_mono _ _ _ ht hpos.le (h50 rfl)

/-- With more precipitation at the same temperature the new snow is no lighter, and in the Marks 2017 model heavier. -/
theorem C178_amount (m : String) (temp temp' precip precip' : ι → ℝ) (r r' : (ι → ℝ) × (ι → ℝ)) (hp : ∀ i, 0 ≤ precip i) (hp' : ∀ i, 0 ≤ precip' i)
    (h : phaseAndDensity temp precip m = .ok r) (h' : phaseAndDensity temp' precip' m = .ok r') (i : ι) (ht : temp' i = temp i)
    (hpos : 0 < precip i) (hle : precip i ≤ precip' i) (hs : 0 < r.2 i) :
    r.1 i ≤ r'.1 i ∧ (m = "marks2017" → precip i < precip' i → r.1 i < r'.1 i) := by
  have hpos' := lt_of_lt_of_le hpos hle
  obtain ⟨a1, a2, a3⟩ := C81_density temp precip hp m r h i hpos
  obtain ⟨b1, b2, b3⟩ := C81_density temp' precip' hp' m r' h' i hpos'
  rcases model_known h with rfl | rfl | rfl
  · rw [(a1 rfl).1, (b1 rfl).1, ht]
    exact ⟨le_rfl, fun h => absurd h (by decide)⟩
  · exact ⟨C31_monotone 0 (-10) _ _ _ _ (by norm_num) (by norm_num) ht.ge _ _ _ _ (a2 rfl) (b2 rfl), fun h => absurd h (by decide)⟩
  · rw [marks_fraction h i hpos] at hs
    rw [a3 rfl hs, b3 rfl (by rw [ht]; exact hs), ht]
    have u0 : 0 < uncompacted (temp i) := by linarith [uncompacted_ge (temp i)]
    have e : ∀ p, overburden (temp i) p = p * (26 / 1000 * Real.exp (-(8 / 100) * (0 - snowTemp (temp i))) * fraction (temp i) *
        Real.exp (-21 * (uncompacted (temp i) / 1000))) := by intro p; unfold overburden; ring
    have k : 0 < 26 / 1000 * Real.exp (-(8 / 100) * (0 - snowTemp (temp i))) * fraction (temp i) *
        Real.exp (-21 * (uncompacted (temp i) / 1000)) := by positivity
    rw [e, e]
    refine ⟨mul_le_mul_of_nonneg_left ?_ u0.le, fun _ hlt => mul_lt_mul_of_pos_left ?_ u0⟩
    · have := mul_le_mul_of_nonneg_right hle k.le
      linarith
    · have := mul_lt_mul_of_pos_right hlt k
      linarith

theorem uncompacted_ten : uncompacted (-10) = 117 / 2 := by
  unfold uncompacted density exponent
  norm_num

theorem uncompacted_zero : 240 ≤ uncompacted 0 ∧ uncompacted 0 ≤ 246 := by
  have e : uncompacted 0 = 50 + 17 / 10 * (15 : ℝ) ^ (7 / 4 : ℝ) := by
    unfold uncompacted density exponent
    norm_num
  have p4 : ((15 : ℝ) ^ (7 / 4 : ℝ)) ^ 4 = 15 ^ 7 := by
    rw [← Real.rpow_natCast, ← Real.rpow_mul (by norm_num)]
    norm_num
  have p0 : 0 ≤ (15 : ℝ) ^ (7 / 4 : ℝ) := Real.rpow_nonneg (by norm_num) _
  have l : 114 ≤ (15 : ℝ) ^ (7 / 4 : ℝ) := by
    by_contra hn
    have := pow_lt_pow_left₀ (not_le.1 hn) p0 (n := 4) (by norm_num)
    rw [p4] at this
    norm_num at this
  have u : (15 : ℝ) ^ (7 / 4 : ℝ) ≤ 115 := by
    by_contra hn
    have := pow_lt_pow_left₀ (not_le.1 hn) (by norm_num) (n := 4) (by norm_num)
    rw [p4] at this
    norm_num at this
  rw [e]
  constructor <;> linarith

/-- Above 1200 mm in a step, however many cells and whatever falls on the others, the Marks 2017 model has the snow of a
cell at the freezing point lighter than that at -10 degrees. -/
theorem C178_heavy_fails (temp temp' precip : ι → ℝ) (r r' : (ι → ℝ) × (ι → ℝ)) (hp : ∀ i, 0 ≤ precip i)
    (h : phaseAndDensity temp precip "marks2017" = .ok r) (h' : phaseAndDensity temp' precip "marks2017" = .ok r') (i : ι)
    (ht : temp i = -10) (ht' : temp' i = 0) (hpos : 1200 ≤ precip i) : r'.2 i = 3 / 4 ∧ r'.1 i < r.1 i := by
  have p0 : 0 < precip i := by linarith
  have f0 : fraction 0 = 3 / 4 := by
    unfold fraction
    rw [max_eq_right (by norm_num), ps_mid _ _ (by norm_num) le_rfl]
    norm_num
  have f10 : fraction (-10) = 1 := fraction_cold' _ (by norm_num)
  have a3 := (C81_density temp precip hp _ r h i p0).2.2 rfl (by rw [ht, f10]; norm_num)
  have b3 := (C81_density temp' precip hp _ r' h' i p0).2.2 rfl (by rw [ht', f0]; norm_num)
  refine ⟨by rw [marks_fraction h' i p0, ht', f0], ?_⟩
  rw [ht] at a3
  rw [ht'] at b3
  have A : r.1 i = settled (-10) (precip i) := a3
  have B : r'.1 i = settled 0 (precip i) := b3
  rw [A, B, settled_eq, settled_eq, f0, f10, uncompacted_ten]
  obtain ⟨u1, u2⟩ := uncompacted_zero
  have s0 : snowTemp 0 = 0 := by unfold snowTemp; norm_num
  have s10 : snowTemp (-10) = -10 := by unfold snowTemp; norm_num
  rw [s0, s10]
  have hE := Real.exp_one_lt_d9
  have hE' := Real.exp_one_gt_d9
  have pe := Real.exp_pos 1
  -- the cold cell
  have c1 : (13 / 100 : ℝ) ≤ Real.exp (-(8 / 100) * (0 - -10)) * Real.exp (-21 * (117 / 2 / 1000)) := by
    rw [← Real.exp_add]
    have k : Real.exp (-(203 / 100)) ≤ Real.exp (-(8 / 100) * (0 - -10) + -21 * (117 / 2 / 1000)) := Real.exp_le_exp.2 (by norm_num)
    have k2 : Real.exp (203 / 100) ≤ 100 / 13 := by
      have e : Real.exp (203 / 100) = Real.exp 1 ^ 2 * Real.exp (3 / 100) := by
        rw [← Real.exp_nat_mul, ← Real.exp_add]; norm_num
      have e3 : Real.exp (3 / 100) ≤ 100 / 97 := by
        have := Real.add_one_le_exp (-(3 / 100 : ℝ))
        have pp := Real.exp_pos (3 / 100 : ℝ)
        have e1 : Real.exp (-(3 / 100 : ℝ)) * Real.exp (3 / 100) = 1 := by rw [← Real.exp_add]; simp
        rw [le_div_iff₀ (by norm_num)]
        nlinarith
      rw [e]
      have sq : Real.exp 1 ^ 2 ≤ 739 / 100 := by nlinarith
      calc Real.exp 1 ^ 2 * Real.exp (3 / 100) ≤ 739 / 100 * (100 / 97) :=
            mul_le_mul sq e3 (Real.exp_pos _).le (by norm_num)
        _ ≤ 100 / 13 := by norm_num
    have k3 : (13 / 100 : ℝ) ≤ Real.exp (-(203 / 100)) := by
      rw [Real.exp_neg, le_inv_comm₀ (by norm_num) (Real.exp_pos _)]
      linarith
    linarith
  have c2 : 0 ≤ Real.exp (-(4 / 100) * (0 - -10)) * aging (117 / 2) := mul_nonneg (Real.exp_pos _).le (aging_nonneg _ (by norm_num))
  -- the warm cell
  have d1 : Real.exp (-21 * (uncompacted 0 / 1000)) ≤ 7 / 1000 := by
    have k : Real.exp (-21 * (uncompacted 0 / 1000)) ≤ Real.exp (-5) := Real.exp_le_exp.2 (by linarith)
    have k2 : Real.exp (-5) = (Real.exp 1 ^ 5)⁻¹ := by rw [← Real.exp_nat_mul, ← Real.exp_neg]; norm_num
    have k3 : (1000 / 7 : ℝ) ≤ Real.exp 1 ^ 5 := by
      calc (1000 / 7 : ℝ) ≤ 2.7182818283 ^ 5 := by norm_num
        _ ≤ Real.exp 1 ^ 5 := pow_le_pow_left₀ (by norm_num) hE'.le 5
    have k4 : (Real.exp 1 ^ 5)⁻¹ ≤ 7 / 1000 := by
      rw [inv_le_comm₀ (by positivity) (by norm_num)]
      linarith
    linarith
  have d2 : aging (uncompacted 0) ≤ uncompacted 0 := by
    unfold aging
    apply mul_le_of_le_one_right (by linarith)
    split
    · apply Real.exp_le_one_iff.2
      linarith
    · exact le_rfl
  have d3 : uncompacted 0 * Real.exp (-21 * (uncompacted 0 / 1000)) ≤ 246 * (7 / 1000) :=
    mul_le_mul u2 d1 (Real.exp_pos _).le (by norm_num)
  simp only [sub_zero, mul_zero, Real.exp_zero, one_mul, mul_one]
  have w1 : 26 / 1000 * precip i * (3 / 4 * (uncompacted 0 * Real.exp (-21 * (uncompacted 0 / 1000)))) ≤
      26 / 1000 * precip i * (3 / 4 * (246 * (7 / 1000))) := mul_le_mul_of_nonneg_left (by linarith) (by linarith)
  have w2 : 26 / 1000 * precip i * (117 / 2) * (13 / 100) ≤ 26 / 1000 * precip i * (117 / 2) *
      (Real.exp (-(8 / 100) * (0 - -10)) * Real.exp (-21 * (117 / 2 / 1000))) := mul_le_mul_of_nonneg_left c1 (by positivity)
  linarith

theorem C178_fails : ¬ C178_full := by
  intro hall
  obtain ⟨r, hr⟩ := (C81_known (ι := Unit) (fun _ => -10) (fun _ => 1200) "marks2017").1 (.inr (.inr rfl))
  obtain ⟨r', hr'⟩ := (C81_known (ι := Unit) (fun _ => 0) (fun _ => 1200) "marks2017").1 (.inr (.inr rfl))
  obtain ⟨k1, k2⟩ := C178_heavy_fails (fun _ => -10) (fun _ => 0) (fun _ => 1200) r r' (fun _ => by norm_num) hr hr' () rfl rfl le_rfl
  exact absurd (hall Unit _ "marks2017" _ _ _ r r' (fun _ => by norm_num) hr hr' () (by norm_num) (by norm_num) (by rw [k1]; norm_num)) (not_le.2 k2)

/-! ### The hypotheses are met -/

/-- Two cells with 20 mm, one two degrees warmer in the second run: the snow there is no lighter. -/
example : ∃ r r' : (Bool → ℝ) × (Bool → ℝ), phaseAndDensity (fun _ => -5) (fun _ => 20) "marks2017" = .ok r ∧
    phaseAndDensity (fun b => if b then -3 else -5) (fun _ => 20) "marks2017" = .ok r' ∧ r.1 true ≤ r'.1 true := by
  obtain ⟨r, hr⟩ := (C81_known (ι := Bool) (fun _ => -5) (fun _ => 20) "marks2017").1 (.inr (.inr rfl))
  obtain ⟨r', hr'⟩ := (C81_known (ι := Bool) (fun b => if b then -3 else -5) (fun _ => 20) "marks2017").1 (.inr (.inr rfl))
  refine ⟨r, r', hr, hr', C178_warmer_partial "marks2017" _ _ _ r r' (fun _ => by norm_num) hr hr' true (by norm_num) (by norm_num) ?_
    (fun _ => by norm_num)⟩
  rw [marks_fraction hr' true (by norm_num), if_pos rfl, fraction_cold' _ (by norm_num)]
  norm_num

/-- Twice the precipitation. -/
example : ∃ r r' : (Bool → ℝ) × (Bool → ℝ), phaseAndDensity (fun _ => -5) (fun _ => 20) "marks2017" = .ok r ∧
    phaseAndDensity (fun _ => -5) (fun _ => 40) "marks2017" = .ok r' ∧ r.1 true < r'.1 true := by
  obtain ⟨r, hr⟩ := (C81_known (ι := Bool) (fun _ => -5) (fun _ => 20) "marks2017").1 (.inr (.inr rfl))
  obtain ⟨r', hr'⟩ := (C81_known (ι := Bool) (fun _ => -5) (fun _ => 40) "marks2017").1 (.inr (.inr rfl))
  refine ⟨r, r', hr, hr', (C178_amount "marks2017" _ _ _ _ r r' (fun _ => by norm_num) (fun _ => by norm_num) hr hr' true rfl (by norm_num)
    (by norm_num) ?_).2 rfl (by norm_num)⟩
  rw [marks_fraction hr true (by norm_num), fraction_cold' _ (by norm_num)]
  norm_num

end Verif.Nasde
