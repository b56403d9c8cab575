import Verif.RunLemmas
import Verif.NasdeProps
import Verif.VaporDecay

/-! C175: how dew point and snow respond to the moisture of the air
(`smrf/distribute/vapor_pressure.py:104-164`, `smrf/envphys/core/dewpt.c`). -/

namespace Verif.Run
open Verif.Vapor

/-- The vapor pressure is that of saturation at `T` kelvin, in the range left by the default limits of the
configuration (20 Pa and up). -/
structure SaturatedAt (e T : ℝ) : Prop where
  pos : 0 < T
  hot : T ≤ 380
  eq : e = sat T
  low : 20 ≤ e
  high : e ≤ 3 / 2 * seaLevel

/-- More rounds of the bracketing loops do not change a result. -/
theorem dewPoint_mono {n : Nat} {e m t : ℝ} {r : Dewpoint.Result} (k : Nat)
    (h : Dewpoint.dewPoint n e m t = some r) : Dewpoint.dewPoint (n + k) e m t = some r := by
  unfold Dewpoint.dewPoint at h ⊢
  cases ha : Dewpoint.lowerLoop e n freeze with
  | none => rw [ha] at h; cases h
  | some a =>
    rw [ha] at h
    cases hb : Dewpoint.upperLoop e n (freeze + 15) with
    | none => rw [hb] at h; cases h
    | some b =>
      rw [hb] at h
      rw [Dewpoint.lowerLoop_mono e n k _ a ha, Dewpoint.upperLoop_mono e n k _ b hb]
      exact h

/-- How far the solver may be off: twice the tolerance and a little for the last digits. -/
noncomputable def slack (tol : ℝ) : ℝ := 2 * tol + 1 / 10 ^ 12

/-- Whenever the solver ends, the result is within the slack of the true dew point. -/
theorem dew_near {n : Nat} {tol e T r : ℝ} (ht : 1 / 10000 ≤ tol) (ht2 : tol ≤ 10)
    (hs : SaturatedAt e T) (h : dewCelsius n tol e = some r) : |r - (T - freeze)| < slack tol := by
  obtain ⟨h0, h1, rfl, h20, hhi⟩ := hs
  obtain ⟨N, x, q1, q2⟩ := Dewpoint.C43_range_partial T tol h0 (by linarith) h20 hhi ht ht2
  unfold dewCelsius at h
  cases hd : Dewpoint.dewPoint n (sat T) eps tol with
  | none => rw [hd] at h; cases h
  | some R =>
    rw [hd] at h
    have e1 := dewPoint_mono N hd
    have e2 : Dewpoint.dewPoint (n + N) (sat T) eps tol = some (.root x) := q1 (n + N) (Nat.le_add_left _ _)
    rw [e2] at e1
    cases e1
    simp only [Option.map_some, Option.some.injEq] at h
    have hx : |x| ≤ 1000 := by
      have a1 : |x| ≤ |x - T| + |T| := by
        have := abs_add_le (x - T) T
        rwa [sub_add_cancel] at this
      rw [abs_of_pos h0] at a1
      nlinarith
    rw [← h, show x - freeze - (T - freeze) = x - T by ring]
    unfold slack
    have : 22204460492503131 / 10 ^ 32 * |x| ≤ 22204460492503131 / 10 ^ 32 * 1000 :=
      mul_le_mul_of_nonneg_left hx (by norm_num)
    have h3 : (22204460492503131 : ℝ) / 10 ^ 32 * 1000 ≤ 1 / 4 * (1 / 10 ^ 12) := by norm_num
    linarith

variable {ι : Type} [Fintype ι]

/-- C175 as stated: where the air holds more vapor at the same temperature, the dew point is no lower,
up to the error of the solver in both. -/
def C175_full : Prop :=
  ∀ (n n' : Nat) (tol : ℝ) (vp vp' ta d d' : Unit → ℝ) (T T' : ℝ), 1 / 10000 ≤ tol → tol ≤ 1 / 100 →
    SaturatedAt (vp ()) T → SaturatedAt (vp' ()) T' → T ≤ T' →
    dewImage n tol vp ta = some d → dewImage n' tol vp' ta = some d' →
    d () ≤ d' () + 2 * slack tol

/-- Moister air: as long as the moister air is not taken for supersaturated, the dew point follows the vapor
up to the slack in both results, and strictly when the true dew points are further apart. Missing: cells
where the computed dew point reaches the air temperature (`C175_clip_fails`). -/
theorem C175_dew_partial (n n' : Nat) (tol : ℝ) (vp vp' ta d d' : ι → ℝ) (i : ι) (T T' : ℝ)
    (ht : 1 / 10000 ≤ tol) (ht2 : tol ≤ 10) (hs : SaturatedAt (vp i) T) (hs' : SaturatedAt (vp' i) T')
    (hT : T ≤ T') (hd : dewImage n tol vp ta = some d) (hd' : dewImage n' tol vp' ta = some d')
    (hdry : T' - freeze + slack tol ≤ ta i) :
    d i ≤ d' i + 2 * slack tol ∧ (T + 2 * slack tol ≤ T' → d i < d' i) := by
  obtain ⟨r, hr, e⟩ := dewImage_some hd i
  obtain ⟨r', hr', e'⟩ := dewImage_some hd' i
  have a := abs_lt.1 (dew_near ht ht2 hs hr)
  have a' := abs_lt.1 (dew_near ht ht2 hs' hr')
  have h1 : ¬ ta i ≤ r := by intro h; linarith [a.1, a.2]
  have h2 : ¬ ta i ≤ r' := by intro h; linarith [a'.1, a'.2]
  rw [if_neg h1] at e
  rw [if_neg h2] at e'
  rw [e, e']
  exact ⟨by linarith [a.1, a.2, a'.1, a'.2], fun h => by linarith [a.1, a.2, a'.1, a'.2]⟩

/-- Without that restriction: moister air lowers the dew point by less than 0.2 degrees, or by the error of the
solver if that is larger. -/
theorem C175_drop (n n' : Nat) (tol : ℝ) (vp vp' ta d d' : ι → ℝ) (i : ι) (T T' : ℝ)
    (ht : 1 / 10000 ≤ tol) (ht2 : tol ≤ 10) (hs : SaturatedAt (vp i) T) (hs' : SaturatedAt (vp' i) T')
    (hT : T ≤ T') (hd : dewImage n tol vp ta = some d) (hd' : dewImage n' tol vp' ta = some d') :
    d i < d' i + max (2 / 10) (2 * slack tol) := by
  obtain ⟨r, hr, e⟩ := dewImage_some hd i
  obtain ⟨r', hr', e'⟩ := dewImage_some hd' i
  have a := abs_lt.1 (dew_near ht ht2 hs hr)
  have a' := abs_lt.1 (dew_near ht ht2 hs' hr')
  have m1 := le_max_left (2 / 10 : ℝ) (2 * slack tol)
  have m2 := le_max_right (2 / 10 : ℝ) (2 * slack tol)
  generalize max (2 / 10 : ℝ) (2 * slack tol) = m at m1 m2
  by_cases h1 : ta i ≤ r <;> by_cases h2 : ta i ≤ r' <;> simp only [h1, h2, if_true, if_false] at e e' <;>
    rw [e, e'] <;> linarith [a.1, a.2, a'.1, a'.2]

/-- A cell just below saturation: when it is moistened to saturation the dew point falls, because it is then set
to 0.2 degrees below the air temperature. -/
theorem C175_clip_fails (n n' : Nat) (tol : ℝ) (vp vp' ta d d' : ι → ℝ) (i : ι) (T T' : ℝ)
    (ht : 1 / 10000 ≤ tol) (ht2 : tol ≤ 10) (hs : SaturatedAt (vp i) T) (hs' : SaturatedAt (vp' i) T')
    (hd : dewImage n tol vp ta = some d) (hd' : dewImage n' tol vp' ta = some d')
    (h1 : ta i - 2 / 10 + slack tol ≤ T - freeze) (h2 : T - freeze + slack tol ≤ ta i)
    (h3 : ta i + slack tol ≤ T' - freeze) :
    d' i = ta i - 2 / 10 ∧ T - freeze - slack tol < d i ∧ d' i < d i := by
  obtain ⟨r, hr, e⟩ := dewImage_some hd i
  obtain ⟨r', hr', e'⟩ := dewImage_some hd' i
  have a := abs_lt.1 (dew_near ht ht2 hs hr)
  have a' := abs_lt.1 (dew_near ht ht2 hs' hr')
  have q1 : ¬ ta i ≤ r := by intro h; linarith [a.1, a.2]
  have q2 : ta i ≤ r' := by linarith [a'.1, a'.2]
  rw [if_neg q1] at e
  rw [if_pos q2] at e'
  rw [e, e']
  exact ⟨rfl, by linarith [a.1], by linarith [a.1]⟩

/-- Then snow appears: rain at a dew point above 0.5 degrees in air of at most 0.7 degrees becomes a quarter snow when the same
air is moistened to saturation. -/
theorem C175_snow_fails (n n' : Nat) (tol : ℝ) (vp vp' ta d d' : ι → ℝ) (p : ι → ℝ) (hp : ∀ i, 0 ≤ p i) (i : ι)
    (T T' : ℝ) (ht : 1 / 10000 ≤ tol) (ht2 : tol ≤ 10) (hs : SaturatedAt (vp i) T)
    (hs' : SaturatedAt (vp' i) T') (hd : dewImage n tol vp ta = some d) (hd' : dewImage n' tol vp' ta = some d')
    (h1 : 1 / 2 + slack tol ≤ T - freeze) (h2 : T - freeze + slack tol ≤ ta i)
    (h3 : ta i + slack tol ≤ T' - freeze) (h4 : ta i < 7 / 10) (hi : p i ≠ 0) :
    (Nasde.susong1999 (fun i => some (d i)) p i).1 = 0 ∧
      (Nasde.susong1999 (fun i => some (d' i)) p i).1 = 1 / 4 := by
  have hsl : 0 ≤ slack tol := by unfold slack; positivity
  obtain ⟨e1, e2, -⟩ := C175_clip_fails n n' tol vp vp' ta d d' i T T' ht ht2 hs hs' hd hd' (by linarith) h2 h3
  rw [Nasde.C29_documented d p hp i, Nasde.C29_documented d' p hp i, if_neg hi, if_neg hi]
  have b1 : 1 / 2 ≤ d i := by linarith
  have b2 : 0 ≤ d' i := by linarith
  have b3 : d' i < 1 / 2 := by linarith
  constructor
  · unfold Nasde.documented
    rw [if_neg (by linarith), if_neg (by linarith), if_neg (by linarith), if_neg (by linarith), if_neg (by linarith),
      if_neg (by linarith)]
  · unfold Nasde.documented
    rw [if_neg (by linarith), if_neg (by linarith), if_neg (by linarith), if_neg (by linarith), if_neg (by linarith),
      if_pos b3]

/-- Dew points from freezing to 300 K are in the range. -/
theorem saturatedAt (T : ℝ) (h1 : freeze ≤ T) (h2 : T < 300) : SaturatedAt (sat T) T := by
  have hF : freeze = 27316 / 100 := rfl
  have hf : sat freeze = 61071 / 100 := by
    unfold sat
    rw [if_neg (lt_irrefl _), satIce_freeze]
  have a1 : sat freeze ≤ sat T := by
    rcases eq_or_lt_of_le h1 with e | e
    · rw [e]
    · exact (C41_increasing _ _ freeze_pos e (by linarith)).le
  have a2 : sat T ≤ sat 300 := (C41_increasing _ _ (by linarith [freeze_pos]) h2 (by norm_num)).le
  have a3 := sat_300
  exact ⟨by linarith [freeze_pos], by linarith, rfl, by linarith, by unfold seaLevel; linarith⟩

/-- The solver ends on such an image. -/
theorem dewImage_ends (tol e : ℝ) (ta : Unit → ℝ) (ht : 1 / 10000 ≤ tol) {T : ℝ} (hs : SaturatedAt e T) :
    ∃ n d, dewImage n tol (fun _ => e) ta = some d := by
  obtain ⟨N, a, b, x, -, -, -, -, -, -, h⟩ := Dewpoint.C43_found e tol (by linarith [hs.low]) hs.high ht
  have h1 : ∀ i : Unit, dewCelsius N tol ((fun _ => e) i) = some (x - freeze) := by
    intro i
    unfold dewCelsius eps
    rw [(h N le_rfl).2.2]
    rfl
  refine ⟨N, fun i => if ta i ≤ x - freeze then ta i - 2 / 10 else x - freeze, ?_⟩
  unfold dewImage
  rw [collect_of (fun _ => x - freeze) h1]
  rfl

theorem C175_fails : ¬ C175_full := by
  intro h
  have hF : freeze = 27316 / 100 := rfl
  have s := saturatedAt (freeze + 55 / 100) (by linarith) (by rw [hF]; norm_num)
  have s' := saturatedAt (freeze + 65 / 100) (by linarith) (by rw [hF]; norm_num)
  obtain ⟨n, d, hd⟩ := dewImage_ends (1 / 100) _ (fun _ => 6 / 10) (by norm_num) s
  obtain ⟨n', d', hd'⟩ := dewImage_ends (1 / 100) _ (fun _ => 6 / 10) (by norm_num) s'
  have q := h n n' (1 / 100) _ _ _ d d' _ _ (by norm_num) (by norm_num) s s' (by linarith) hd hd'
  have hsl : slack (1 / 100) ≤ 21 / 1000 := by unfold slack; norm_num
  obtain ⟨e1, e2, -⟩ := C175_clip_fails n n' (1 / 100) _ _ _ d d' () _ _ (by norm_num) (by norm_num) s s' hd hd'
    (by linarith) (by linarith) (by linarith)
  linarith

/-- The cell of `C175_snow_fails`: air of 0.6 degrees, dew point 0.55 and then above the air temperature. -/
example : ∃ n n' d d', dewImage n (1 / 100) (fun _ : Unit => sat (freeze + 55 / 100)) (fun _ => 6 / 10) = some d ∧
    dewImage n' (1 / 100) (fun _ : Unit => sat (freeze + 65 / 100)) (fun _ => 6 / 10) = some d' ∧
    (Nasde.susong1999 (fun i => some (d i)) (fun _ => (5 : ℝ)) ()).1 = 0 ∧
    (Nasde.susong1999 (fun i => some (d' i)) (fun _ => (5 : ℝ)) ()).1 = 1 / 4 := by
  have hF : freeze = 27316 / 100 := rfl
  have s := saturatedAt (freeze + 55 / 100) (by linarith) (by rw [hF]; norm_num)
  have s' := saturatedAt (freeze + 65 / 100) (by linarith) (by rw [hF]; norm_num)
  obtain ⟨n, d, hd⟩ := dewImage_ends (1 / 100) _ (fun _ => 6 / 10) (by norm_num) s
  obtain ⟨n', d', hd'⟩ := dewImage_ends (1 / 100) _ (fun _ => 6 / 10) (by norm_num) s'
  have hsl : slack (1 / 100) ≤ 21 / 1000 := by unfold slack; norm_num
  exact ⟨n, n', d, d', hd, hd', C175_snow_fails n n' (1 / 100) _ _ _ d d' _ (fun _ => by norm_num) () _ _
    (by norm_num) (by norm_num) s s' hd hd' (by linarith) (by linarith) (by linarith) (by norm_num) (by norm_num)⟩

/-- Dry air of 10 degrees: dew points of 1 and 2 degrees meet the hypotheses of `C175_dew_partial` and `C175_drop`. -/
example : ∃ n n' d d', dewImage n (1 / 100) (fun _ : Unit => sat (freeze + 1)) (fun _ => 10) = some d ∧
    dewImage n' (1 / 100) (fun _ : Unit => sat (freeze + 2)) (fun _ => 10) = some d' ∧ d () < d' () ∧
    d () < d' () + max (2 / 10) (2 * slack (1 / 100)) := by
  have hF : freeze = 27316 / 100 := rfl
  have s := saturatedAt (freeze + 1) (by linarith) (by rw [hF]; norm_num)
  have s' := saturatedAt (freeze + 2) (by linarith) (by rw [hF]; norm_num)
  obtain ⟨n, d, hd⟩ := dewImage_ends (1 / 100) _ (fun _ => 10) (by norm_num) s
  obtain ⟨n', d', hd'⟩ := dewImage_ends (1 / 100) _ (fun _ => 10) (by norm_num) s'
  have hsl : slack (1 / 100) ≤ 21 / 1000 := by unfold slack; norm_num
  exact ⟨n, n', d, d', hd, hd',
    (C175_dew_partial n n' (1 / 100) _ _ _ d d' () _ _ (by norm_num) (by norm_num) s s' (by linarith) hd hd'
      (by linarith)).2 (by linarith),
    C175_drop n n' (1 / 100) _ _ _ d d' () _ _ (by norm_num) (by norm_num) s s' (by linarith) hd hd'⟩

end Verif.Run
