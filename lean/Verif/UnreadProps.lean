import Verif.Unread
import Mathlib.Tactic.NormNum
import Mathlib.Tactic.Linarith
import Mathlib.Algebra.BigOperators.Fin

/-!
C150: an item of the configuration has the effect that its description gives.

The two descriptions: `marks2017_timesteps_to_end_storms` and `susong1999_timesteps_to_end_storms` are each "number of
timesteps to elapse with precip under start criteria before ending a storm" for the model in their name, and
`correct_albedo` is "Multiply the solar radiation by 1-snow_albedo".
-/

namespace Verif.Unread

open scoped BigOperators
open Precip (PCfg PEnv PIn PState pptStep susongStep)

/-- The item of the other model does not matter. -/
def C150_full (ι D : Type) [Fintype ι] : Prop :=
  ∀ (c : Rain) (n : Nat) (env : PEnv ι D) (s : PState ι) (inputs : List (PIn ι D)),
    (c.marks = false → run { c with marksSteps := n } env s inputs = run c env s inputs) ∧
    (c.marks = true → run { c with susongSteps := n } env s inputs = run c env s inputs)

/-- What `correct_albedo` should decide: the radiation of a cell is multiplied by one minus the albedo of its band, or
is left alone. -/
noncomputable def described (on : Bool) (r : Solar.Rad) (albV albIr : ℝ) : ℝ :=
  if on = true then (r.visBeam + r.visDiffuse) * (1 - albV) + (r.irBeam + r.irDiffuse) * (1 - albIr)
  else (r.visBeam + r.visDiffuse) + (r.irBeam + r.irDiffuse)

/-- The full claim for the albedo, for configurations without limits and without the other corrections. -/
def C150_albedo_full (ι : Type) : Prop :=
  ∀ (c : Light) (veg : Solar.Veg ι) (clear : ι → Solar.Rad) (illum cf albV albIr : ι → ℝ),
    c.read.correctCloud = false → c.read.correctVeg = false → c.read.lo = none → c.read.hi = none →
    netSolar c veg clear illum cf albV albIr =
      .array fun i => described c.correctAlbedo (clear i) (albV i) (albIr i)

section
variable {ι D : Type} [Fintype ι]

/-- A wet step of Susong's model, with the phase split in two. -/
theorem step_wet (cfg : PCfg) (env : PEnv ι D) (d : D) (temp : ι → ℝ) (s : PState ι) (h : 0 < env.sum d)
    (den perc : ι → ℝ) (hq : env.phase temp (env.dist d) = (den, perc)) :
    susongStep cfg env d temp s =
      ⟨env.dist d, perc, den,
        (Storms.timeSinceStorm (env.dist d) perc (cfg.timeStep / 60 / 24) cfg.threshold cfg.timeToEnd (1 / 2)
          ⟨s.days, s.total⟩).days,
        (Storms.timeSinceStorm (env.dist d) perc (cfg.timeStep / 60 / 24) cfg.threshold cfg.timeToEnd (1 / 2)
          ⟨s.days, s.total⟩).precip⟩ := by
  unfold susongStep
  rw [if_pos h]
  simp only [hq]

/-- A step of Susong's model does not look at the number of steps if the snow is everywhere or nowhere. -/
theorem step_uniform (cfg : PCfg) (t : ℝ) (env : PEnv ι D) (d : D) (temp : ι → ℝ) (s : PState ι)
    (h : (∀ i, 1 / 2 ≤ (env.phase temp (env.dist d)).2 i) ∨ ∑ i, (env.phase temp (env.dist d)).2 i = 0) :
    susongStep { cfg with timeToEnd := t } env d temp s = susongStep cfg env d temp s := by
  by_cases hs : 0 < env.sum d
  · rcases hq : env.phase temp (env.dist d) with ⟨den, perc⟩
    rw [hq] at h
    rw [step_wet _ env d temp s hs den perc hq, step_wet _ env d temp s hs den perc hq]
    simp only at h ⊢
    have : ∀ u : ℝ, Storms.timeSinceStorm (env.dist d) perc (cfg.timeStep / 60 / 24) cfg.threshold u (1 / 2)
        ⟨s.days, s.total⟩ =
        if ∑ i, perc i = 0 then ⟨fun i => s.days i + 1, fun _ => 0⟩
        else ⟨fun i => if cfg.threshold ≤ env.dist d i then 0 else s.days i + 1, env.dist d⟩ := by
      intro u
      unfold Storms.timeSinceStorm
      simp only
      split
      · rfl
      · rename_i h0
        rcases h with h | h
        · simp only [h, if_true]
        · exact absurd h h0
    rw [this, this]
  · unfold susongStep
    rw [if_neg hs, if_neg hs]

/-- Full statement: `C150_full`, which is false (`C150_fails`). What holds: with station data that is corrected or with
gridded data, the number of steps of neither item matters to a run of Susong's model in which, at every step with
precipitation, it snows in every cell or in none. -/
theorem C150_uniform_partial (c : Rain) (n m : Nat) (hc : c.marks = false) (env : PEnv ι D) (s : PState ι)
    (inputs : List (PIn ι D))
    (h : ∀ x ∈ inputs, ∀ d, d = x.data ∨ d = env.adjust x.data →
      (∀ i, 1 / 2 ≤ (env.phase x.temp (env.dist d)).2 i) ∨ ∑ i, (env.phase x.temp (env.dist d)).2 i = 0) :
    run { c with marksSteps := n, susongSteps := m } env s inputs = run c env s inputs := by
  unfold run
  induction inputs generalizing s with
  | nil => rfl
  | cons x rest ih =>
    simp only [List.foldl_cons]
    have e : pptStep (settings { c with marksSteps := n, susongSteps := m }) env x s = pptStep (settings c) env x s := by
      have h1 := step_uniform (settings c) (n : ℝ) env x.data x.temp s (h x (by simp) _ (.inl rfl))
      have h2 := step_uniform (settings c) (n : ℝ) env (env.adjust x.data) x.temp s (h x (by simp) _ (.inr rfl))
      have e0 : settings { c with marksSteps := n, susongSteps := m } = { settings c with timeToEnd := (n : ℝ) } := rfl
      rw [e0]
      have hm : (settings c).marks = false := hc
      unfold pptStep
      simp only [hm, Bool.false_eq_true, if_false]
      rw [hm] at h1 h2
      simp only [h1, h2]
    rw [e]
    exact ih _ fun y hy => h y (List.mem_cons_of_mem _ hy)

/-- Exactly where the number of steps matters in one step of Susong's model: a cell where it does not snow, in a step
in which it snows somewhere, whose clock has passed the one number and not the other, and whose storm has mass. -/
theorem C150_effect_partial (cfg : PCfg) (a b : ℝ) (hab : a ≤ b) (env : PEnv ι D) (d : D) (temp : ι → ℝ) (s : PState ι)
    (hd : 0 < env.sum d) (i : ι) :
    (susongStep { cfg with timeToEnd := a } env d temp s).total i ≠
        (susongStep { cfg with timeToEnd := b } env d temp s).total i ↔
      ∑ j, (env.phase temp (env.dist d)).2 j ≠ 0 ∧ (env.phase temp (env.dist d)).2 i < 1 / 2 ∧
        a ≤ s.days i + 1 ∧ s.days i + 1 < b ∧ s.total i ≠ 0 := by
  rcases hq : env.phase temp (env.dist d) with ⟨den, perc⟩
  rw [step_wet _ env d temp s hd den perc hq, step_wet _ env d temp s hd den perc hq]
  simp only
  unfold Storms.timeSinceStorm
  simp only
  by_cases h0 : ∑ j, perc j = 0
  · simp [h0]
  · simp only [if_neg h0]
    by_cases h1 : 1 / 2 ≤ perc i
    · simp only [if_pos h1, ne_eq, not_true_eq_false, false_iff, not_and]
      intro _ h2
      exact absurd h1 (not_le.2 h2)
    · simp only [if_neg h1]
      by_cases ha : a ≤ s.days i + 1
      · by_cases hb : b ≤ s.days i + 1
        · simp only [if_pos ha, if_pos hb, ne_eq, not_true_eq_false, false_iff]
          exact fun h => absurd h.2.2.2.1 (not_lt.2 hb)
        · simp only [if_pos ha, if_neg hb]
          exact ⟨fun h => ⟨h0, not_le.1 h1, ha, not_le.1 hb, fun e => h e.symm⟩, fun h e => h.2.2.2.2 e.symm⟩
      · have hb : ¬ b ≤ s.days i + 1 := fun h => ha (le_trans hab h)
        simp only [if_neg ha, if_neg hb, ne_eq, not_true_eq_false, false_iff]
        exact fun h => ha h.2.2.1

end

/-! ### The witness: two cells, snow on both, then snow on the first and rain on the second -/

/-- Gridded data on two cells; a cell at or below freezing gets snow. -/
noncomputable def two : PEnv (Fin 2) (Fin 2 → ℝ) :=
  ⟨fun d => d 0 + d 1, id, fun t _ => (fun _ => 100, fun i => if t i ≤ 0 then 1 else 0), id⟩

/-- A step with 2 mm on both cells. -/
def wet (t : Fin 2 → ℝ) : PIn (Fin 2) (Fin 2 → ℝ) :=
  ⟨fun _ => 2, fun _ => 0, false, none, t, fun _ => 0, id⟩

/-- The state of a new instance. -/
def zero : PState (Fin 2) := ⟨fun _ => 0, fun _ => 0, fun _ => 0, fun _ => 0, fun _ => 0⟩

/-- The defaults, on gridded data, with the number of steps of the model that is not used. -/
def defaults (n : Nat) : Rain := ⟨true, false, n, 6, 1, true, false, 60⟩

theorem two_days (n : Nat) :
    (run (defaults n) two zero [wet fun _ => -1, wet fun i => if i = 0 then -1 else 3]).days 1 = if n ≤ 1 then 1 else 0 := by
  have hs : (two.sum fun _ => (2 : ℝ)) = 4 := by norm_num [two]
  have e1 : pptStep (settings (defaults n)) two (wet fun _ => -1) zero =
      ⟨fun _ => 2, fun _ => 1, fun _ => 100, fun _ => 0, fun _ => 2⟩ := by
    unfold pptStep susongStep Storms.timeSinceStorm
    simp only [settings, defaults, wet, zero, hs, two, id]
    norm_num [Fin.sum_univ_two]
  unfold run
  simp only [List.foldl_cons, List.foldl_nil, e1]
  unfold pptStep susongStep Storms.timeSinceStorm
  simp only [settings, defaults, wet, hs, two, id]
  norm_num [Fin.sum_univ_two]
  by_cases h : n ≤ 1
  · have : (n : ℝ) ≤ 1 := by exact_mod_cast h
    simp [h, this]
  · have : ¬ (n : ℝ) ≤ 1 := by exact_mod_cast h
    simp [h, this]

/-- The full claim is false: with Susong's model the item of marks2017 decides whether the second cell has had its last
storm in this step or in the one before, and the item of Susong's model decides nothing in any run. -/
theorem C150_fails : ¬ C150_full (Fin 2) (Fin 2 → ℝ) ∧
    ∀ (c : Rain) (n : Nat) (s : PState (Fin 2)) (inputs : List (PIn (Fin 2) (Fin 2 → ℝ))),
      run { c with susongSteps := n } two s inputs = run c two s inputs := by
  refine ⟨?_, fun _ _ _ _ => rfl⟩
  intro h
  have h1 := (h (defaults 6) 1 two zero [wet fun _ => -1, wet fun i => if i = 0 then -1 else 3]).1 rfl
  have h2 : (run (defaults 1) two zero [wet fun _ => -1, wet fun i => if i = 0 then -1 else 3]).days 1 =
      (run (defaults 6) two zero [wet fun _ => -1, wet fun i => if i = 0 then -1 else 3]).days 1 := congrArg (fun s => s.days 1) h1
  rw [two_days, two_days] at h2
  norm_num at h2

/-- The hypotheses of `C150_uniform_partial` in two steps with snow on both cells. -/
example : run { defaults 6 with marksSteps := 1, susongSteps := 3 } two zero [wet fun _ => -1, wet fun _ => -2] =
    run (defaults 6) two zero [wet fun _ => -1, wet fun _ => -2] := by
  refine C150_uniform_partial (defaults 6) 1 3 rfl two zero _ ?_
  intro x hx d _
  left
  intro i
  have : x.temp i ≤ 0 := by
    rcases List.mem_cons.1 hx with rfl | hx
    · norm_num [wet]
    · rcases List.mem_cons.1 hx with rfl | hx
      · norm_num [wet]
      · cases hx
  simp only [two, this, if_true]
  norm_num

/-- The hypotheses of `C150_effect_partial`: the second cell of the witness, between 1 and 6 steps. -/
example : (susongStep { settings (defaults 6) with timeToEnd := 1 } two (fun _ => 2) (fun i => if i = 0 then -1 else 3)
      ⟨fun _ => 2, fun _ => 1, fun _ => 100, fun _ => 0, fun _ => 2⟩).total 1 ≠
    (susongStep { settings (defaults 6) with timeToEnd := 6 } two (fun _ => 2) (fun i => if i = 0 then -1 else 3)
      ⟨fun _ => 2, fun _ => 1, fun _ => 100, fun _ => 0, fun _ => 2⟩).total 1 :=
  (C150_effect_partial (settings (defaults 6)) 1 6 (by norm_num) two (fun _ => 2) (fun i => if i = 0 then -1 else 3)
    ⟨fun _ => 2, fun _ => 1, fun _ => 100, fun _ => 0, fun _ => 2⟩ (by norm_num [two]) 1).2 (by
      norm_num [two, Fin.sum_univ_two])

/-! ### The albedo -/

/-- Full statement: `C150_albedo_full`, which is false (`C150_albedo_fails`). What holds: with `correct_albedo = true` the
net radiation is the described one. -/
theorem C150_albedo_partial {ι : Type} (c : Light) (veg : Solar.Veg ι) (clear : ι → Solar.Rad) (illum cf albV albIr : ι → ℝ)
    (hcl : c.read.correctCloud = false) (hveg : c.read.correctVeg = false) (hlo : c.read.lo = none) (hhi : c.read.hi = none)
    (hon : c.correctAlbedo = true) :
    netSolar c veg clear illum cf albV albIr =
      .array fun i => described c.correctAlbedo (clear i) (albV i) (albIr i) := by
  unfold netSolar Solar.day described
  simp only [hcl, hveg, hlo, hhi, hon, Bool.false_eq_true, if_false, if_true, Solar.calcNet, Solar.clamp, Option.elim]

/-- With `correct_albedo = false` the net radiation of every cell with radiation in the visible band and an albedo
above 0 is less than the description says. -/
theorem C150_albedo_fails {ι : Type} (c : Light) (veg : Solar.Veg ι) (clear : ι → Solar.Rad) (illum cf albV albIr : ι → ℝ)
    (hcl : c.read.correctCloud = false) (hveg : c.read.correctVeg = false) (hlo : c.read.lo = none) (hhi : c.read.hi = none)
    (hoff : c.correctAlbedo = false) (i : ι) (hv : 0 < (clear i).visBeam + (clear i).visDiffuse)
    (hr : 0 ≤ (clear i).irBeam + (clear i).irDiffuse) (ha : 0 < albV i) (hb : 0 ≤ albIr i) :
    ∃ a, netSolar c veg clear illum cf albV albIr = .array a ∧
      a i < described c.correctAlbedo (clear i) (albV i) (albIr i) := by
  refine ⟨_, rfl, ?_⟩
  unfold described
  simp only [hcl, hveg, hlo, hhi, hoff, Bool.false_eq_true, if_false, Solar.calcNet, Solar.clamp, Option.elim]
  have h1 : 0 < ((clear i).visBeam + (clear i).visDiffuse) * albV i := mul_pos hv ha
  have h2 : 0 ≤ ((clear i).irBeam + (clear i).irDiffuse) * albIr i := mul_nonneg hr hb
  nlinarith

/-- The full claim for the albedo is false. -/
theorem C150_albedo_full_fails (clear : Twostream.Clear) : ¬ C150_albedo_full Unit := by
  intro h
  have h1 := h ⟨⟨clear, false, false, none, none⟩, false⟩ ⟨fun _ => 0, fun _ => 1, fun _ => 0⟩ (fun _ => ⟨100, 50, 100, 50⟩)
    (fun _ => 1) (fun _ => 1) (fun _ => 4 / 5) (fun _ => 1 / 2) rfl rfl rfl rfl
  obtain ⟨a, e, hlt⟩ := C150_albedo_fails ⟨⟨clear, false, false, none, none⟩, false⟩ ⟨fun _ => 0, fun _ => 1, fun _ => 0⟩
    (fun _ => ⟨100, 50, 100, 50⟩) (fun _ => 1) (fun _ => 1) (fun _ => 4 / 5) (fun _ => 1 / 2) rfl rfl rfl rfl rfl ()
    (by norm_num) (by norm_num) (by norm_num) (by norm_num)
  rw [h1] at e
  injection e with e
  have := congrFun e ()
  simp only at this
  exact absurd this.symm (ne_of_lt hlt)

/-- A snowy cell at noon: net 105 with the item on. -/
example (clear : Twostream.Clear) : netSolar (ι := Unit) ⟨⟨clear, false, false, none, none⟩, true⟩ ⟨fun _ => 0, fun _ => 1, fun _ => 0⟩
    (fun _ => ⟨100, 50, 100, 50⟩) (fun _ => 1) (fun _ => 1) (fun _ => 4 / 5) (fun _ => 1 / 2) = .array fun _ => 105 := by
  rw [C150_albedo_partial _ _ _ _ _ _ _ rfl rfl rfl rfl rfl]
  norm_num [described]

end Verif.Unread
