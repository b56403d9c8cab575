import Verif.Split
import Verif.CausalProps
import Verif.RunChain

/-!
C157: a run in two parts gives the images of the run in one part.
-/

namespace Verif.Split

/-! ### The loop over the time steps -/

section run
open Verif.Run
variable {ι D : Type} [Fintype ι]

/-- The variables that the configuration computes: the solar components after a correction only if it is on. -/
def Computed (c : Cfg ι D) : Name → Prop
  | .solar (.cloud _ _) => c.sun.solar.correctCloud = true
  | .solar (.veg _ _) => c.sun.solar.correctVeg = true
  | _ => True

/-- Two steps have the same images of these variables. -/
def Agree (c : Cfg ι D) (o o' : Out ι) : Prop := ∀ v, Computed c v → image o v = image o' v

/-- Claimed: whatever is computed in the second part of a run is computed in a run that starts there with the clock of the first
part. -/
def C157_full (ι D : Type) [Fintype ι] : Prop := ∀ (c : Cfg ι D) (fuel : Nat) (days : ι → ℝ) (xs ys : List (In ι D)) (x : In ι D)
  (os ps : List (Out ι)) (o : Out ι), Run.run c fuel (resume days) (xs ++ x :: ys) = .ok (os ++ o :: ps) → os.length = xs.length →
  ∃ ps', Run.run c fuel (resume o.ppt.days) ys = .ok ps' ∧ List.Forall₂ (Agree c) ps ps'

/-- Steps of the precipitation class from two states in the relation `R` give the same images, or the same error, and states in the
relation. -/
def Keeps (c : Cfg ι D) (R : Precip.PState ι → Precip.PState ι → Prop) : Prop := ∀ (x : In ι D) (dew temp wind : ι → ℝ) (s s' : Precip.PState ι),
  R s s' → (∃ e, precipStep c x dew temp wind s = .error e ∧ precipStep c x dew temp wind s' = .error e) ∨
    ∃ p p', precipStep c x dew temp wind s = .ok p ∧ precipStep c x dew temp wind s' = .ok p' ∧ p.precip = p'.precip ∧
      p.perc = p'.perc ∧ p.den = p'.den ∧ p.days = p'.days ∧ R p p'

/-- With marks2017 the clock is all that a step needs. -/
theorem marks_keeps (c : Cfg ι D) (hg : c.ppt.grid = false) (hm : c.ppt.marks = true) : Keeps c fun s s' => s.days = s'.days := by
  intro x dew temp wind s s' hs
  unfold precipStep
  split
  · exact .inl ⟨_, rfl, rfl⟩
  · split
    · exact .inl ⟨_, rfl, rfl⟩
    · refine .inr ⟨_, _, rfl, rfl, ?_⟩
      have key : ∀ (env : Precip.PEnv ι D) (d : D), (Precip.marksStep c.ppt env d x.storming x.stormTotal temp s).precip =
            (Precip.marksStep c.ppt env d x.storming x.stormTotal temp s').precip ∧
          (Precip.marksStep c.ppt env d x.storming x.stormTotal temp s).perc =
            (Precip.marksStep c.ppt env d x.storming x.stormTotal temp s').perc ∧
          (Precip.marksStep c.ppt env d x.storming x.stormTotal temp s).den =
            (Precip.marksStep c.ppt env d x.storming x.stormTotal temp s').den ∧
          (Precip.marksStep c.ppt env d x.storming x.stormTotal temp s).days =
            (Precip.marksStep c.ppt env d x.storming x.stormTotal temp s').days := by
        intro env d
        unfold Precip.marksStep
        rw [hs]
        split <;> exact ⟨rfl, rfl, rfl, rfl⟩
      unfold Precip.pptStep
      simp only [hg, hm, if_true]
      obtain ⟨k1, k2, k3, k4⟩ := key ⟨c.sum, fun d => c.precip.cut (c.interp d), fun (t p : ι → ℝ) => match Nasde.phaseAndDensity t p c.nasde with
        | .ok r => r
        | .error _ => (fun _ => 0, fun _ => 0), c.adjust⟩ (if c.ppt.undercatch = true then c.adjust x.clipped else x.clipped)
      split
      · exact ⟨congrArg (redist c x dew wind) k1, k2, k3, k4, k4⟩
      · exact ⟨k1, k2, k3, k4, k4⟩

/-- The clocks are the same, and the totals too except where the last storm is over. -/
def OldSnow (c : Cfg ι D) (s s' : Precip.PState ι) : Prop :=
  s.days = s'.days ∧ ∀ i, s.total i = s'.total i ∨ c.ppt.timeToEnd ≤ s.days i + 1

/-- With gridded data the totals matter only where the last storm is not over. -/
theorem susong_keeps (c : Cfg ι D) (hg : c.ppt.grid = true) (ht : 0 ≤ c.ppt.timeStep) : Keeps c (OldSnow c) := by
  intro x dew temp wind s s' hs
  unfold precipStep
  split
  · exact .inl ⟨_, rfl, rfl⟩
  · split
    · exact .inl ⟨_, rfl, rfl⟩
    · refine .inr ⟨_, _, rfl, rfl, ?_⟩
      have key : ∀ env : Precip.PEnv ι D, (Precip.susongStep c.ppt env x.precip temp s).precip = (Precip.susongStep c.ppt env x.precip temp s').precip ∧
          (Precip.susongStep c.ppt env x.precip temp s).perc = (Precip.susongStep c.ppt env x.precip temp s').perc ∧
          (Precip.susongStep c.ppt env x.precip temp s).den = (Precip.susongStep c.ppt env x.precip temp s').den ∧
          OldSnow c (Precip.susongStep c.ppt env x.precip temp s) (Precip.susongStep c.ppt env x.precip temp s') := by
        intro env
        unfold Precip.susongStep
        split
        · refine ⟨rfl, rfl, rfl, ?_⟩
          have hc : ∀ p perc : ι → ℝ, Storms.timeSinceStorm p perc (c.ppt.timeStep / 60 / 24) c.ppt.threshold c.ppt.timeToEnd (1 / 2) ⟨s.days, s.total⟩ =
              Storms.timeSinceStorm p perc (c.ppt.timeStep / 60 / 24) c.ppt.threshold c.ppt.timeToEnd (1 / 2) ⟨s'.days, s'.total⟩ := by
            intro p perc
            have hsp : (fun i => if c.ppt.timeToEnd ≤ s.days i + 1 then (0 : ℝ) else s.total i) =
                fun i => if c.ppt.timeToEnd ≤ s'.days i + 1 then (0 : ℝ) else s'.total i := by
              funext i
              rw [← hs.1]
              rcases hs.2 i with h | h
              · rw [h]
              · rw [if_pos h, if_pos h]
            unfold Storms.timeSinceStorm
            simp only
            rw [← hs.1] at hsp ⊢
            simp only [congrFun hsp]
          exact ⟨by simp only [hc], fun i => .inl (by simp only [hc])⟩
        · refine ⟨rfl, rfl, rfl, by simp only [hs.1], fun i => ?_⟩
          rcases hs.2 i with h | h
          · exact .inl h
          · right
            have : 0 ≤ c.ppt.timeStep / 60 / 24 := by positivity
            simp only
            linarith
      unfold Precip.pptStep
      simp only [hg, Bool.true_eq_false, if_false]
      obtain ⟨k1, k2, k3, k4⟩ := key ⟨c.sum, fun d => c.precip.cut (c.interp d), fun (t p : ι → ℝ) => match Nasde.phaseAndDensity t p c.nasde with
        | .ok r => r
        | .error _ => (fun _ => 0, fun _ => 0), c.adjust⟩
      split
      · exact ⟨congrArg (redist c x dew wind) k1, k2, k3, k4.1, k4⟩
      · exact ⟨k1, k2, k3, k4.1, k4⟩

/-- Whole steps from two states in such a relation. -/
theorem step_agree (c : Cfg ι D) (R : Precip.PState ι → Precip.PState ι → Prop) (hR : Keeps c R) (fuel : Nat) (s s' : State ι)
    (hs : R s.ppt s'.ppt) (x : In ι D) :
    (∃ e, step c fuel s x = .error e ∧ step c fuel s' x = .error e) ∨
    ∃ t t' o o', step c fuel s x = .ok (t, o) ∧ step c fuel s' x = .ok (t', o') ∧ R t.ppt t'.ppt ∧ Agree c o o' := by
  have hp := fun dew temp wind : ι → ℝ => hR x dew temp wind s.ppt s'.ppt hs
  have hsol : ∀ y : Solar.Step ι, (∃ e, Solar.timestep c.sun s.solar y = .error e ∧ Solar.timestep c.sun s'.solar y = .error e) ∨
      ∃ a a' v r, Solar.timestep c.sun s.solar y = .ok (a, v, r) ∧ Solar.timestep c.sun s'.solar y = .ok (a', v, r) ∧
        ∀ w, Computed c (.solar w) → a w = a' w := by
    intro y
    have hd : ∀ (cf : ι → ℝ) ill a b, (∃ e, Solar.distribute c.sun.solar c.sun.topo c.sun.veg y.s0 y.hidden s.solar cf ill y.cosz a b = .error e ∧
          Solar.distribute c.sun.solar c.sun.topo c.sun.veg y.s0 y.hidden s'.solar cf ill y.cosz a b = .error e) ∨
        ∃ t t', Solar.distribute c.sun.solar c.sun.topo c.sun.veg y.s0 y.hidden s.solar cf ill y.cosz a b = .ok t ∧
          Solar.distribute c.sun.solar c.sun.topo c.sun.veg y.s0 y.hidden s'.solar cf ill y.cosz a b = .ok t' ∧
          ∀ w, Computed c (.solar w) → t w = t' w := by
      intro cf ill a b
      unfold Solar.distribute
      split
      · split
        · exact .inl ⟨_, rfl, rfl⟩
        · split
          · exact .inl ⟨_, rfl, rfl⟩
          · split
            · exact .inl ⟨_, rfl, rfl⟩
            · refine .inr ⟨_, _, rfl, rfl, fun w hw => ?_⟩
              cases w with
              | clear b k => rfl
              | cloud b k =>
                have : c.sun.solar.correctCloud = true := hw
                unfold Solar.day
                simp only [this, if_true]
              | veg b k =>
                have : c.sun.solar.correctVeg = true := hw
                unfold Solar.day
                simp only [this, if_true]
              | net => rfl
      · exact .inr ⟨_, _, rfl, rfl, fun w _ => rfl⟩
    unfold Solar.timestep
    simp only
    split
    · exact .inl ⟨_, rfl, rfl⟩
    · rename_i v r _
      rcases hd y.cloudFactor (Solar.illumination c.sun.shade y.cosz) (Solar.cells v) (Solar.cells r) with ⟨e, h1, h2⟩ | ⟨t, t', h1, h2, h3⟩
      · rw [h1, h2]; exact .inl ⟨e, rfl, rfl⟩
      · rw [h1, h2]; exact .inr ⟨_, _, _, _, rfl, rfl, h3⟩
  unfold step
  simp only
  cases hv : vaporStep c fuel x.vapor (c.airTemp.cut x.airTemp) with
  | error e => exact .inl ⟨e, rfl, rfl⟩
  | ok q =>
    obtain ⟨vp, dew, temp⟩ := q
    simp only
    rcases hp dew temp (c.wind.cut x.windSpeed) with ⟨e, h1, h2⟩ | ⟨p, p', h1, h2, e1, e2, e3, e4, e5⟩
    · rw [h1, h2]; exact .inl ⟨e, rfl, rfl⟩
    · rw [h1, h2]
      simp only
      rw [e4]
      rcases hsol ⟨x.time, x.cosz, c.cloud.cut x.cloud, p'.days, x.s0, x.hidden⟩ with ⟨e, h3, h4⟩ | ⟨a, a', v, r, h3, h4, h5⟩
      · rw [h3, h4]; exact .inl ⟨.solar e, rfl, rfl⟩
      · rw [h3, h4]
        simp only
        cases Thermal.distribute c.thermal c.maps ⟨c.airTemp.cut x.airTemp, vp, dew, c.cloud.cut x.cloud⟩ with
        | error e => exact .inl ⟨.thermal e, rfl, rfl⟩
        | ok th =>
          refine .inr ⟨_, _, _, _, rfl, rfl, e5, fun n hn => ?_⟩
          cases n with
          | solar w => show Solar.written (a w) = Solar.written (a' w); rw [h5 w hn]
          | precip => show Except.ok p.precip = Except.ok p'.precip; rw [e1]
          | percSnow => show Except.ok p.perc = Except.ok p'.perc; rw [e2]
          | snowDensity => show Except.ok p.den = Except.ok p'.den; rw [e3]
          | stormDays => show Except.ok p.days = Except.ok p'.days; rw [e4]
          | _ => rfl

theorem run_agree (c : Cfg ι D) (R : Precip.PState ι → Precip.PState ι → Prop) (hR : Keeps c R) (fuel : Nat) (xs : List (In ι D)) :
    ∀ s s' : State ι, R s.ppt s'.ppt →
    (∃ e, Run.run c fuel s xs = .error e ∧ Run.run c fuel s' xs = .error e) ∨
    ∃ os os', Run.run c fuel s xs = .ok os ∧ Run.run c fuel s' xs = .ok os' ∧ List.Forall₂ (Agree c) os os' := by
  induction xs with
  | nil => intro s s' _; exact .inr ⟨[], [], rfl, rfl, .nil⟩
  | cons x xs ih =>
    intro s s' hs
    rw [Run.run, Run.run]
    rcases step_agree c R hR fuel s s' hs x with ⟨e, h1, h2⟩ | ⟨t, t', o, o', h1, h2, h3, h4⟩
    · rw [h1, h2]; exact .inl ⟨e, rfl, rfl⟩
    · rw [h1, h2]
      simp only
      rcases ih t t' h3 with ⟨e, h5, h6⟩ | ⟨os, os', h5, h6, h7⟩
      · rw [h5, h6]; exact .inl ⟨e, rfl, rfl⟩
      · rw [h5, h6]; exact .inr ⟨_, _, rfl, rfl, .cons h4 h7⟩

/-- The state of the precipitation class is among the images of a step. -/
theorem step_ppt (c : Cfg ι D) (fuel : Nat) (s t : State ι) (x : In ι D) (o : Out ι) (h : step c fuel s x = .ok (t, o)) : t.ppt = o.ppt := by
  unfold step at h
  simp only at h
  split at h
  · cases h
  · split at h
    · cases h
    · split at h
      · cases h
      · split at h
        · cases h
        · simp only [Except.ok.injEq, Prod.mk.injEq] at h
          obtain ⟨rfl, rfl⟩ := h
          rfl

/-- The state after the first part of a run. -/
theorem run_split (c : Cfg ι D) (fuel : Nat) (xs : List (In ι D)) (x : In ι D) : ∀ (s : State ι) (os : List (Out ι)) (o : Out ι),
    Run.run c fuel s (xs ++ [x]) = .ok (os ++ [o]) → ∃ t : State ι, t.ppt = o.ppt ∧
      ∀ ys, Run.run c fuel s (xs ++ x :: ys) = (Run.run c fuel t ys).map fun ps => os ++ o :: ps := by
  induction xs with
  | nil =>
    intro s os o h
    rw [List.nil_append, Run.run] at h
    cases hst : step c fuel s x with
    | error e => rw [hst] at h; cases h
    | ok q =>
      obtain ⟨t, o'⟩ := q
      rw [hst] at h
      simp only [Run.run, Except.ok.injEq] at h
      have hl := congrArg List.length h
      simp only [List.length_append, List.length_singleton] at hl
      have : os = [] := List.length_eq_zero_iff.1 (by omega)
      subst this
      simp only [List.nil_append, List.cons.injEq, and_true] at h
      subst h
      refine ⟨t, step_ppt c fuel s t x o' hst, fun ys => ?_⟩
      rw [List.nil_append, Run.run, hst]
      simp only
      cases Run.run c fuel t ys <;> rfl
  | cons a xs ih =>
    intro s os o h
    rw [List.cons_append, Run.run] at h
    cases hst : step c fuel s a with
    | error e => rw [hst] at h; cases h
    | ok q =>
      obtain ⟨t, o'⟩ := q
      rw [hst] at h
      simp only at h
      cases hr : Run.run c fuel t (xs ++ [x]) with
      | error e => rw [hr] at h; cases h
      | ok rs =>
        rw [hr] at h
        simp only [Except.ok.injEq] at h
        cases os with
        | nil =>
          simp only [List.nil_append, List.cons.injEq] at h
          have hlen := Causal.C137_prefix c fuel (xs ++ [x]) t rs 0 hr
          rw [h.2] at hr
          exfalso
          cases xs with
          | nil =>
            rw [List.nil_append, Run.run] at hr
            cases h2 : step c fuel t x with
            | error e => rw [h2] at hr; cases hr
            | ok q => rw [h2] at hr; simp [Run.run] at hr
          | cons b xs =>
            rw [List.cons_append, Run.run] at hr
            cases h2 : step c fuel t b with
            | error e => rw [h2] at hr; cases hr
            | ok q =>
              rw [h2] at hr
              simp only at hr
              cases h3 : Run.run c fuel q.1 (xs ++ [x]) with
              | error e => rw [h3] at hr; cases hr
              | ok _ => rw [h3] at hr; cases hr
        | cons o1 os =>
          simp only [List.cons_append, List.cons.injEq] at h
          obtain ⟨rfl, rfl⟩ := h
          obtain ⟨t', h1, h2⟩ := ih t os o hr
          refine ⟨t', h1, fun ys => ?_⟩
          rw [List.cons_append, Run.run, hst]
          simp only
          rw [h2 ys]
          cases Run.run c fuel t' ys <;> rfl

/-- With the marks2017 model a run started after step `x` with the clock of that step gives the images of the run that went on, or
fails as that run fails. Missing: the other models (`C157_fails`), and that both runs get the same storms (below). -/
theorem C157_split_partial (c : Cfg ι D) (hg : c.ppt.grid = false) (hm : c.ppt.marks = true) (fuel : Nat) (s : State ι)
    (xs ys : List (In ι D)) (x : In ι D) (os : List (Out ι)) (o : Out ι) (h : Run.run c fuel s (xs ++ [x]) = .ok (os ++ [o])) :
    (∃ e, Run.run c fuel s (xs ++ x :: ys) = .error e ∧ Run.run c fuel (resume o.ppt.days) ys = .error e) ∨
    ∃ ps ps', Run.run c fuel s (xs ++ x :: ys) = .ok (os ++ o :: ps) ∧ Run.run c fuel (resume o.ppt.days) ys = .ok ps' ∧
      List.Forall₂ (Agree c) ps ps' := by
  obtain ⟨t, h1, h2⟩ := run_split c fuel xs x s os o h
  rw [h2 ys]
  rcases run_agree c _ (marks_keeps c hg hm) fuel ys t (resume o.ppt.days) (by rw [h1]; rfl) with ⟨e, h3, h4⟩ | ⟨ps, ps', h3, h4, h5⟩
  · exact .inl ⟨e, by rw [h3]; rfl, h4⟩
  · exact .inr ⟨ps, ps', by rw [h3]; rfl, h4, h5⟩

/-- With gridded data, whatever the model, the same holds if at the restart the last storm is over in every cell: the clock is within a
step of `time_to_end_storm`. Missing: restarts sooner after a storm (`C157_fails`). -/
theorem C157_over_partial (c : Cfg ι D) (hg : c.ppt.grid = true) (ht : 0 ≤ c.ppt.timeStep) (fuel : Nat) (s : State ι)
    (xs ys : List (In ι D)) (x : In ι D) (os : List (Out ι)) (o : Out ι) (h : Run.run c fuel s (xs ++ [x]) = .ok (os ++ [o]))
    (ho : ∀ i, c.ppt.timeToEnd ≤ o.ppt.days i + 1) :
    (∃ e, Run.run c fuel s (xs ++ x :: ys) = .error e ∧ Run.run c fuel (resume o.ppt.days) ys = .error e) ∨
    ∃ ps ps', Run.run c fuel s (xs ++ x :: ys) = .ok (os ++ o :: ps) ∧ Run.run c fuel (resume o.ppt.days) ys = .ok ps' ∧
      List.Forall₂ (Agree c) ps ps' := by
  obtain ⟨t, h1, h2⟩ := run_split c fuel xs x s os o h
  rw [h2 ys]
  rcases run_agree c _ (susong_keeps c hg ht) fuel ys t (resume o.ppt.days)
    (by rw [h1]; exact ⟨rfl, fun i => .inr (ho i)⟩) with ⟨e, h3, h4⟩ | ⟨ps, ps', h3, h4, h5⟩
  · exact .inl ⟨e, by rw [h3]; rfl, h4⟩
  · exact .inr ⟨ps, ps', by rw [h3]; rfl, h4, h5⟩

/-- The storm total, which is no image of `image`, is not handed on: until a new storm begins, a run keeps the total that it started
with. After a restart this is 0, not the total of the first part. -/
theorem C157_total (c : Cfg ι D) (hg : c.ppt.grid = false) (hm : c.ppt.marks = true) (fuel : Nat) : ∀ (ys : List (In ι D)) (s : State ι)
    (ps : List (Out ι)), (∀ x ∈ ys, x.stormTotal = none) → Run.run c fuel s ys = .ok ps → ∀ o ∈ ps, o.ppt.total = s.ppt.total := by
  intro ys
  induction ys with
  | nil =>
    intro s ps _ h o ho
    simp only [Run.run, Except.ok.injEq] at h
    rw [← h] at ho; cases ho
  | cons x ys ih =>
    intro s ps hx h
    rw [Run.run] at h
    split at h
    · cases h
    · rename_i t o' h1
      split at h
      · cases h
      · rename_i qs h2
        simp only [Except.ok.injEq] at h
        obtain ⟨e, hl⟩ := step_linked c fuel s t x o' h1
        have hk : o'.ppt.total = s.ppt.total := by
          have hp := hl.precip
          have h0 := hx x (by simp)
          unfold precipStep at hp
          split at hp
          · cases hp
          · split at hp
            · cases hp
            · simp only [Except.ok.injEq] at hp
              rw [← hp]
              unfold Precip.pptStep
              have key : ∀ (env : Precip.PEnv ι D) (d : D), (Precip.marksStep c.ppt env d x.storming x.stormTotal o'.precipTemp s.ppt).total = s.ppt.total := by
                intro env d
                unfold Precip.marksStep
                rw [h0]
                simp only [Option.getD_none, ite_self]
                split <;> rfl
              simp only [hg, hm, if_true]
              split <;> exact key _ _
        intro o ho
        rw [← h] at ho
        rcases List.mem_cons.1 ho with rfl | ho
        · exact hk
        · rw [ih t qs (fun y hy => hx y (by simp [hy])) h2 o ho, e]
          exact hk

/-- The sample run with the marks2017 model. -/
noncomputable def marksCfg : Cfg Unit ℝ := { snowyCfg with ppt := ⟨false, true, true, true, 60, 1, 6⟩, nasde := "marks2017" }

/-- A day and a night with snow, then a restart and another day. -/
example : ∃ N os o ps', Run.run marksCfg N snowyState [snowyIn (1 / 2), snowyIn 0] = .ok (os ++ [o]) ∧
    Run.run marksCfg N (resume o.ppt.days) [snowyIn (1 / 2)] = .ok ps' ∧ ps'.length = 1 ∧
    ∃ ps, Run.run marksCfg N snowyState [snowyIn (1 / 2), snowyIn 0, snowyIn (1 / 2)] = .ok (os ++ o :: ps) ∧
      List.Forall₂ (Agree marksCfg) ps ps' := by
  have hs : Sound marksCfg :=
    ⟨fun h => (by cases h), .inr (.inr rfl), snowy_sound.tol, snowy_sound.vapor, snowy_sound.airTemp, snowy_sound.grain, snowy_sound.decay,
      snowy_sound.albedo, snowy_sound.dem, snowy_sound.sky⟩
  have hm : ∀ z : ℝ, z ≤ 0 ∨ z = 1 / 2 → Meets marksCfg (snowyIn z) := fun z hz => ⟨(snowy_meets z hz).sun, fun _ => (snowy_meets z hz).wind rfl⟩
  obtain ⟨N1, s1, o1, h1⟩ := step_runs marksCfg hs snowyState _ (hm (1 / 2) (.inr rfl))
  obtain ⟨N2, s2, o2, h2⟩ := step_runs marksCfg hs s1 _ (hm 0 (.inl le_rfl))
  obtain ⟨N3, s3, o3, h3⟩ := step_runs marksCfg hs s2 _ (hm (1 / 2) (.inr rfl))
  set N := max N1 (max N2 N3)
  have g1 := h1 N (le_max_left _ _)
  have g2 := h2 N (le_trans (le_max_left _ _) (le_max_right _ _))
  have g3 := h3 N (le_trans (le_max_right _ _) (le_max_right _ _))
  have hr : Run.run marksCfg N snowyState ([snowyIn (1 / 2)] ++ [snowyIn 0]) = .ok ([o1] ++ [o2]) := by
    simp only [List.cons_append, List.nil_append, Run.run, g1, g2]
  have hr3 : Run.run marksCfg N snowyState ([snowyIn (1 / 2)] ++ snowyIn 0 :: [snowyIn (1 / 2)]) = .ok ([o1] ++ o2 :: [o3]) := by
    simp only [List.cons_append, List.nil_append, Run.run, g1, g2, g3]
  rcases C157_split_partial marksCfg rfl rfl N snowyState [snowyIn (1 / 2)] [snowyIn (1 / 2)] (snowyIn 0) [o1] o2 hr with ⟨e, he, -⟩ | ⟨ps, ps', h4, h5, h6⟩
  · rw [hr3] at he; cases he
  · refine ⟨N, [o1], o2, ps', hr, h5, ?_, ps, h4, h6⟩
    rw [hr3] at h4
    simp only [List.cons_append, List.nil_append, Except.ok.injEq, List.cons.injEq, true_and] at h4
    rw [← h6.length_eq, ← h4]; rfl

/-- Two cells with a susong1999 model; the data are the precipitation of the cells. -/
noncomputable def pairCfg : Cfg Bool (Bool → ℝ) where
  airTemp := ⟨some (-73), some 47⟩
  vapor := ⟨some 20, some 5000⟩
  wind := ⟨some (447 / 1000), some 35⟩
  precip := ⟨some 0, none⟩
  cloud := ⟨some 0, some 1⟩
  tol := 1 / 100
  wet := false
  ppt := ⟨true, false, false, false, 60, 1, 6⟩
  nasde := "susong1999"
  interp := fun d => d
  sum := fun d => d false + d true
  adjust := fun d => d
  drift := ⟨7, 55 / 100, 1, 1, 35 / 10⟩
  vegFact := []
  vegClass := fun _ => 0
  dirs := [0]
  tbreak := fun _ _ => none
  sun :=
    { solar := { clear := ⟨100, 1 / 5, 85 / 100, 0⟩, correctCloud := true, correctVeg := true, lo := some 0, hi := some 800 }
      albedo := { grain := 300, maxGrain := 2000, dirt := 2, decay := .none, veg := [], litter := [], lo := some 0, hi := some 1 }
      topo := ⟨fun _ => 1000, fun _ => 9 / 10, fun _ => 1 / 10⟩
      veg := ⟨fun _ => 0, fun _ => 1, fun _ => 0⟩
      vegType := fun _ => 1
      shade := fun _ _ => 1 / 2 }
  thermal := ⟨.marks1979, some .garen2005, true, true, some 0, some 600⟩
  maps := ⟨fun _ => 1000, fun _ => 9 / 10, fun _ => 0, fun _ => 1⟩

/-- A cold night with the given precipitation. -/
noncomputable def pairIn (p : Bool → ℝ) : In Bool (Bool → ℝ) :=
  ⟨0, 0, fun _ => 600, fun _ => False, fun _ => -5, fun _ => 300, fun _ => 20, fun _ => 0, fun _ => 0, fun _ => 1 / 2, p, p, true, none⟩

theorem pair_sound : Sound pairCfg := by
  refine ⟨fun h => (by cases h), .inl rfl, by norm_num [pairCfg], ⟨20, 5000, rfl, rfl, by norm_num, by norm_num, by norm_num [Vapor.seaLevel]⟩,
    ⟨-73, rfl, ?_, by norm_num [Vapor.freeze], fun _ => by norm_num [Vapor.freeze, pairCfg]⟩,
    by norm_num [Albedo.Accepted, pairCfg], trivial,
    ⟨0, 1, rfl, rfl, le_refl _, zero_le_one, le_refl _⟩, fun _ => by norm_num [pairCfg], fun _ => rfl⟩
  intro b hb
  simp only [pairCfg, Option.some.injEq] at hb
  rw [← hb]; norm_num

theorem pair_meets (p : Bool → ℝ) : Meets pairCfg (pairIn p) :=
  ⟨fun h => absurd h (lt_irrefl _), fun h => by cases h⟩

/-- A week after a storm of 5 mm: a dry step, a restart, snow in one cell. -/
example : ∃ N o ps', Run.run pairCfg N ⟨⟨fun _ => 0, fun _ => 0, fun _ => 0, fun _ => 7, fun _ => 5⟩, Solar.initial Bool⟩ [pairIn fun _ => 0] = .ok [o] ∧
    (∀ i, o.ppt.days i = 7 + 1 / 24 ∧ o.ppt.total i = 5) ∧
    Run.run pairCfg N (resume o.ppt.days) [pairIn fun i => if i = true then 0 else 5] = .ok ps' ∧
    ∃ ps, Run.run pairCfg N ⟨⟨fun _ => 0, fun _ => 0, fun _ => 0, fun _ => 7, fun _ => 5⟩, Solar.initial Bool⟩
      [pairIn fun _ => 0, pairIn fun i => if i = true then 0 else 5] = .ok (o :: ps) ∧ ps.length = 1 ∧ List.Forall₂ (Agree pairCfg) ps ps' := by
  set s0 : State Bool := ⟨⟨fun _ => 0, fun _ => 0, fun _ => 0, fun _ => 7, fun _ => 5⟩, Solar.initial Bool⟩ with hs0
  obtain ⟨N1, s1, o1, h1⟩ := step_runs pairCfg pair_sound s0 _ (pair_meets fun _ => 0)
  obtain ⟨N2, s2, o2, h2⟩ := step_runs pairCfg pair_sound s1 _ (pair_meets fun i => if i = true then 0 else 5)
  have g1 := h1 (max N1 N2) (le_max_left _ _)
  have g2 := h2 (max N1 N2) (le_max_right _ _)
  have hd : ∀ i, o1.ppt.days i = 7 + 1 / 24 ∧ o1.ppt.total i = 5 := by
    have hp := (step_linked _ _ _ _ _ _ g1).2.precip
    simp only [precipStep, pairCfg, Precip.pptStep, Precip.susongStep, pairIn] at hp
    norm_num at hp
    intro i
    rw [← hp]
    norm_num [hs0]
  have hr : Run.run pairCfg (max N1 N2) s0 ([] ++ [pairIn fun _ => 0]) = .ok ([] ++ [o1]) := by
    simp only [List.nil_append, Run.run, g1]
  have hr2 : Run.run pairCfg (max N1 N2) s0 [pairIn fun _ => 0, pairIn fun i => if i = true then 0 else 5] = .ok [o1, o2] := by
    simp only [Run.run, g1, g2]
  rcases C157_over_partial pairCfg rfl (by norm_num [pairCfg]) _ s0 [] [pairIn fun i => if i = true then 0 else 5] _ [] o1 hr (fun i => by
    rw [(hd i).1]; norm_num [pairCfg]) with ⟨e, he, -⟩ | ⟨ps, ps', h4, h5, h6⟩
  · rw [List.nil_append, hr2] at he; cases he
  · refine ⟨_, o1, ps', hr, hd, h5, ps, h4, ?_, h6⟩
    rw [List.nil_append, hr2] at h4
    simp only [List.nil_append, Except.ok.injEq, List.cons.injEq, true_and] at h4
    rw [← h4]; rfl

theorem classify_cold (t : ℝ) (h : t < -5) : (Nasde.classify (some t)).1 = 1 := by
  have h2 : ¬ (-5 : ℝ) ≤ t := not_le.2 h
  have h3 : ¬ (-3 : ℝ) ≤ t := by linarith
  have h4 : ¬ (-3 / 2 : ℝ) ≤ t := by linarith
  have h5 : ¬ (-1 / 2 : ℝ) ≤ t := by linarith
  have h6 : ¬ (0 : ℝ) ≤ t := by linarith
  have h7 : ¬ (1 / 2 : ℝ) ≤ t := by linarith
  simp only [Nasde.classify, Nasde.table, Nasde.TableRow.hits, List.foldl_cons, List.foldl_nil, h, h2, h3, h4, h5, h6, h7, decide_true,
    decide_false, Bool.false_and, Bool.and_true, if_true, if_false, Bool.false_eq_true]

/-- It is so cold that all precipitation is snow. -/
theorem pair_cold (fuel : Nat) (s s' : State Bool) (p : Bool → ℝ) (o : Out Bool) (h : step pairCfg fuel s (pairIn p) = .ok (s', o)) :
    (∀ i, o.precipTemp i < -5) ∧ precipStep pairCfg (pairIn p) o.dew o.precipTemp o.wind s.ppt = .ok o.ppt := by
  obtain ⟨-, hl⟩ := step_linked pairCfg fuel s s' (pairIn p) o h
  refine ⟨fun i => ?_, hl.precip⟩
  rw [hl.dry rfl]
  have ha : o.airTemp i = -5 := by
    rw [hl.airTemp]
    norm_num [pairCfg, pairIn, Limits.cut, Solar.clamp]
  obtain ⟨n, r, -, h2⟩ := hl.dew i
  rw [ha] at h2
  rw [h2]
  split
  · norm_num
  · rename_i h3; exact not_le.1 h3

/-- Snow in both cells: both clocks are reset and both totals are 5. -/
theorem pair_both (fuel : Nat) (s s' : State Bool) (o : Out Bool) (h : step pairCfg fuel s (pairIn fun _ => 5) = .ok (s', o)) :
    (∀ i, o.ppt.days i = 0) ∧ ∀ i, o.ppt.total i = 5 := by
  obtain ⟨hc, hp⟩ := pair_cold fuel s s' _ o h
  have h1 := classify_cold _ (hc true)
  have h2 := classify_cold _ (hc false)
  simp only [precipStep, pairCfg, Precip.pptStep, Precip.susongStep, pairIn] at hp
  norm_num [Nasde.phaseAndDensity, Nasde.susong1999, Limits.cut, Solar.clamp, Storms.timeSinceStorm, h1, h2] at hp
  rw [← hp]
  constructor <;> intro i <;> cases i <;> norm_num [h1, h2]

/-- Snow in one cell only: the clock of the other is reset if its total is still that of a storm. -/
theorem pair_one (fuel : Nat) (s s' : State Bool) (o : Out Bool) (hs : s.ppt.days true = 0)
    (h : step pairCfg fuel s (pairIn fun i => if i = true then 0 else 5) = .ok (s', o)) :
    o.ppt.days true = if 1 ≤ s.ppt.total true then 0 else 1 := by
  obtain ⟨hc, hp⟩ := pair_cold fuel s s' _ o h
  have h2 := classify_cold _ (hc false)
  simp only [precipStep, pairCfg, Precip.pptStep, Precip.susongStep, pairIn] at hp
  norm_num [Nasde.phaseAndDensity, Nasde.susong1999, Limits.cut, Solar.clamp, Storms.timeSinceStorm, h2] at hp
  rw [← hp]
  norm_num [hs]

/-- C157 as stated is false with the model susong1999: the mass of the last storm is not in the file. Snow in both cells, then a
restart, then snow in one of them: the other has had its storm 1 day ago, in the run without the restart 0 days ago. -/
theorem C157_fails : ¬ C157_full Bool (Bool → ℝ) := by
  intro h
  obtain ⟨N, s1, o1, h1⟩ := step_runs pairCfg pair_sound (resume fun _ => 0) _ (pair_meets fun _ => 5)
  obtain ⟨N', s2, o2, h2⟩ := step_runs pairCfg pair_sound s1 _ (pair_meets fun i => if i = true then 0 else 5)
  obtain ⟨hd, ht⟩ := pair_both _ _ _ _ (h1 N le_rfl)
  obtain ⟨e1, -⟩ := step_linked _ _ _ _ _ _ (h1 N le_rfl)
  have g1 := h1 (max N N') (le_max_left _ _)
  have g2 := h2 (max N N') (le_max_right _ _)
  obtain ⟨ps', h3, h4⟩ := h pairCfg (max N N') (fun _ => 0) [] [pairIn fun i => if i = true then 0 else 5] (pairIn fun _ => 5) [] [o2] o1
    (by simp only [List.nil_append, Run.run, g1, g2]) rfl
  rw [Run.run] at h3
  split at h3
  · cases h3
  · rename_i s3 o3 g3
    simp only [Run.run, Except.ok.injEq] at h3
    rw [← h3] at h4
    have h5 := (List.forall₂_cons.1 h4).1 .stormDays trivial
    have h6 := pair_one _ _ _ _ (by rw [e1]; exact hd true) g2
    have h7 := pair_one _ _ _ _ (hd true) g3
    have h8 : o2.ppt.days true = o3.ppt.days true := by
      have h9 : (Except.ok o2.ppt.days : Except Solar.Err (Bool → ℝ)) = .ok o3.ppt.days := h5
      exact congrFun (Except.ok.inj h9) true
    rw [h6, h7, e1] at h8
    simp only [ht] at h8
    norm_num [resume, Restart.initial] at h8

end run

/-! ### The storms of the two parts -/

section storms
open Verif.Storms Verif.StormRun Verif.Causal
variable {K : Type} [LinearOrder K] [AddCommMonoid K]

/-- A storm of a record that begins `k` rows later. -/
def shift (k : Nat) (s : Storm Nat K) : Storm Nat K := ⟨s.start + k, s.stop + k, s.mass⟩

/-- The record ends with a dry spell of the length that ends storms. -/
def EndsDry (thr : K) (n : Nat) (a : List (List (Option K))) : Prop :=
  ∃ a' d, a = a' ++ d ∧ n ≤ d.length ∧ ∀ row ∈ d, wetRow thr row = false

/-- An open storm has not seen enough dry steps yet. -/
theorem step_open (thr : K) (n N : Nat) (st : Track Nat K) (row : List (Option K)) :
    (trackStep thr n st N row).cur = none ∨ (trackStep thr n st N row).cnt < n := by
  unfold trackStep trackClose
  split
  · split
    · exact .inl rfl
    · rename_i h
      exact .inr (not_le.1 h)
  · rename_i h
    exact .inl h

theorem loop_open (thr : K) (n : Nat) (a : List (List (Option K))) : ∀ (N : Nat) (st : Track Nat K), (st.cur = none ∨ st.cnt < n) →
    (trackLoop thr n st (label N a)).cur = none ∨ (trackLoop thr n st (label N a)).cnt < n := by
  induction a with
  | nil => intro N st h; exact h
  | cons row a ih => intro N st _; exact ih (N + 1) _ (step_open thr n N st row)

theorem dry_step (thr : K) (n N : Nat) (st : Track Nat K) (row : List (Option K)) (hd : wetRow thr row = false) :
    (st.cur = none → (trackStep thr n st N row).cur = none) ∧
    (st.cnt < n → (trackStep thr n st N row).cur = none ∨ (trackStep thr n st N row).cnt = st.cnt + 1) := by
  unfold trackStep trackRow
  simp only [hd, Bool.false_eq_true, if_false]
  constructor
  · intro h
    rw [h]
    simp only
    unfold trackClose
    rw [h]
    exact h
  · intro h
    cases hc : st.cur with
    | none => left; simp only; unfold trackClose; rw [hc]; exact hc
    | some s =>
      simp only [h, if_true]
      unfold trackClose
      simp only
      split
      · exact .inl rfl
      · exact .inr rfl

theorem dry_loop (thr : K) (n : Nat) (d : List (List (Option K))) : ∀ (N : Nat) (st : Track Nat K), (∀ row ∈ d, wetRow thr row = false) →
    (st.cur = none ∨ (st.cnt < n ∧ n ≤ st.cnt + d.length)) → (trackLoop thr n st (label N d)).cur = none := by
  induction d with
  | nil =>
    intro N st _ h
    rcases h with h | ⟨h1, h2⟩
    · exact h
    · simp at h2; omega
  | cons row d ih =>
    intro N st hd h
    have h0 := hd row (by simp)
    refine ih (N + 1) (trackStep thr n st N row) (fun r hr => hd r (by simp [hr])) ?_
    rcases h with h | ⟨h1, h2⟩
    · exact .inl ((dry_step thr n N st row h0).1 h)
    · rcases (dry_step thr n N st row h0).2 h1 with h3 | h3
      · exact .inl h3
      · rcases step_open thr n N st row with h4 | h4
        · exact .inl h4
        · exact .inr ⟨h4, by rw [h3]; simp at h2; omega⟩

/-- The loop on the second part, `k` rows later and after other storms. -/
theorem loop_shift (thr : K) (n k : Nat) (cl : List (Storm Nat K)) (b : List (List (Option K))) : ∀ (N : Nat) (st st' : Track Nat K),
    st'.closed = cl ++ st.closed.map (shift k) → st'.cur = st.cur.map (shift k) → (st.cur ≠ none → st'.cnt = st.cnt) →
    (trackLoop thr n st' (label (N + k) b)).closed = cl ++ (trackLoop thr n st (label N b)).closed.map (shift k) ∧
    (trackLoop thr n st' (label (N + k) b)).cur = (trackLoop thr n st (label N b)).cur.map (shift k) := by
  induction b with
  | nil => intro N st st' h1 h2 _; exact ⟨h1, h2⟩
  | cons row b ih =>
    intro N st st' h1 h2 h3
    simp only [label, trackLoop]
    rw [show N + k + 1 = N + 1 + k by omega]
    have key : (trackStep thr n st' (N + k) row).closed = cl ++ (trackStep thr n st N row).closed.map (shift k) ∧
        (trackStep thr n st' (N + k) row).cur = (trackStep thr n st N row).cur.map (shift k) ∧
        ((trackStep thr n st N row).cur ≠ none → (trackStep thr n st' (N + k) row).cnt = (trackStep thr n st N row).cnt) := by
      obtain ⟨c, u, m⟩ := st
      obtain ⟨c', u', m'⟩ := st'
      simp only at h1 h2 h3
      subst h1 h2
      unfold trackStep trackRow trackClose
      by_cases hw : wetRow thr row = true
      · cases u with
        | none => by_cases h0 : n ≤ 0 <;> simp [hw, h0, shift]
        | some s => by_cases h0 : n ≤ 0 <;> simp [hw, h0, shift]
      · cases u with
        | none => simp [hw]
        | some s =>
          have e : m' = m := h3 (by simp)
          subst e
          by_cases h4 : m' < n
          · by_cases h5 : n ≤ m' + 1 <;> simp [hw, h4, h5, shift]
          · simp [hw, h4, not_lt.1 h4]
    exact ih (N + 1) _ _ key.1 key.2.1 key.2.2

/-- If the first part ends with a dry spell of the configured length, the storms of the whole record are those of the two parts. -/
theorem C157_storms_partial (thr : K) (n : Nat) (a b : List (List (Option K))) (h : EndsDry thr n a) :
    storms thr n (a ++ b) = storms thr n a ++ (storms thr n b).map (shift a.length) := by
  set st := trackLoop thr n (⟨[], none, 0⟩ : Track Nat K) (label 0 a) with hst
  have hc : st.cur = none := by
    obtain ⟨a', d, rfl, hn, hd⟩ := h
    have e : label 0 (a' ++ d) = label 0 a' ++ label a'.length d := by rw [label_append]; simp
    rw [hst, e, loop_append]
    have ho := loop_open thr n a' 0 (⟨[], none, 0⟩ : Track Nat K) (.inl rfl)
    exact dry_loop thr n d a'.length _ hd (ho.imp_right fun h => ⟨h, by omega⟩)
  have h2 : storms thr n (a ++ b) = all (trackLoop thr n st (label a.length b)) := by
    have : label 0 (a ++ b) = label 0 a ++ label a.length b := by rw [label_append]; simp
    unfold storms trackingByStation
    simp only
    rw [this, loop_append]
    rfl
  have h1 : storms thr n a = st.closed := by
    show st.closed ++ st.cur.toList = st.closed
    rw [hc]; simp
  obtain ⟨e1, e2⟩ := loop_shift thr n a.length st.closed b 0 ⟨[], none, 0⟩ st (by simp) (by rw [hc]; rfl) (by simp)
  rw [Nat.zero_add] at e1 e2
  rw [h2, h1]
  unfold all
  rw [e1, e2]
  show _ = st.closed ++ ((trackLoop thr n ⟨[], none, 0⟩ (label 0 b)).closed ++ (trackLoop thr n ⟨[], none, 0⟩ (label 0 b)).cur.toList).map (shift a.length)
  cases (trackLoop thr n (⟨[], none, 0⟩ : Track Nat K) (label 0 b)).cur <;> simp

/-- The rows of the second part are in a storm of the whole record exactly if they are in one of the second part. -/
theorem any_shift {K : Type} [Field K] [LinearOrder K] (thr : K) (n width : Nat) (a b : List (List (Option K))) (h : EndsDry thr n a)
    (ha : ∀ row ∈ a, row.length = width) (i : Nat) :
    (storms thr n (a ++ b)).any (fun s => decide (s.start ≤ a.length + i) && decide (a.length + i ≤ s.stop)) =
      (storms thr n b).any (fun s => decide (s.start ≤ i) && decide (i ≤ s.stop)) := by
  rw [C157_storms_partial thr n a b h, List.any_append]
  have h1 : (storms thr n a).any (fun s => decide (s.start ≤ a.length + i) && decide (a.length + i ≤ s.stop)) = false := by
    rw [List.any_eq_false]
    intro s hs
    have := ((C23_ordered_disjoint thr n width a ha).2 s hs).2.1
    simp only [Bool.and_eq_true, decide_eq_true_eq, not_and, not_le]
    intro _; omega
  rw [h1, Bool.false_or, List.any_map]
  congr 1
  funext s
  simp only [Function.comp, shift]
  congr 1 <;> congr 1 <;> apply propext <;> omega

/-- Then the rows of the second part keep the same precipitation before the correction. -/
theorem C157_clip_partial {K : Type} [Field K] [LinearOrder K] (thr : K) (n width : Nat) (a b : List (List (Option K)))
    (h : EndsDry thr n a) (ha : ∀ row ∈ a, row.length = width) :
    (clip (storms thr n (a ++ b)) (a ++ b)).drop a.length = clip (storms thr n b) b := by
  apply List.ext_getElem?
  intro i
  unfold clip
  rw [List.getElem?_drop, List.getElem?_mapIdx, List.getElem?_mapIdx, List.getElem?_append_right (Nat.le_add_right _ _),
    Nat.add_sub_cancel_left]
  unfold clipRow
  rw [any_shift thr n width a b h ha i]

/-- And if the station has no precipitation outside the storms of the whole record, the corrected rows are the same too. -/
theorem C157_table_partial (thr : ℝ) (n width : Nat) (a b : List (List (Option ℝ))) (k : Nat) (hk : k < width) (h : EndsDry thr n a)
    (ha : ∀ row ∈ a, row.length = width)
    (h0 : ∀ i x, Outside (storms thr n (a ++ b)) i → at' (a ++ b) i k = some (some x) → x = 0) (i : Nat) :
    at' (corrected thr n width (a ++ b)) (a.length + i) k = at' (corrected thr n width b) i k := by
  have one : ∀ tbl : List (List (Option ℝ)), (∀ i x, Outside (storms thr n tbl) i → at' tbl i k = some (some x) → x = 0) →
      correction tbl (clip (storms thr n tbl) tbl) k = 1 := by
    intro tbl ht
    unfold correction
    simp only [total_clip_eq _ tbl k ht]
    split
    · rfl
    · rename_i h0
      exact div_self h0
  have hb : ∀ i x, Outside (storms thr n b) i → at' b i k = some (some x) → x = 0 := by
    intro j x ho hx
    refine h0 (a.length + j) x ?_ ?_
    · intro s hs hc
      have h2 := any_shift thr n width a b h ha j
      have h3 : (storms thr n (a ++ b)).any (fun s => decide (s.start ≤ a.length + j) && decide (a.length + j ≤ s.stop)) = true :=
        List.any_eq_true.2 ⟨s, hs, by simpa using hc⟩
      rw [h2] at h3
      obtain ⟨t, ht, h4⟩ := List.any_eq_true.1 h3
      exact ho t ht (by simpa using h4)
    · unfold at' at hx ⊢
      rwa [List.getElem?_append_right (Nat.le_add_right _ _), Nat.add_sub_cancel_left]
  have hk' : k ∈ (if (List.range width).length = 0 then List.range width else List.range width) := by simpa using hk
  unfold corrected clipAndCorrect at'
  simp only
  generalize (if (List.range width).length = 0 then List.range width else List.range width) = st at *
  have hc := congrArg (·[i]?) (C157_clip_partial thr n width a b h ha)
  simp only [List.getElem?_drop] at hc
  rw [List.getElem?_map, List.getElem?_map, hc]
  cases (clip (storms thr n b) b)[i]? with
  | none => rfl
  | some row =>
    simp only [Option.map_some, Option.bind_some, correctRow, List.getElem?_mapIdx]
    rw [one _ h0, one _ hb]

/-- A restart during a storm: the 1/4 mm that fall in the storm of the whole record are lost (here the two dry steps that end a storm
have not passed). -/
theorem C157_cut_fails :
    corrected (1 / 2) 2 1 ([[some 1]] ++ [[some (1 / 4)]]) = [[some 1], [some (1 / 4)]] ∧ corrected (1 / 2) 2 1 [[some (1 / 4)]] = [[some 0]] := by
  have h1 : storms (1 / 2 : ℝ) 2 ([[some 1]] ++ [[some (1 / 4)]]) = [⟨0, 1, [some 1]⟩] := by
    simp [storms, trackingByStation, label, trackLoop, trackStep, trackRow, trackClose, wetRow, rowMax]
    norm_num [addN]
  have h2 : storms (1 / 2 : ℝ) 2 [[some (1 / 4)]] = [] := by
    simp [storms, trackingByStation, label, trackLoop, trackStep, trackRow, trackClose, wetRow, rowMax]
    norm_num [addN]
  constructor
  · rw [corrected, h1]
    simp [clipAndCorrect, clip, clipRow, correctRow, correction, columnSum]
    norm_num
  · rw [corrected, h2]
    simp [clipAndCorrect, clip, clipRow, correctRow, correction, columnSum]

/-- A restart between storms, after drizzle: in the whole record the drizzle is added to the storm, in the second part there is none to
add. -/
theorem C157_drizzle_fails :
    corrected (1 / 2) 1 1 ([[some (1 / 4)]] ++ [[some 1], [some 0]]) = [[some 0], [some (5 / 4)], [some 0]] ∧
    corrected (1 / 2) 1 1 [[some 1], [some 0]] = [[some 1], [some 0]] ∧ EndsDry (1 / 2 : ℝ) 1 [[some (1 / 4)]] := by
  have h1 : storms (1 / 2 : ℝ) 1 ([[some (1 / 4)]] ++ [[some 1], [some 0]]) = [⟨1, 2, [some 1]⟩] := by
    simp [storms, trackingByStation, label, trackLoop, trackStep, trackRow, trackClose, wetRow, rowMax]
    norm_num [addN]
  have h2 : storms (1 / 2 : ℝ) 1 [[some 1], [some 0]] = [⟨0, 1, [some 1]⟩] := by
    simp [storms, trackingByStation, label, trackLoop, trackStep, trackRow, trackClose, wetRow, rowMax]
    norm_num [addN]
  refine ⟨?_, ?_, [], [[some (1 / 4)]], rfl, le_refl _, ?_⟩
  · rw [corrected, h1]
    simp [clipAndCorrect, clip, clipRow, correctRow, correction, columnSum]
    norm_num
  · rw [corrected, h2]
    simp [clipAndCorrect, clip, clipRow, correctRow, correction, columnSum]
  · intro row hr
    rw [List.mem_singleton.1 hr]
    norm_num [wetRow, rowMax]

/-- A storm, a dry spell of the configured two steps, then the second part with two storms. -/
example : EndsDry (1 / 2 : ℚ) 2 [[some 1], [some 0], [none]] ∧
    storms (1 / 2 : ℚ) 2 ([[some 1], [some 0], [none]] ++ [[some 2], [some (1 / 4)], [some 3], [some 0], [some 0], [some 4]]) =
      [⟨0, 2, [some 1]⟩, ⟨3, 7, [some 5]⟩, ⟨8, 8, [some 4]⟩] ∧
    storms (1 / 2 : ℚ) 2 [[some 2], [some (1 / 4)], [some 3], [some 0], [some 0], [some 4]] =
      [⟨0, 4, [some 5]⟩, ⟨5, 5, [some 4]⟩] :=
  ⟨⟨[[some 1]], [[some 0], [none]], rfl, le_refl _, by decide +kernel⟩, by decide +kernel, by decide +kernel⟩

end storms

end Verif.Split
