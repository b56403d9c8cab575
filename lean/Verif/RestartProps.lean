import Verif.Restart
import Verif.PrecipProps

/-!
C109: a run that is restarted from the storm days of an earlier run goes on like the uninterrupted run.
-/

namespace Verif.Restart
open Verif.Precip

section
variable {ι D T : Type} [Fintype ι]

/-- Two states with the same clock and the same images; the storm totals may differ. -/
def Same (s s' : PState ι) : Prop := s.precip = s'.precip ∧ s.perc = s'.perc ∧ s.den = s'.den ∧ s.days = s'.days

theorem marks_same (cfg : PCfg) (hg : cfg.grid = false) (hm : cfg.marks = true) (env : PEnv ι D) (inp : PIn ι D)
    (s s' : PState ι) (h : s.days = s'.days) : Same (pptStep cfg env inp s) (pptStep cfg env inp s') := by
  have key : ∀ d, Same (marksStep cfg env d inp.storming inp.stormTotal inp.temp s)
      (marksStep cfg env d inp.storming inp.stormTotal inp.temp s') := by
    intro d
    obtain ⟨h1, h2, h3⟩ := marks_indep cfg env d inp.storming inp.stormTotal inp.temp s s'
    refine ⟨h1, h2, h3, ?_⟩
    unfold marksStep
    rw [h]
    split <;> rfl
  obtain ⟨h1, h2, h3, h4⟩ := key (if cfg.undercatch = true then env.adjust inp.clipped else inp.clipped)
  unfold pptStep
  simp only [if_pos hg, if_pos hm]
  generalize marksStep cfg env _ _ _ _ s = u at *
  generalize marksStep cfg env _ _ _ _ s' = u' at *
  by_cases hw : cfg.winstral = true ∧ ∃ i, inp.dpt i < 1 / 2
  · simp only [if_pos hw]
    exact ⟨congrArg inp.redist h1, h2, h3, h4⟩
  · simp only [if_neg hw]
    exact ⟨h1, h2, h3, h4⟩

theorem run_same (cfg : PCfg) (hg : cfg.grid = false) (hm : cfg.marks = true) (env : PEnv ι D) (ls : List (PIn ι D))
    (s s' : PState ι) (h : s.days = s'.days) : List.Forall₂ Same (run cfg env s ls) (run cfg env s' ls) := by
  induction ls generalizing s s' with
  | nil => exact .nil
  | cons inp rest ih =>
    have h1 := marks_same cfg hg hm env inp s s' h
    exact .cons h1 (ih _ _ h1.2.2.2)

theorem run_length (cfg : PCfg) (env : PEnv ι D) (s : PState ι) (ls : List (PIn ι D)) : (run cfg env s ls).length = ls.length := by
  induction ls generalizing s with
  | nil => rfl
  | cons inp rest ih => simp [run, ih]

/-- The state after a list of steps. -/
noncomputable def after (cfg : PCfg) (env : PEnv ι D) (s : PState ι) (ls : List (PIn ι D)) : PState ι :=
  ls.foldl (fun s inp => pptStep cfg env inp s) s

theorem run_append (cfg : PCfg) (env : PEnv ι D) (s : PState ι) (a b : List (PIn ι D)) :
    run cfg env s (a ++ b) = run cfg env s a ++ run cfg env (after cfg env s a) b := by
  induction a generalizing s with
  | nil => rfl
  | cons inp rest ih => simp only [List.cons_append, run, ih, after, List.foldl_cons]

theorem records_one (n count : Nat) (l : List (T × PState ι)) : records 1 n count l = l.map fun p => (p.1, p.2.days) := by
  induction l generalizing count with
  | nil => rfl
  | cons p l ih =>
    obtain ⟨t, s⟩ := p
    unfold records
    rw [if_pos (by simp [Output.isOutput, Nat.mod_one]), ih]
    rfl

theorem previous_absent [DecidableEq T] (start : T) (l : List (T × (ι → ℝ))) (prev : ι → ℝ) (h : start ∉ l.map Prod.fst) :
    previous start prev l = fun _ => 0 := by
  induction l generalizing prev with
  | nil => rfl
  | cons p l ih =>
    obtain ⟨t, d⟩ := p
    simp only [List.map_cons, List.mem_cons, not_or] at h
    unfold previous
    rw [if_neg (fun e => h.1 e.symm)]
    exact ih _ h.2

theorem previous_run [DecidableEq T] (cfg : PCfg) (env : PEnv ι D) (s : PState ι) (a : List (T × PIn ι D)) (t : T)
    (r : List (T × (ι → ℝ))) (d prev : ι → ℝ) (ht : t ∉ a.map Prod.fst) (ha : a = [] → prev = s.days) :
    previous t prev ((List.zip (a.map Prod.fst) (run cfg env s (a.map Prod.snd))).map (fun p => (p.1, p.2.days)) ++ (t, d) :: r) =
      (after cfg env s (a.map Prod.snd)).days := by
  induction a generalizing s prev with
  | nil => simp [previous, run, after, ha rfl]
  | cons p a ih =>
    obtain ⟨u, inp⟩ := p
    simp only [List.map_cons, List.mem_cons, not_or] at ht
    simp only [List.map_cons, run, List.zip_cons_cons, List.cons_append, previous]
    rw [if_neg (fun e => ht.1 e.symm)]
    rw [ih (pptStep cfg env inp s) _ ht.2 (fun _ => rfl)]
    rfl

variable [DecidableEq T]

/-- The claim of C109: the restarted run goes on like the uninterrupted one, from the step `t` on. `a` are the steps before it,
`t`, `inp` and `b` the others; the file is that of a run over `a` and `c`, the next steps (possibly none) of the same run. -/
def C109_full (ι D T : Type) [Fintype ι] [DecidableEq T] : Prop := ∀ (cfg : PCfg) (env : PEnv ι D) (f : Nat) (wrap : ι → ℝ)
  (s : PState ι) (a b c : List (T × PIn ι D)) (t : T) (inp : PIn ι D), 0 < f → a ≠ [] → c <+: ((t, inp) :: b) →
  ((a ++ (t, inp) :: b).map Prod.fst).Nodup →
  List.Forall₂ Same
    (run cfg env (initial (initialDays wrap t (some (some (fileOf cfg env f s (a ++ c)))))) (inp :: b.map Prod.snd))
    ((run cfg env s ((a ++ (t, inp) :: b).map Prod.snd)).drop a.length)

/-- C109 for the marks2017 model, a file with a record of every step, and a file that goes on to the start date of the
restarted run or beyond. Storm totals are not part of the claim. -/
theorem C109_partial (cfg : PCfg) (hg : cfg.grid = false) (hm : cfg.marks = true) (env : PEnv ι D) (wrap : ι → ℝ)
    (s : PState ι) (a b c : List (T × PIn ι D)) (t : T) (inp : PIn ι D) (ha : a ≠ [])
    (hn : ((a ++ (t, inp) :: b).map Prod.fst).Nodup) :
    List.Forall₂ Same
      (run cfg env (initial (initialDays wrap t (some (some (fileOf cfg env 1 s (a ++ (t, inp) :: c)))))) (inp :: b.map Prod.snd))
      ((run cfg env s ((a ++ (t, inp) :: b).map Prod.snd)).drop a.length) := by
  have ht : t ∉ a.map Prod.fst := by
    rw [List.map_append, List.nodup_append] at hn
    intro h
    exact hn.2.2 t h t (by simp) rfl
  have hd : initialDays wrap t (some (some (fileOf cfg env 1 s (a ++ (t, inp) :: c)))) = (after cfg env s (a.map Prod.snd)).days := by
    unfold initialDays fileOf
    simp only
    rw [records_one, List.map_append, List.map_append, run_append]
    rw [List.zip_append (by rw [run_length, List.length_map, List.length_map]), List.map_append]
    simp only [List.map_cons, run, List.zip_cons_cons]
    exact previous_run cfg env s a t _ _ wrap ht (fun h => absurd h ha)
  rw [hd, List.map_append, run_append]
  have hl : a.length = (run cfg env s (a.map Prod.snd)).length := by rw [run_length, List.length_map]
  rw [hl, List.drop_left]
  exact run_same cfg hg hm env _ _ _ rfl

/-- Without a restart file, with a file that has no storm days or without the start date in it, the run starts in dry ground
from zero, whatever `wrap` is. -/
theorem C109_fresh [DecidableEq T] (cfg : PCfg) (env : PEnv ι D) (wrap : ι → ℝ) (start : T)
    (file : Option (Option (List (T × (ι → ℝ))))) (h : ∀ recs, file = some (some recs) → start ∉ recs.map Prod.fst)
    (ls : List (PIn ι D)) : run cfg env (initial (initialDays wrap start file)) ls =
      run cfg env ⟨fun _ => 0, fun _ => 0, fun _ => 0, fun _ => 0, fun _ => 0⟩ ls := by
  have : initialDays wrap start file = fun _ => 0 := by
    cases file with
    | none => rfl
    | some f =>
      cases f with
      | none => rfl
      | some recs => exact previous_absent start recs wrap (h recs rfl)
  rw [this]
  rfl

/-- C109 fails for a run that goes on where the earlier one stopped: its start date is not in the file, and the clock starts at
zero everywhere, whatever the file holds. -/
theorem C109_stopped_fails (cfg : PCfg) (env : PEnv ι D) (f : Nat) (wrap : ι → ℝ) (s : PState ι) (a : List (T × PIn ι D)) (t : T)
    (ht : t ∉ a.map Prod.fst) : initialDays wrap t (some (some (fileOf cfg env f s a))) = fun _ => 0 := by
  have hsub : ∀ (f n : Nat) (l : List (T × PState ι)) (count : Nat) (u : T), u ∈ (records f n count l).map Prod.fst →
      u ∈ l.map Prod.fst := by
    intro f n l
    induction l with
    | nil => intro count u h; exact h
    | cons p l ih =>
      intro count u h
      obtain ⟨v, x⟩ := p
      unfold records at h
      split at h
      · rw [List.map_cons] at h ⊢
        rcases List.mem_cons.1 h with h | h
        · exact List.mem_cons.2 (.inl h)
        · exact List.mem_cons_of_mem _ (ih _ _ h)
      · exact List.mem_cons_of_mem _ (ih _ _ h)
  apply previous_absent
  intro h
  have h := hsub _ _ _ _ _ h
  obtain ⟨p, hp, rfl⟩ := List.mem_map.1 h
  exact ht (List.of_mem_zip hp).1
end

/-! ### Failures -/

/-- One cell; data are the precipitation, the share of snow is given by the temperature. -/
def oneCell : PEnv Unit ℝ := ⟨id, fun d _ => d, fun temp _ => (fun _ => 0, temp), id⟩

/-- Daily steps. -/
noncomputable def daily (grid marks : Bool) : PCfg := ⟨grid, marks, false, false, 1440, 1, 6⟩

/-- A step without precipitation. -/
def dry : PIn Unit ℝ := ⟨0, 0, false, none, fun _ => 10, fun _ => 10, id⟩

/-- A step with precipitation `p` and a share of snow. -/
def wet (p share : ℝ) : PIn Unit ℝ := ⟨p, p, true, none, fun _ => share, fun _ => 10, id⟩

theorem dry_days (s : PState Unit) : (pptStep (daily false true) oneCell dry s).days () = s.days () + 1 := by
  simp [pptStep, daily, marksStep, oneCell, dry]
  norm_num

/-- C109 fails with an output frequency of two: the record before the start date is two steps old. Four dry days; restarted on
the third, the clock shows two days after it, the uninterrupted run three. -/
theorem C109_frequency_fails : ∃ x y : PState Unit,
    (run (daily false true) oneCell (initial (initialDays (T := Nat) (fun _ => 0) 2 (some (some (fileOf (daily false true) oneCell 2
      (initial fun _ => 0) [(0, dry), (1, dry), (2, dry), (3, dry)]))))) [dry, dry]).head? = some x ∧
    ((run (daily false true) oneCell (initial fun _ => 0) [dry, dry, dry, dry]).drop 2).head? = some y ∧
    x.days () = 2 ∧ y.days () = 3 := by
  refine ⟨_, _, rfl, rfl, ?_, ?_⟩
  · rw [dry_days]
    have h : initialDays (T := Nat) (fun _ => 0) 2 (some (some (fileOf (daily false true) oneCell 2
      (initial fun _ => 0) [(0, dry), (1, dry), (2, dry), (3, dry)]))) =
        (pptStep (daily false true) oneCell dry (initial fun _ => 0)).days := by
      simp [initialDays, fileOf, run, records, Output.isOutput, previous]
    simp only [initial] at h ⊢
    rw [h, ← initial, dry_days]
    show (0 : ℝ) + 1 + 1 = 2
    norm_num
  · rw [dry_days, dry_days, dry_days]
    show (0 : ℝ) + 1 + 1 + 1 = 3
    norm_num

/-- C109 fails for the susong1999 model: the storm total is not restored. A storm with snow, then a step with mixed
precipitation: the uninterrupted clock stays at zero, the restarted one goes on. -/
theorem C109_susong_fails : ∃ x y : PState Unit,
    (run (daily true false) oneCell (initial (initialDays (T := Nat) (fun _ => 0) 1 (some (some (fileOf (daily true false) oneCell 1
      (initial fun _ => 0) [(0, wet 5 1), (1, wet 5 (1 / 4))]))))) [wet 5 (1 / 4)]).head? = some x ∧
    ((run (daily true false) oneCell (initial fun _ => 0) [wet 5 1, wet 5 (1 / 4)]).drop 1).head? = some y ∧
    x.days () = 1 ∧ y.days () = 0 := by
  have h1 : (pptStep (daily true false) oneCell (wet 5 1) (initial fun _ => 0)).days = fun _ => 0 := by
    funext u
    simp [pptStep, daily, susongStep, oneCell, wet, Storms.timeSinceStorm, initial]
    norm_num
  have h2 : (pptStep (daily true false) oneCell (wet 5 1) (initial fun _ => 0)).total = fun _ => 5 := by
    funext u
    simp [pptStep, daily, susongStep, oneCell, wet, Storms.timeSinceStorm, initial]
    norm_num
  have h3 : ∀ s : PState Unit, s.days = (fun _ => 0) → (pptStep (daily true false) oneCell (wet 5 (1 / 4)) s).days () =
      if 1 ≤ s.total () then 0 else 1 := by
    intro s h
    simp [pptStep, daily, susongStep, oneCell, wet, Storms.timeSinceStorm, h]
    norm_num
  refine ⟨_, _, rfl, rfl, ?_, ?_⟩
  · rw [h3]
    · exact if_neg (by simp [initial])
    · simp only [initial] at *
      simp [initialDays, fileOf, run, records, Output.isOutput, previous, h1]
  · rw [h3 _ h1, h2]
    norm_num

/-- C109 fails in the full form, already for a run that goes on where the earlier one stopped. -/
theorem C109_fails : ¬ C109_full Unit ℝ Nat := by
  intro h
  have h := h (daily false true) oneCell 1 (fun _ => 0) (initial fun _ => 0) [(0, dry)] [] [] 1 dry (by norm_num) (by simp)
    (List.nil_prefix) (by decide)
  rw [C109_stopped_fails _ _ _ _ _ _ _ (by decide)] at h
  simp only [List.map_nil, List.cons_append, List.nil_append, List.map_cons, run, List.length_cons, List.length_nil,
    List.drop_succ_cons, List.drop_zero, zero_add] at h
  cases h with
  | cons h _ =>
    have := congrFun h.2.2.2 ()
    rw [dry_days, dry_days, dry_days] at this
    simp [initial] at this

/-- A dry day, then the restart: the clock shows two days, as in the uninterrupted run. -/
example : ∃ x, (run (daily false true) oneCell (initial (initialDays (T := Nat) (fun _ => 0) 1 (some (some (fileOf (daily false true) oneCell 1
      (initial fun _ => 0) [(0, dry), (1, dry)]))))) [dry]).head? = some x ∧ x.days () = 2 := by
  have h := C109_partial (daily false true) rfl rfl oneCell (fun _ => 0) (initial fun _ => 0) [(0, dry)] [] [] 1 dry (by simp)
    (by decide)
  refine ⟨_, rfl, ?_⟩
  simp only [List.map_nil, List.cons_append, List.nil_append, List.map_cons, run, List.length_cons, List.length_nil,
    List.drop_succ_cons, List.drop_zero, zero_add] at h
  cases h with
  | cons h _ =>
    rw [h.2.2.2, dry_days, dry_days]
    show (0 : ℝ) + 1 + 1 = 2
    norm_num

end Verif.Restart
