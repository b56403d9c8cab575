import Verif.FresherProps
import Verif.VaporProps

/-!
Warmer air, the share of snow and the age of the snow (C168). No new model; two runs side by side as in C167.
-/

namespace Verif.Fresher

open Precip
open scoped BigOperators

section
variable {ι D : Type} [Fintype ι]

/-- The same step at higher temperatures. -/
structure Warmer (cfg : PCfg) (env : PEnv ι D) (a b : PIn ι D) : Prop where
  data : used cfg env b = used cfg env a
  storm : b.storming = a.storming
  nonneg : ∀ i, 0 ≤ env.dist (used cfg env a) i
  temp : ∀ i, a.temp i ≤ b.temp i

end

/-- Claimed: at higher temperatures and with the same precipitation the snow is nowhere younger. -/
def C168_full : Prop :=
  ∀ (cfg : PCfg) (env : PEnv Unit ℝ) (s : PState Unit) (l l' : List (PIn Unit ℝ)), 0 ≤ cfg.timeStep → 0 < cfg.threshold →
    (∃ m, (cfg.marks = true ↔ m = "marks2017") ∧ Phase env m) → (∀ i, 0 ≤ s.days i) → List.Forall₂ (Warmer cfg env) l l' →
    ∀ i, (steps cfg env s l).days i ≤ (steps cfg env s l').days i

section
variable {ι D : Type} [Fintype ι]

theorem fraction_anti {x y : ℝ} (h : x ≤ y) : Nasde.fraction y ≤ Nasde.fraction x :=
  Nasde.C30_antitone 0 _ _ (by norm_num) (max_le_max le_rfl h)

theorem share_anti {x y : ℝ} (h : x ≤ y) : share y ≤ share x := by
  have := Nasde.C29_monotone (ι := Bool) (fun b => if b = true then y else x) (fun _ => (1 : ℝ)) (fun _ => zero_le_one) false true
    one_ne_zero one_ne_zero (by simpa using h)
  unfold Nasde.susong1999 at this
  norm_num at this
  exact this

/-- marks2017: at higher temperatures the snow is nowhere younger, in a run of any number of steps. -/
theorem C168_marks (cfg : PCfg) (hg : cfg.grid = false) (hm : cfg.marks = true) (env : PEnv ι D) (hp : Phase env "marks2017")
    (hts : 0 ≤ cfg.timeStep) (ht : 0 < cfg.threshold) (l l' : List (PIn ι D)) (hw : List.Forall₂ (Warmer cfg env) l l')
    (s s' : PState ι) (h0 : ∀ i, 0 ≤ s.days i) (hs : ∀ i, s.days i ≤ s'.days i) :
    ∀ i, 0 ≤ (steps cfg env s l).days i ∧ (steps cfg env s l).days i ≤ (steps cfg env s' l').days i := by
  induction hw generalizing s s' with
  | nil => exact fun i => ⟨h0 i, hs i⟩
  | @cons a b l l' w _ ih =>
    have hd : 0 ≤ cfg.timeStep / 60 / 24 := by positivity
    have key : ∀ i, 0 ≤ (pptStep cfg env a s).days i ∧ (pptStep cfg env a s).days i ≤ (pptStep cfg env b s').days i := by
      intro i
      rw [ppt_days, ppt_days]
      simp only [hg, hm, Bool.false_eq_true, reduceIte]
      have A := marks_days cfg env hp ht (used cfg env a) a.storming a.stormTotal a.temp s i
      have B := marks_days cfg env hp ht (used cfg env b) b.storming b.stormTotal b.temp s' i
      have h0 := h0 i
      have hs := hs i
      rcases A with ⟨a1, -⟩ | ⟨a1, a2⟩ <;> rcases B with ⟨b1, b2, b3, ⟨j, b4⟩, b5, b6⟩ | ⟨b1, -⟩
      · rw [a1, b1]; exact ⟨le_rfl, le_rfl⟩
      · rw [a1, b1]; exact ⟨le_rfl, by linarith⟩
      · rw [w.data] at b2 b5
        rw [w.storm] at b3
        exact absurd ⟨b2, b3, ⟨j, (w.temp j).trans_lt b4⟩, b5, b6.trans (fraction_anti (w.temp i))⟩ a2
      · rw [a1, b1]; exact ⟨by linarith, by linarith⟩
    exact ih (pptStep cfg env a s) (pptStep cfg env b s') (fun i => (key i).1) (fun i => (key i).2)

/-- The share of snow is nowhere larger: each step by itself, for both snow models. -/
theorem C168_share (cfg : PCfg) (env : PEnv ι D) (m : String) (hm : cfg.marks = true ↔ m = "marks2017")
    (hm' : m = "marks2017" ∨ m = "susong1999") (hgm : cfg.grid = true → cfg.marks = false) (hp : Phase env m) (a b : PIn ι D)
    (w : Warmer cfg env a b) (hu : cfg.grid = true ∨ cfg.marks = true ∨ cfg.undercatch = true) (s s' : PState ι) (i : ι) :
    (pptStep cfg env b s').perc i ≤ (pptStep cfg env a s).perc i := by
  have e : ∀ (x : PIn ι D) (u : PState ι), (pptStep cfg env x u).perc =
      if cfg.marks = true then (marksStep cfg env (used cfg env x) x.storming x.stormTotal x.temp u).perc
      else (susongStep cfg env (used cfg env x) x.temp u).perc := by
    intro x u
    unfold pptStep used
    revert hu hgm
    cases cfg.grid <;> cases cfg.marks <;> cases cfg.undercatch <;> simp only [reduceIte, Bool.false_eq_true, Bool.true_eq_false, or_self, or_true, true_or, false_imp_iff, forall_const] <;>
      first | (intro hgm hu; split <;> rfl) | (intros; split <;> rfl) | (intros; contradiction)
  rw [e, e]
  by_cases hmk : cfg.marks = true
  · rw [if_pos hmk, if_pos hmk]
    have hmod := hm.1 hmk
    subst hmod
    have pc : ∀ t p, (env.phase t p).2 = (Nasde.marks2017 t p).pcs := by
      intro t p
      have := hp t p
      unfold Nasde.phaseAndDensity at this
      rw [if_neg (by decide), if_neg (by decide), if_pos rfl] at this
      exact (congrArg Prod.snd (Except.ok.inj this)).symm
    unfold marksStep
    rw [w.data]
    by_cases h1 : 0 < env.sum (used cfg env a)
    · rw [if_pos h1, if_pos h1]
      by_cases h2 : b.storming = true ∧ ∃ j, b.temp j < 2
      · have h2' : a.storming = true ∧ ∃ j, a.temp j < 2 := ⟨w.storm ▸ h2.1, by
          obtain ⟨j, hj⟩ := h2.2
          exact ⟨j, (w.temp j).trans_lt hj⟩⟩
        simp only [if_pos h2, if_pos h2', pc]
        by_cases h3 : ∃ j, 0 < env.dist (used cfg env a) j
        · rw [Nasde.marks_pcs _ _ h3, Nasde.marks_pcs _ _ h3]
          exact fraction_anti (w.temp i)
        · unfold Nasde.marks2017
          simp only [if_neg h3, le_refl]
      · simp only [if_neg h2]
        by_cases h2' : a.storming = true ∧ ∃ j, a.temp j < 2
        · simp only [if_pos h2', pc]
          exact (Nasde.C32_swe _ _ i).2.1
        · simp only [if_neg h2', le_refl]
    · rw [if_neg h1, if_neg h1]
  · rw [if_neg hmk, if_neg hmk]
    have hmod : m = "susong1999" := by
      rcases hm' with h | h
      · exact absurd (hm.2 h) hmk
      · exact h
    subst hmod
    unfold susongStep
    rw [w.data]
    by_cases h1 : 0 < env.sum (used cfg env a)
    · rw [if_pos h1, if_pos h1]
      show (env.phase b.temp _).2 i ≤ (env.phase a.temp _).2 i
      rw [susong_perc env hp _ _ w.nonneg, susong_perc env hp _ _ w.nonneg]
      split
      · exact le_rfl
      · exact share_anti (w.temp i)
    · rw [if_neg h1, if_neg h1]

/-- The dew point, cut below the air temperature, is no lower in warmer air with the same vapor pressure. -/
theorem C168_dew (dpt ta ta' d d' : ℝ) (h : ta ≤ ta') (hd : Vapor.limitDew (some dpt) (some ta) = some d)
    (hd' : Vapor.limitDew (some dpt) (some ta') = some d') : d ≤ d' := by
  unfold Vapor.limitDew at hd hd'
  simp only at hd hd'
  split_ifs at hd hd' <;> simp only [Option.some.injEq] at hd hd' <;> linarith

/-- So is the precipitation temperature that `vp.distribute` publishes, where it is the dew point. -/
theorem C168_image (lo hi : Option ℝ) (solve : Option ℝ → Option ℝ) (img : ι → Option ℝ) (ta ta' : ι → ℝ) (h : ∀ i, ta i ≤ ta' i)
    (i : ι) (d d' : ℝ) (hd : (Vapor.distribute lo hi solve none img fun i => some (ta i)).precipTemp i = some d)
    (hd' : (Vapor.distribute lo hi solve none img fun i => some (ta' i)).precipTemp i = some d') : d ≤ d' := by
  have e : Vapor.limitDew (solve (Utils.clampCell lo hi (img i))) (some (ta i)) = some d := hd
  have e' : Vapor.limitDew (solve (Utils.clampCell lo hi (img i))) (some (ta' i)) = some d' := hd'
  cases hs : solve (Utils.clampCell lo hi (img i)) with
  | none => rw [hs] at e; simp [Vapor.limitDew] at e
  | some x =>
    rw [hs] at e e'
    exact C168_dew x _ _ _ _ (h i) e e'

/-- For susong1999 it is so if snow that turns to rain was enough for a storm. -/
theorem C168_susong_partial (cfg : PCfg) (hg : cfg.grid = true) (env : PEnv ι D) (hp : Phase env "susong1999")
    (hts : 0 ≤ cfg.timeStep) (ht : 0 < cfg.threshold) (l l' : List (PIn ι D))
    (hw : List.Forall₂ (fun a b => Warmer cfg env a b ∧ ∀ i, env.dist (used cfg env a) i ≠ 0 → share (b.temp i) < 1 / 2 →
      1 / 2 ≤ share (a.temp i) → cfg.threshold ≤ env.dist (used cfg env a) i) l l')
    (s s' : PState ι) (h0 : ∀ i, 0 ≤ s.days i) (hs : ∀ i, s.days i ≤ s'.days i)
    (hm : ∀ i, cfg.threshold ≤ s'.total i → cfg.threshold ≤ s.total i) :
    ∀ i, (steps cfg env s l).days i ≤ (steps cfg env s' l').days i := by
  induction hw generalizing s s' with
  | nil => exact hs
  | @cons a b l l' w' _ ih =>
    obtain ⟨w, wm⟩ := w'
    have hd : 0 ≤ cfg.timeStep / 60 / 24 := by positivity
    have key : ∀ i, 0 ≤ (susongStep cfg env (used cfg env a) a.temp s).days i ∧
        (susongStep cfg env (used cfg env a) a.temp s).days i ≤ (susongStep cfg env (used cfg env b) b.temp s').days i ∧
        (cfg.threshold ≤ (susongStep cfg env (used cfg env b) b.temp s').total i →
          cfg.threshold ≤ (susongStep cfg env (used cfg env a) a.temp s).total i) := by
      intro i
      unfold susongStep
      rw [w.data]
      by_cases hwet : 0 < env.sum (used cfg env a)
      · rw [if_pos hwet, if_pos hwet]
        have pa := susong_perc env hp a.temp (env.dist (used cfg env a)) w.nonneg
        have pb := susong_perc env hp b.temp (env.dist (used cfg env a)) w.nonneg
        have na : ∀ j, 0 ≤ (env.phase a.temp (env.dist (used cfg env a))).2 j := by
          intro j; rw [pa]; split; exacts [le_rfl, share_nonneg _]
        have nb : ∀ j, 0 ≤ (env.phase b.temp (env.dist (used cfg env a))).2 j := by
          intro j; rw [pb]; split; exacts [le_rfl, share_nonneg _]
        obtain ⟨A1, A2⟩ := susong_cell (env.dist (used cfg env a)) _ (cfg.timeStep / 60 / 24) cfg.threshold cfg.timeToEnd ht ⟨s.days, s.total⟩ na i
        obtain ⟨B1, B2⟩ := susong_cell (env.dist (used cfg env a)) _ (cfg.timeStep / 60 / 24) cfg.threshold cfg.timeToEnd ht ⟨s'.days, s'.total⟩ nb i
        have imp : cfg.threshold ≤ (Storms.timeSinceStorm (env.dist (used cfg env a)) (env.phase b.temp (env.dist (used cfg env a))).2
            (cfg.timeStep / 60 / 24) cfg.threshold cfg.timeToEnd (1 / 2) ⟨s'.days, s'.total⟩).precip i →
            cfg.threshold ≤ (Storms.timeSinceStorm (env.dist (used cfg env a)) (env.phase a.temp (env.dist (used cfg env a))).2
            (cfg.timeStep / 60 / 24) cfg.threshold cfg.timeToEnd (1 / 2) ⟨s.days, s.total⟩).precip i := by
          rw [A2, B2]
          rintro ⟨⟨j, hj⟩, hi⟩
          refine ⟨⟨j, ?_⟩, ?_⟩
          · rw [pb] at hj
            rw [pa]
            split_ifs at hj ⊢ with hz
            · exact hj
            · exact hj.trans_le (share_anti (w.temp j))
          · rw [pb] at hi
            rw [pa]
            by_cases hz : env.dist (used cfg env a) i = 0
            · rw [if_pos hz, if_neg (by norm_num)] at hi ⊢
              exact ⟨lt_of_le_of_lt (by linarith [hs i]) hi.1, hm i hi.2⟩
            · rw [if_neg hz] at hi ⊢
              by_cases hh : 1 / 2 ≤ share (b.temp i)
              · rw [if_pos hh] at hi
                rw [if_pos (hh.trans (share_anti (w.temp i)))]
                exact hi
              · rw [if_neg hh] at hi
                by_cases hh' : 1 / 2 ≤ share (a.temp i)
                · rw [if_pos hh']
                  exact wm i hz (not_le.1 hh) hh'
                · rw [if_neg hh']
                  exact ⟨lt_of_le_of_lt (by linarith [hs i]) hi.1, hm i hi.2⟩
        refine ⟨?_, ?_, imp⟩
        · show 0 ≤ (Storms.timeSinceStorm _ _ _ _ _ _ _).days i
          rw [A1]
          split
          · exact le_rfl
          · show 0 ≤ s.days i + 1
            linarith [h0 i]
        · show (Storms.timeSinceStorm _ _ _ _ _ _ _).days i ≤ (Storms.timeSinceStorm _ _ _ _ _ _ _).days i
          rw [A1, B1]
          split
          · split
            · exact le_rfl
            · show 0 ≤ s'.days i + 1
              linarith [h0 i, hs i]
          · rename_i hA
            rw [if_neg (fun h => hA (imp h))]
            show s.days i + 1 ≤ s'.days i + 1
            linarith [hs i]
      · rw [if_neg hwet, if_neg hwet]
        exact ⟨add_nonneg (h0 i) hd, add_le_add (hs i) le_rfl, hm i⟩
    have tot : ∀ (x : PIn ι D) (u : PState ι),
        (pptStep cfg env x u).days = (susongStep cfg env (used cfg env x) x.temp u).days ∧
        (pptStep cfg env x u).total = (susongStep cfg env (used cfg env x) x.temp u).total := by
      intro x u
      unfold pptStep used
      rw [hg]
      simp only [Bool.true_eq_false, reduceIte]
      split <;> exact ⟨rfl, rfl⟩
    refine ih (pptStep cfg env a s) (pptStep cfg env b s') ?_ ?_ ?_ <;> intro i
    · rw [(tot a s).1]; exact (key i).1
    · rw [(tot b s').1, (tot a s).1]; exact (key i).2.1
    · rw [(tot b s').2, (tot a s).2]; exact (key i).2.2

end

/-! ### Where it goes wrong -/

/-- One cell with gridded data. -/
noncomputable def gridded : PEnv Unit ℝ := ⟨id, fun d _ => d, (images Unit).phase, id⟩

/-- A step of it. -/
noncomputable def atTemp (t p : ℝ) : PIn Unit ℝ := ⟨p, p, false, none, fun _ => t, fun _ => t, id⟩

theorem atTemp_warmer {p t t' : ℝ} (hp : 0 ≤ p) (h : t ≤ t') : Warmer hourly gridded (atTemp t p) (atTemp t' p) :=
  ⟨rfl, rfl, fun _ => hp, fun _ => h⟩

theorem share_mixed : share (1 / 4) = 1 / 4 := by
  unfold share
  rw [Nasde.classify_eq]
  unfold Nasde.documented
  norm_num

/-- A wet step in terms of the share of snow. -/
theorem gridded_step (t p : ℝ) (u : PState Unit) (hp : 0 < p) (hs : 0 < share t) :
    (pptStep hourly gridded (atTemp t p) u).days () =
        (if (if 1 / 2 ≤ share t then 1 ≤ p else u.days () + 1 < 4 ∧ 1 ≤ u.total ()) then 0 else u.days () + 1) ∧
      (1 ≤ (pptStep hourly gridded (atTemp t p) u).total () ↔
        if 1 / 2 ≤ share t then 1 ≤ p else u.days () + 1 < 4 ∧ 1 ≤ u.total ()) := by
  have pr : ((images Unit).phase (fun _ => t) fun _ => p).2 () = share t := by
    rw [susong_perc _ (images_phase Unit) _ _ (fun _ => hp.le), if_neg hp.ne']
  obtain ⟨A, B⟩ := susong_cell (fun _ : Unit => p) ((images Unit).phase (fun _ => t) fun _ => p).2 (60 / 60 / 24) 1 4 one_pos ⟨u.days, u.total⟩
    (fun _ => pr ▸ hs.le) ()
  have hd : (pptStep hourly gridded (atTemp t p) u).days = (Storms.timeSinceStorm (fun _ => p) ((images Unit).phase (fun _ => t) fun _ => p).2 (60 / 60 / 24) 1 4 (1 / 2) ⟨u.days, u.total⟩).days ∧
      (pptStep hourly gridded (atTemp t p) u).total = (Storms.timeSinceStorm (fun _ => p) ((images Unit).phase (fun _ => t) fun _ => p).2 (60 / 60 / 24) 1 4 (1 / 2) ⟨u.days, u.total⟩).precip := by
    unfold pptStep susongStep
    rw [show hourly.grid = true from rfl, show hourly.winstral = false from rfl]
    simp only [Bool.true_eq_false, Bool.false_eq_true, reduceIte, false_and]
    rw [if_pos (show 0 < gridded.sum (atTemp t p).data from hp)]
    exact ⟨rfl, rfl⟩
  have B' : 1 ≤ (pptStep hourly gridded (atTemp t p) u).total () ↔ if 1 / 2 ≤ share t then 1 ≤ p else u.days () + 1 < 4 ∧ 1 ≤ u.total () := by
    rw [hd.2, B, pr]
    exact ⟨fun h => h.2, fun h => ⟨⟨(), pr ▸ hs⟩, h⟩⟩
  refine ⟨?_, B'⟩
  rw [hd.1, A, ← hd.2]
  simp only [B']

/-- Ten millimetres of snow, then a tenth of a millimetre: as snow it leaves the snow a day old, as rain with some snow it leaves it
new. -/
theorem C168_rain_fails (s : PState Unit) :
    (steps hourly gridded s [atTemp (-6) 10, atTemp (-6) (1 / 10)]).days () = 1 ∧
      (steps hourly gridded s [atTemp (-6) 10, atTemp (1 / 4) (1 / 10)]).days () = 0 := by
  have c : 0 < share (-6) := by rw [share_cold]; norm_num
  have m : 0 < share (1 / 4) := by rw [share_mixed]; norm_num
  obtain ⟨d1, t1⟩ := gridded_step (-6) 10 s (by norm_num) c
  rw [share_cold] at d1 t1
  have d1 : (pptStep hourly gridded (atTemp (-6) 10) s).days () = 0 := by rw [d1]; norm_num
  have t1 : 1 ≤ (pptStep hourly gridded (atTemp (-6) 10) s).total () := by rw [t1]; norm_num
  constructor
  · show (pptStep hourly gridded (atTemp (-6) (1 / 10)) (pptStep hourly gridded (atTemp (-6) 10) s)).days () = 1
    rw [(gridded_step (-6) (1 / 10) _ (by norm_num) c).1, share_cold, d1]
    norm_num
  · show (pptStep hourly gridded (atTemp (1 / 4) (1 / 10)) (pptStep hourly gridded (atTemp (-6) 10) s)).days () = 0
    rw [(gridded_step (1 / 4) (1 / 10) _ (by norm_num) m).1, share_mixed, d1, if_pos]
    rw [if_neg (by norm_num)]
    exact ⟨by norm_num, t1⟩

theorem C168_fails : ¬ C168_full := by
  intro h
  let s : PState Unit := ⟨fun _ => 0, fun _ => 0, fun _ => 0, fun _ => 0, fun _ => 0⟩
  have := h hourly gridded s [atTemp (-6) 10, atTemp (-6) (1 / 10)] [atTemp (-6) 10, atTemp (1 / 4) (1 / 10)] (by norm_num [hourly])
    (by norm_num [hourly]) ⟨"susong1999", by rw [show hourly.marks = false from rfl]; decide, images_phase Unit⟩ (fun _ => le_rfl)
    (.cons (atTemp_warmer (by norm_num) le_rfl) (.cons (atTemp_warmer (by norm_num) (by norm_num)) .nil)) ()
  rw [(C168_rain_fails s).1, (C168_rain_fails s).2] at this
  norm_num at this

/-! ### Examples -/

/-- One degree warmer in all steps of a run with marks2017. -/
example (l : List (ℝ × ℝ)) (hl : ∀ x ∈ l, 0 ≤ x.2) (s : PState Unit) (h0 : ∀ i, 0 ≤ s.days i) :
    (steps stations single s (l.map fun x => ⟨x.2, x.2, true, none, fun _ => x.1, fun _ => x.1, id⟩)).days () ≤
      (steps stations single s (l.map fun x => ⟨x.2, x.2, true, none, fun _ => x.1 + 1, fun _ => x.1 + 1, id⟩)).days () := by
  refine (C168_marks stations rfl rfl single (fun _ _ => rfl) (by norm_num [stations]) (by norm_num [stations]) _ _ ?_ s s h0
    (fun _ => le_rfl) ()).2
  rw [List.forall₂_map_right_iff, List.forall₂_map_left_iff, List.forall₂_same]
  intro x hx
  exact ⟨rfl, rfl, fun _ => hl x hx, fun _ => show x.1 ≤ x.1 + 1 by linarith⟩

/-- Storms of five millimetres with gridded data. -/
example (l : List ℝ) (s : PState Unit) (h0 : ∀ i, 0 ≤ s.days i) :
    (steps hourly gridded s (l.map fun t => atTemp t 5)).days () ≤ (steps hourly gridded s (l.map fun t => atTemp (t + 2) 5)).days () := by
  refine C168_susong_partial hourly rfl gridded (images_phase Unit) (by norm_num [hourly]) (by norm_num [hourly]) _ _ ?_ s s h0
    (fun _ => le_rfl) (fun _ h => h) ()
  rw [List.forall₂_map_right_iff, List.forall₂_map_left_iff, List.forall₂_same]
  intro t _
  exact ⟨atTemp_warmer (by norm_num) (by linarith), fun _ _ _ _ => show (1 : ℝ) ≤ 5 by norm_num⟩

/-- Saturated air that warms from 1 to 2 degrees: the dew point goes from 0.8 to 1.8. -/
example : Vapor.limitDew (some 3) (some 1) = some (1 - 2 / 10) ∧ Vapor.limitDew (some 3) (some 2) = some (2 - 2 / 10) := by
  constructor <;> norm_num [Vapor.limitDew]

end Verif.Fresher
