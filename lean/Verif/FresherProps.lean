import Verif.PrecipProps
import Verif.NasdeProps
import Verif.AlbedoProps
import Verif.StormsProps

/-!
More snowfall and the age of the snow (C167). No new model: the step of the precipitation class (`Precip.pptStep`), the storm clocks
(`Storms`), the snow models (`Nasde`) and the albedo of snow of a given age (`Albedo.albedo`).
-/

namespace Verif.Fresher

open Precip
open scoped BigOperators

section
variable {ι D : Type} [Fintype ι]

/-- The data of a step that are distributed. -/
def used (cfg : PCfg) (env : PEnv ι D) (a : PIn ι D) : D :=
  if cfg.grid = true then a.data
  else if cfg.marks = true then (if cfg.undercatch = true then env.adjust a.clipped else a.clipped)
  else env.adjust a.data

/-- The same step with more precipitation: nowhere less, and a storm goes on. -/
structure Wetter (cfg : PCfg) (env : PEnv ι D) (a b : PIn ι D) : Prop where
  temp : b.temp = a.temp
  sum : env.sum (used cfg env a) ≤ env.sum (used cfg env b)
  nonneg : ∀ i, 0 ≤ env.dist (used cfg env a) i
  dist : ∀ i, env.dist (used cfg env a) i ≤ env.dist (used cfg env b) i
  storm : a.storming = true → b.storming = true

/-- The steps of a run. -/
noncomputable def steps (cfg : PCfg) (env : PEnv ι D) (s : PState ι) (l : List (PIn ι D)) : PState ι :=
  l.foldl (fun s a => pptStep cfg env a s) s

/-- The snow model of the configuration. -/
def Phase (env : PEnv ι D) (model : String) : Prop := ∀ t p, Nasde.phaseAndDensity t p model = .ok (env.phase t p)

end

/-- Claimed: with more precipitation at the same temperatures the snow is nowhere older. -/
def C167_full : Prop :=
  ∀ (cfg : PCfg) (env : PEnv Unit ℝ) (s : PState Unit) (l l' : List (PIn Unit ℝ)), 0 ≤ cfg.timeStep → 0 < cfg.threshold →
    (∃ m, (cfg.marks = true ↔ m = "marks2017") ∧ Phase env m) → (∀ i, 0 ≤ s.days i) → List.Forall₂ (Wetter cfg env) l l' →
    ∀ i, (steps cfg env s l').days i ≤ (steps cfg env s l).days i

section
variable {ι D : Type} [Fintype ι]

theorem ppt_days (cfg : PCfg) (env : PEnv ι D) (a : PIn ι D) (s : PState ι) :
    (pptStep cfg env a s).days =
      if cfg.grid = true then (susongStep cfg env (used cfg env a) a.temp s).days
      else if cfg.marks = true then (marksStep cfg env (used cfg env a) a.storming a.stormTotal a.temp s).days
      else if cfg.undercatch = true then (susongStep cfg env (used cfg env a) a.temp s).days
      else s.days := by
  unfold pptStep used
  cases cfg.grid <;> cases cfg.marks <;> cases cfg.undercatch <;> simp only [reduceIte, Bool.false_eq_true] <;> split <;> rfl

/-- One step of the marks2017 clock at a cell. -/
theorem marks_days (cfg : PCfg) (env : PEnv ι D) (hp : Phase env "marks2017") (ht : 0 < cfg.threshold) (d : D) (st : Bool)
    (tot : Option (ι → ℝ)) (temp : ι → ℝ) (s : PState ι) (i : ι) :
    (marksStep cfg env d st tot temp s).days i = 0 ∧
        (0 < env.sum d ∧ st = true ∧ (∃ j, temp j < 2) ∧ cfg.threshold ≤ env.dist d i ∧ 1 / 2 ≤ Nasde.fraction (temp i)) ∨
      (marksStep cfg env d st tot temp s).days i = s.days i + cfg.timeStep / 60 / 24 ∧
        ¬ (0 < env.sum d ∧ st = true ∧ (∃ j, temp j < 2) ∧ cfg.threshold ≤ env.dist d i ∧ 1 / 2 ≤ Nasde.fraction (temp i)) := by
  unfold marksStep
  by_cases h1 : 0 < env.sum d
  · rw [if_pos h1]
    by_cases h2 : st = true ∧ ∃ j, temp j < 2
    · have e : (env.phase temp (env.dist d)).2 = (Nasde.marks2017 temp (env.dist d)).pcs := by
        have := hp temp (env.dist d)
        unfold Nasde.phaseAndDensity at this
        rw [if_neg (by decide), if_neg (by decide), if_pos rfl] at this
        exact (congrArg Prod.snd (Except.ok.inj this)).symm
      have h2' : st = true ∧ Storms.coldSomewhere temp := h2
      simp only [if_pos h2, Storms.timeSinceStormPixel, if_pos h2', e]
      by_cases h3 : cfg.threshold ≤ env.dist d i
      · rw [Nasde.marks_pcs temp (env.dist d) ⟨i, ht.trans_le h3⟩ i]
        by_cases h4 : 1 / 2 ≤ Nasde.fraction (temp i)
        · rw [if_pos ⟨h3, h4⟩]
          exact Or.inl ⟨rfl, h1, h2.1, h2.2, h3, h4⟩
        · rw [if_neg (fun h => h4 h.2)]
          exact Or.inr ⟨rfl, fun h => h4 h.2.2.2.2⟩
      · rw [if_neg (fun h => h3 h.1)]
        exact Or.inr ⟨rfl, fun h => h3 h.2.2.2.1⟩
    · have h2' : ¬ (st = true ∧ Storms.coldSomewhere temp) := h2
      simp only [Storms.timeSinceStormPixel, if_neg h2']
      exact Or.inr ⟨trivial, fun h => h2 ⟨h.2.1, h.2.2.1⟩⟩
  · rw [if_neg h1]
    exact Or.inr ⟨rfl, fun h => h1 h.1⟩

/-- With the model marks2017 the snow is nowhere older when there is more precipitation, in a run of any number of steps. -/
theorem C167_marks (cfg : PCfg) (hg : cfg.grid = false) (hm : cfg.marks = true) (env : PEnv ι D) (hp : Phase env "marks2017")
    (hts : 0 ≤ cfg.timeStep) (ht : 0 < cfg.threshold) (l l' : List (PIn ι D)) (hw : List.Forall₂ (Wetter cfg env) l l')
    (s s' : PState ι) (h0 : ∀ i, 0 ≤ s'.days i) (hs : ∀ i, s'.days i ≤ s.days i) :
    ∀ i, 0 ≤ (steps cfg env s' l').days i ∧ (steps cfg env s' l').days i ≤ (steps cfg env s l).days i := by
  induction hw generalizing s s' with
  | nil => exact fun i => ⟨h0 i, hs i⟩
  | @cons a b l l' w _ ih =>
    have hd : 0 ≤ cfg.timeStep / 60 / 24 := by positivity
    have key : ∀ i, 0 ≤ (pptStep cfg env b s').days i ∧ (pptStep cfg env b s').days i ≤ (pptStep cfg env a s).days i := by
      intro i
      rw [ppt_days, ppt_days]
      simp only [hg, hm, Bool.false_eq_true, reduceIte]
      have A := marks_days cfg env hp ht (used cfg env a) a.storming a.stormTotal a.temp s i
      have B := marks_days cfg env hp ht (used cfg env b) b.storming b.stormTotal b.temp s' i
      have h0 := h0 i
      have hs := hs i
      rcases A with ⟨a1, a2, a3, a4, a5, a6⟩ | ⟨a1, -⟩ <;> rcases B with ⟨b1, -⟩ | ⟨b1, b2⟩
      · rw [a1, b1]; exact ⟨le_rfl, le_rfl⟩
      · exact absurd ⟨lt_of_lt_of_le a2 w.sum, w.storm a3, by rw [w.temp]; exact a4, a5.trans (w.dist i), by rw [w.temp]; exact a6⟩ b2
      · rw [a1, b1]; exact ⟨le_rfl, by linarith⟩
      · rw [a1, b1]; exact ⟨by linarith, by linarith⟩
    exact ih (pptStep cfg env a s) (pptStep cfg env b s') (fun i => (key i).1) (fun i => (key i).2)

/-- And nowhere darker. -/
theorem C167_albedo (cfg : PCfg) (hg : cfg.grid = false) (hm : cfg.marks = true) (env : PEnv ι D) (hp : Phase env "marks2017")
    (hts : 0 ≤ cfg.timeStep) (ht : 0 < cfg.threshold) (l l' : List (PIn ι D)) (hw : List.Forall₂ (Wetter cfg env) l l')
    (s : PState ι) (h0 : ∀ i, 0 ≤ s.days i) (c : ι → ℝ) (hc : ∀ i, -1 ≤ c i ∧ c i ≤ 1) (g m d : ℝ) (ha : Albedo.Accepted g m d) :
    ∃ v ir v' ir', Albedo.albedo (steps cfg env s l).days c g m d = .ok (v, ir) ∧
      Albedo.albedo (steps cfg env s l').days c g m d = .ok (v', ir') ∧ ∀ i, v i ≤ v' i ∧ ir i ≤ ir' i := by
  have h := C167_marks cfg hg hm env hp hts ht l l' hw s s h0 (fun i => le_rfl)
  obtain ⟨v', ir', v, ir, e1, e2, e3⟩ := Albedo.C36_declines _ _ c g m d ha (fun i => (h i).1) (fun i => (h i).2) hc
  exact ⟨v, ir, v', ir', e2, e1, e3⟩

/-! ### susong1999 -/

/-- The fraction of snow of the table of susong1999 for a wet cell. -/
noncomputable def share (t : ℝ) : ℝ := (Nasde.classify (some t)).1

/-- What has to be added to `Wetter` for the model susong1999: both steps are wet or both are dry, and a cell that gets snow
though it was dry gets at least the mass of a storm. -/
structure Enough (cfg : PCfg) (env : PEnv ι D) (a b : PIn ι D) : Prop extends Wetter cfg env a b where
  wet : 0 < env.sum (used cfg env b) → 0 < env.sum (used cfg env a)
  mass : ∀ i, env.dist (used cfg env a) i = 0 → env.dist (used cfg env b) i ≠ 0 → 1 / 2 ≤ share (a.temp i) →
    cfg.threshold ≤ env.dist (used cfg env b) i

theorem share_nonneg (t : ℝ) : 0 ≤ share t := by
  unfold share
  rw [Nasde.classify_eq]
  unfold Nasde.documented
  split_ifs <;> norm_num

theorem susong_perc (env : PEnv ι D) (hp : Phase env "susong1999") (t p : ι → ℝ) (h : ∀ i, 0 ≤ p i) (i : ι) :
    (env.phase t p).2 i = if p i = 0 then 0 else share (t i) := by
  have := hp t p
  unfold Nasde.phaseAndDensity at this
  rw [if_pos rfl] at this
  rw [← congrArg Prod.snd (Except.ok.inj this)]
  show (Nasde.susong1999 (fun i => some (t i)) p i).1 = _
  unfold Nasde.susong1999
  by_cases hs : ∑ j, p j = 0
  · rw [if_pos hs, if_pos ((Finset.sum_eq_zero_iff_of_nonneg (fun j _ => h j)).1 hs i (Finset.mem_univ i))]
  · rw [if_neg hs]
    split <;> rfl

/-- A cell of the clock after a step of susong1999. -/
theorem susong_cell (p perc : ι → ℝ) (dt mass time : ℝ) (hm : 0 < mass) (c : Storms.Clock ι ℝ) (hn : ∀ j, 0 ≤ perc j) (i : ι) :
    (Storms.timeSinceStorm p perc dt mass time (1 / 2) c).days i =
        (if mass ≤ (Storms.timeSinceStorm p perc dt mass time (1 / 2) c).precip i then 0 else c.days i + 1) ∧
      (mass ≤ (Storms.timeSinceStorm p perc dt mass time (1 / 2) c).precip i ↔
        (∃ j, 0 < perc j) ∧ if 1 / 2 ≤ perc i then mass ≤ p i else c.days i + 1 < time ∧ mass ≤ c.precip i) := by
  unfold Storms.timeSinceStorm
  by_cases hs : ∑ j, perc j = 0
  · simp only [if_pos hs]
    have hz := (Finset.sum_eq_zero_iff_of_nonneg (fun j _ => hn j)).1 hs
    refine ⟨by rw [if_neg (not_le.2 hm)], ⟨fun h => absurd h (not_le.2 hm), ?_⟩⟩
    rintro ⟨⟨j, hj⟩, -⟩
    exact absurd (hz j (Finset.mem_univ j)) hj.ne'
  · simp only [if_neg hs]
    have hex : ∃ j, 0 < perc j := by
      by_contra hno
      exact hs (Finset.sum_eq_zero fun j _ => le_antisymm (not_lt.1 fun h => hno ⟨j, h⟩) (hn j))
    refine ⟨trivial, ?_⟩
    by_cases h1 : 1 / 2 ≤ perc i
    · rw [if_pos h1, if_pos h1]
      exact ⟨fun h => ⟨hex, h⟩, fun h => h.2⟩
    · rw [if_neg h1, if_neg h1]
      by_cases h2 : time ≤ c.days i + 1
      · rw [if_pos h2]
        exact ⟨fun h => absurd h (not_le.2 hm), fun h => absurd h.2.1 (not_lt.2 h2)⟩
      · rw [if_neg h2]
        exact ⟨fun h => ⟨hex, not_le.1 h2, h⟩, fun h => h.2.2⟩

/-- For the model susong1999 it is so if no step becomes wet that was dry, and no cell that was dry gets less snow than the mass of a
storm. -/
theorem C167_susong_partial (cfg : PCfg) (hg : cfg.grid = true ∨ cfg.marks = false) (env : PEnv ι D) (hp : Phase env "susong1999")
    (hts : 0 ≤ cfg.timeStep) (ht : 0 < cfg.threshold) (l l' : List (PIn ι D)) (hw : List.Forall₂ (Enough cfg env) l l')
    (s s' : PState ι) (h0 : ∀ i, 0 ≤ s'.days i) (hs : ∀ i, s'.days i ≤ s.days i)
    (hm : ∀ i, cfg.threshold ≤ s.total i → cfg.threshold ≤ s'.total i) :
    ∀ i, (steps cfg env s' l').days i ≤ (steps cfg env s l).days i := by
  induction hw generalizing s s' with
  | nil => exact hs
  | @cons a b l l' w _ ih =>
    have hd : 0 ≤ cfg.timeStep / 60 / 24 := by positivity
    have key : ∀ i, 0 ≤ (susongStep cfg env (used cfg env b) b.temp s').days i ∧
        (susongStep cfg env (used cfg env b) b.temp s').days i ≤ (susongStep cfg env (used cfg env a) a.temp s).days i ∧
        (cfg.threshold ≤ (susongStep cfg env (used cfg env a) a.temp s).total i →
          cfg.threshold ≤ (susongStep cfg env (used cfg env b) b.temp s').total i) := by
      intro i
      unfold susongStep
      by_cases hwet : 0 < env.sum (used cfg env a)
      · rw [if_pos hwet, if_pos (lt_of_lt_of_le hwet w.sum)]
        have pa := susong_perc env hp a.temp (env.dist (used cfg env a)) w.nonneg
        have pb := susong_perc env hp b.temp (env.dist (used cfg env b)) (fun j => (w.nonneg j).trans (w.dist j))
        have na : ∀ j, 0 ≤ (env.phase a.temp (env.dist (used cfg env a))).2 j := by
          intro j; rw [pa]; split; exacts [le_rfl, share_nonneg _]
        have nb : ∀ j, 0 ≤ (env.phase b.temp (env.dist (used cfg env b))).2 j := by
          intro j; rw [pb]; split; exacts [le_rfl, share_nonneg _]
        obtain ⟨A1, A2⟩ := susong_cell (env.dist (used cfg env a)) _ (cfg.timeStep / 60 / 24) cfg.threshold cfg.timeToEnd ht ⟨s.days, s.total⟩ na i
        obtain ⟨B1, B2⟩ := susong_cell (env.dist (used cfg env b)) _ (cfg.timeStep / 60 / 24) cfg.threshold cfg.timeToEnd ht ⟨s'.days, s'.total⟩ nb i
        have imp : cfg.threshold ≤ (Storms.timeSinceStorm (env.dist (used cfg env a)) (env.phase a.temp (env.dist (used cfg env a))).2
            (cfg.timeStep / 60 / 24) cfg.threshold cfg.timeToEnd (1 / 2) ⟨s.days, s.total⟩).precip i →
            cfg.threshold ≤ (Storms.timeSinceStorm (env.dist (used cfg env b)) (env.phase b.temp (env.dist (used cfg env b))).2
            (cfg.timeStep / 60 / 24) cfg.threshold cfg.timeToEnd (1 / 2) ⟨s'.days, s'.total⟩).precip i := by
          rw [A2, B2]
          rintro ⟨⟨j, hj⟩, hi⟩
          refine ⟨⟨j, ?_⟩, ?_⟩
          · rw [pa] at hj
            rw [pb, w.temp]
            by_cases hz : env.dist (used cfg env a) j = 0
            · rw [if_pos hz] at hj; exact absurd hj (lt_irrefl _)
            · rw [if_neg hz] at hj
              rwa [if_neg (lt_of_lt_of_le (lt_of_le_of_ne (w.nonneg j) (Ne.symm hz)) (w.dist j)).ne']
          · rw [pa] at hi
            rw [pb, w.temp]
            have wn := w.nonneg i
            have wd := w.dist i
            by_cases hz : env.dist (used cfg env a) i = 0
            · rw [if_pos hz, if_neg (by norm_num)] at hi
              by_cases hz' : env.dist (used cfg env b) i = 0
              · rw [if_pos hz', if_neg (by norm_num)]
                exact ⟨lt_of_le_of_lt (by linarith [hs i]) hi.1, hm i hi.2⟩
              · rw [if_neg hz']
                by_cases hh : 1 / 2 ≤ share (a.temp i)
                · rw [if_pos hh]
                  exact w.mass i hz hz' hh
                · rw [if_neg hh]
                  exact ⟨lt_of_le_of_lt (by linarith [hs i]) hi.1, hm i hi.2⟩
            · rw [if_neg hz] at hi
              rw [if_neg (lt_of_lt_of_le (lt_of_le_of_ne wn (Ne.symm hz)) wd).ne']
              by_cases hh : 1 / 2 ≤ share (a.temp i)
              · rw [if_pos hh] at hi ⊢
                exact hi.trans wd
              · rw [if_neg hh] at hi ⊢
                exact ⟨lt_of_le_of_lt (by linarith [hs i]) hi.1, hm i hi.2⟩
        refine ⟨?_, ?_, imp⟩
        · show 0 ≤ (Storms.timeSinceStorm _ _ _ _ _ _ _).days i
          rw [B1]
          split
          · exact le_rfl
          · have := h0 i
            show 0 ≤ s'.days i + 1
            linarith
        · show (Storms.timeSinceStorm _ _ _ _ _ _ _).days i ≤ (Storms.timeSinceStorm _ _ _ _ _ _ _).days i
          rw [A1, B1]
          split
          · split
            · exact le_rfl
            · show 0 ≤ s.days i + 1
              linarith [h0 i, hs i]
          · rename_i hB
            rw [if_neg (fun h => hB (imp h))]
            show s'.days i + 1 ≤ s.days i + 1
            linarith [hs i]
      · rw [if_neg hwet, if_neg (fun h => hwet (w.wet h))]
        exact ⟨add_nonneg (h0 i) hd, add_le_add (hs i) le_rfl, hm i⟩
    have tot : ∀ (x : PIn ι D) (u : PState ι), (cfg.grid = true ∨ cfg.undercatch = true) →
        (pptStep cfg env x u).days = (susongStep cfg env (used cfg env x) x.temp u).days ∧
        (pptStep cfg env x u).total = (susongStep cfg env (used cfg env x) x.temp u).total := by
      intro x u hu
      unfold pptStep used
      rcases hg with hg | hg
      · rw [hg]; simp only [Bool.true_eq_false, reduceIte]; split <;> exact ⟨rfl, rfl⟩
      · rw [hg]
        rcases hu with hu | hu <;> rw [hu]
        · simp only [Bool.true_eq_false, reduceIte]; split <;> exact ⟨rfl, rfl⟩
        · cases cfg.grid <;> simp only [Bool.true_eq_false, Bool.false_eq_true, reduceIte] <;> split <;> exact ⟨rfl, rfl⟩
    by_cases hu : cfg.grid = true ∨ cfg.undercatch = true
    · refine ih (pptStep cfg env a s) (pptStep cfg env b s') ?_ ?_ ?_ <;> intro i
      · rw [(tot b s' hu).1]; exact (key i).1
      · rw [(tot b s' hu).1, (tot a s hu).1]; exact (key i).2.1
      · rw [(tot b s' hu).2, (tot a s hu).2]; exact (key i).2.2
    · have same : ∀ (x : PIn ι D) (u : PState ι), (pptStep cfg env x u).days = u.days ∧ (pptStep cfg env x u).total = u.total := by
        intro x u
        have g : cfg.grid = false := by cases h : cfg.grid <;> [rfl; exact absurd (Or.inl h) hu]
        have c : cfg.undercatch = false := by cases h : cfg.undercatch <;> [rfl; exact absurd (Or.inr h) hu]
        have m : cfg.marks = false := by rcases hg with h | h; exacts [absurd (g ▸ h) (by decide), h]
        unfold pptStep
        rw [g, c, m]
        simp only [Bool.false_eq_true, reduceIte]
        split <;> exact ⟨rfl, rfl⟩
      refine ih (pptStep cfg env a s) (pptStep cfg env b s') ?_ ?_ ?_ <;> intro i
      · rw [(same b s').1]; exact h0 i
      · rw [(same b s').1, (same a s).1]; exact hs i
      · rw [(same b s').2, (same a s).2]; exact hm i

end

/-! ### Where it goes wrong -/

/-- Gridded data, hourly steps, one millimetre and four steps as in the default configuration. -/
noncomputable def hourly : PCfg := ⟨true, false, false, false, 60, 1, 4⟩

/-- The images are the data. -/
noncomputable def images (ι : Type) [Fintype ι] : PEnv ι (ι → ℝ) :=
  ⟨fun d => ∑ i, d i, id, fun t p => (fun i => (Nasde.susong1999 (fun i => some (t i)) p i).2, fun i => (Nasde.susong1999 (fun i => some (t i)) p i).1), id⟩

theorem images_phase (ι : Type) [Fintype ι] : Phase (images ι) "susong1999" := fun _ _ => rfl

/-- A cold step. -/
noncomputable def cold {ι : Type} (p : ι → ℝ) : PIn ι (ι → ℝ) := ⟨p, p, false, none, fun _ => -6, fun _ => -6, id⟩

theorem share_cold : share (-6) = 1 := by
  unfold share
  rw [Nasde.classify_eq]
  unfold Nasde.documented
  norm_num

theorem cold_wetter {ι : Type} [Fintype ι] {p q : ι → ℝ} (h0 : ∀ i, 0 ≤ p i) (h : ∀ i, p i ≤ q i) : Wetter hourly (images ι) (cold p) (cold q) :=
  ⟨rfl, Finset.sum_le_sum fun i _ => h i, h0, h, id⟩

/-- Half a millimetre of snow makes the snow a day old; without it the snow is an hour old. -/
theorem C167_trace_fails : ∃ s : PState Unit, (∀ i, 0 ≤ s.days i) ∧
    Wetter hourly (images Unit) (cold fun _ => 0) (cold fun _ => 1 / 2) ∧
    (pptStep hourly (images Unit) (cold fun _ => 0) s).days () = 1 / 24 ∧
    (pptStep hourly (images Unit) (cold fun _ => 1 / 2) s).days () = 1 := by
  refine ⟨⟨fun _ => 0, fun _ => 0, fun _ => 0, fun _ => 0, fun _ => 0⟩, fun _ => le_rfl, cold_wetter (fun _ => le_rfl) (fun _ => by norm_num), ?_, ?_⟩
  · rw [ppt_days, if_pos (show hourly.grid = true from rfl)]
    norm_num [susongStep, used, hourly, images, cold]
  · rw [ppt_days, if_pos (show hourly.grid = true from rfl)]
    unfold susongStep
    rw [if_pos (by norm_num [used, hourly, images, cold])]
    have := (susong_cell (fun _ : Unit => (1 / 2 : ℝ)) ((images Unit).phase (cold fun _ : Unit => (1 / 2 : ℝ)).temp fun _ => 1 / 2).2 (60 / 60 / 24) 1 4
      one_pos ⟨fun _ => 0, fun _ => 0⟩ (fun j => by
        rw [susong_perc _ (images_phase Unit) _ _ (fun _ => by norm_num)]; split; exacts [le_rfl, share_nonneg _]) ())
    refine this.1.trans ?_
    rw [if_neg, zero_add]
    rw [this.2]
    rintro ⟨-, h⟩
    split_ifs at h
    · norm_num at h
    · exact absurd h.2 (by norm_num)

theorem C167_fails : ¬ C167_full := by
  intro h
  obtain ⟨s, h0, hw, e1, e2⟩ := C167_trace_fails
  let env : PEnv Unit ℝ := ⟨id, fun d _ => d, (images Unit).phase, id⟩
  let one : ℝ → PIn Unit ℝ := fun p => ⟨p, p, false, none, fun _ => -6, fun _ => -6, id⟩
  have step : ∀ p : ℝ, (pptStep hourly env (one p) s).days = (pptStep hourly (images Unit) (cold fun _ => p) s).days := by
    intro p
    rw [ppt_days, ppt_days, if_pos (show hourly.grid = true from rfl), if_pos (show hourly.grid = true from rfl)]
    unfold susongStep
    have : (images Unit).sum (used hourly (images Unit) (cold fun _ => p)) = env.sum (used hourly env (one p)) := by
      simp [images, used, hourly, cold, env, one]
    rw [this]
    split <;> rfl
  have := h hourly env s [one 0] [one (1 / 2)] (by norm_num [hourly]) (by norm_num [hourly])
    ⟨"susong1999", by rw [show hourly.marks = false from rfl]; decide, images_phase Unit⟩ h0
    (.cons ⟨rfl, by norm_num [env, used, one, hourly], fun _ => by norm_num [env, used, one, hourly], fun _ => by norm_num [env, used, one, hourly], id⟩ .nil) ()
  have this : (pptStep hourly env (one (1 / 2)) s).days () ≤ (pptStep hourly env (one 0) s).days () := this
  rw [step, step, e1, e2] at this
  norm_num at this

/-- Two cells, two steps in which it snows. A tenth of a millimetre in the second step replaces the ten of the first, and the snow is
a day old; without it the snow is new. -/
theorem C167_overwrite_fails : ∃ (s : PState Bool) (l l' : List (PIn Bool (Bool → ℝ))),
    List.Forall₂ (Wetter hourly (images Bool)) l l' ∧ (∀ a ∈ l, 0 < (images Bool).sum (used hourly (images Bool) a)) ∧
    (steps hourly (images Bool) s l).days true = 0 ∧ (steps hourly (images Bool) s l').days true = 1 := by
  let s : PState Bool := ⟨fun _ => 0, fun _ => 0, fun _ => 0, fun _ => 0, fun _ => 0⟩
  have nn : ∀ p : Bool → ℝ, (∀ i, 0 ≤ p i) → ∀ j, 0 ≤ ((images Bool).phase (cold p).temp p).2 j := by
    intro p hp j
    rw [susong_perc _ (images_phase Bool) _ _ hp]; split; exacts [le_rfl, share_nonneg _]
  have pr : ∀ p : Bool → ℝ, (∀ i, 0 ≤ p i) → ∀ j, ((images Bool).phase (cold p).temp p).2 j = if p j = 0 then 0 else 1 := by
    intro p hp j
    rw [susong_perc _ (images_phase Bool) _ _ hp]
    show (if p j = 0 then 0 else share (-6)) = _
    rw [share_cold]
  have st : ∀ (p : Bool → ℝ) (u : PState Bool), (∀ i, 0 ≤ p i) → 0 < p false →
      (pptStep hourly (images Bool) (cold p) u).days true = (if (if p true = 0 then u.days true + 1 < 4 ∧ 1 ≤ u.total true else 1 ≤ p true) then 0 else u.days true + 1) ∧
      (1 ≤ (pptStep hourly (images Bool) (cold p) u).total true ↔ if p true = 0 then u.days true + 1 < 4 ∧ 1 ≤ u.total true else 1 ≤ p true) := by
    intro p u hp hf
    have hsum : 0 < (images Bool).sum (used hourly (images Bool) (cold p)) := by
      show 0 < ∑ i, p i
      rw [Fintype.sum_bool]
      linarith [hp true]
    have hd : (pptStep hourly (images Bool) (cold p) u).days = (Storms.timeSinceStorm p ((images Bool).phase (cold p).temp p).2 (60 / 60 / 24) 1 4 (1 / 2) ⟨u.days, u.total⟩).days ∧
        (pptStep hourly (images Bool) (cold p) u).total = (Storms.timeSinceStorm p ((images Bool).phase (cold p).temp p).2 (60 / 60 / 24) 1 4 (1 / 2) ⟨u.days, u.total⟩).precip := by
      unfold pptStep susongStep
      rw [show hourly.grid = true from rfl, show hourly.winstral = false from rfl]
      simp only [Bool.true_eq_false, Bool.false_eq_true, reduceIte, false_and]
      rw [if_pos (show 0 < (images Bool).sum (cold p).data from hsum)]
      exact ⟨rfl, rfl⟩
    obtain ⟨A, B⟩ := susong_cell p ((images Bool).phase (cold p).temp p).2 (60 / 60 / 24) 1 4 one_pos ⟨u.days, u.total⟩ (nn p hp) true
    have B' : 1 ≤ (pptStep hourly (images Bool) (cold p) u).total true ↔ if p true = 0 then u.days true + 1 < 4 ∧ 1 ≤ u.total true else 1 ≤ p true := by
      rw [hd.2, B, pr p hp]
      have ex : ∃ j, 0 < ((images Bool).phase (cold p).temp p).2 j := ⟨false, by rw [pr p hp, if_neg hf.ne']; exact one_pos⟩
      by_cases hz : p true = 0
      · rw [if_pos hz, if_pos hz, if_neg (by norm_num)]; exact ⟨fun h => h.2, fun h => ⟨ex, h⟩⟩
      · rw [if_neg hz, if_neg hz, if_pos (by norm_num)]; exact ⟨fun h => h.2, fun h => ⟨ex, h⟩⟩
    refine ⟨?_, B'⟩
    rw [hd.1, A, ← hd.2]
    simp only [B']
  let p1 : Bool → ℝ := fun _ => 10
  let p2 : Bool → ℝ := fun b => if b = true then 0 else 10
  let q2 : Bool → ℝ := fun b => if b = true then 1 / 10 else 10
  have n1 : ∀ i, 0 ≤ p1 i := fun _ => by norm_num [p1]
  have n2 : ∀ i, 0 ≤ p2 i := fun i => by cases i <;> norm_num [p2]
  have m2 : ∀ i, 0 ≤ q2 i := fun i => by cases i <;> norm_num [q2]
  obtain ⟨d1, t1⟩ := st p1 s n1 (by norm_num [p1])
  have d1 : (pptStep hourly (images Bool) (cold p1) s).days true = 0 := by rw [d1]; norm_num [p1]
  have t1 : 1 ≤ (pptStep hourly (images Bool) (cold p1) s).total true := by rw [t1]; norm_num [p1]
  refine ⟨s, [cold p1, cold p2], [cold p1, cold q2], .cons (cold_wetter n1 fun _ => le_rfl)
    (.cons (cold_wetter n2 fun i => by cases i <;> norm_num [p2, q2]) .nil), ?_, ?_, ?_⟩
  · intro a ha
    rcases List.mem_cons.1 ha with rfl | ha
    · show 0 < ∑ i, p1 i
      norm_num [p1]
    · rw [List.mem_singleton.1 ha]
      show 0 < ∑ i, p2 i
      norm_num [p2]
  · show (pptStep hourly (images Bool) (cold p2) (pptStep hourly (images Bool) (cold p1) s)).days true = 0
    rw [(st p2 _ n2 (by norm_num [p2])).1, if_pos]
    rw [if_pos (by norm_num [p2]), d1]
    exact ⟨by norm_num, t1⟩
  · show (pptStep hourly (images Bool) (cold q2) (pptStep hourly (images Bool) (cold p1) s)).days true = 1
    rw [(st q2 _ m2 (by norm_num [q2])).1, if_neg, d1, zero_add]
    rw [if_neg (by norm_num [q2])]
    norm_num [q2]

/-- Precipitation after a storm that is too little to be a storm. -/
def rest : List (List (Option ℚ)) := [[some 10], [some 0], [some (1 / 4)], [some 0]]

/-- The same with more in the third step. -/
def more : List (List (Option ℚ)) := [[some 10], [some 0], [some 1], [some 0]]

/-- More precipitation at a station in one step lowers the precipitation that marks2017 uses in another: what was carried to the first
storm is now a storm of its own. -/
theorem C167_clip_fails :
    Storms.at' (Storms.clipAndCorrect (Storms.storms (1 / 2) 1 rest) 1 [] rest) 0 0 = some (some (41 / 4)) ∧
      Storms.at' (Storms.clipAndCorrect (Storms.storms (1 / 2) 1 more) 1 [] more) 0 0 = some (some 10) := by
  constructor <;> decide +kernel

/-! ### Examples -/

/-- Twice the snow in every step of a run of any length. -/
example (l : List (Bool → ℝ)) (hl : ∀ p ∈ l, ∀ i, 0 ≤ p i) (s : PState Bool) (h0 : ∀ i, 0 ≤ s.days i) (i : Bool) :
    (steps hourly (images Bool) s (l.map fun p => cold fun i => 2 * p i)).days i ≤ (steps hourly (images Bool) s (l.map cold)).days i := by
  refine C167_susong_partial hourly (Or.inl rfl) (images Bool) (images_phase Bool) (by norm_num [hourly]) (by norm_num [hourly]) _ _ ?_ s s h0
    (fun _ => le_rfl) (fun _ h => h) i
  rw [List.forall₂_map_right_iff, List.forall₂_map_left_iff, List.forall₂_same]
  intro p hp
  refine ⟨cold_wetter (hl p hp) (fun i => by linarith [hl p hp i]), ?_, ?_⟩
  · show 0 < ∑ i, 2 * p i → 0 < ∑ i, p i
    rw [← Finset.mul_sum]
    intro h
    linarith
  · intro i (h1 : p i = 0) h2 _
    exact absurd (show 2 * p i = 0 by rw [h1, mul_zero]) h2

/-- Stations, marks2017. -/
noncomputable def stations : PCfg := ⟨false, true, false, false, 60, 1, 4⟩

/-- One cell that takes the precipitation of the station. -/
noncomputable def single : PEnv Unit ℝ :=
  ⟨id, fun d _ => d, fun t p => ((Nasde.marks2017 t p).rhoS, (Nasde.marks2017 t p).pcs), id⟩

/-- A step of it. -/
noncomputable def snowy (p : ℝ) : PIn Unit ℝ := ⟨p, p, true, none, fun _ => -6, fun _ => -6, id⟩

example (l : List ℝ) (hl : ∀ p ∈ l, 0 ≤ p) (s : PState Unit) (h0 : ∀ i, 0 ≤ s.days i) :
    (steps stations single s (l.map fun p => snowy (p + 1))).days () ≤ (steps stations single s (l.map snowy)).days () := by
  refine (C167_marks stations rfl rfl single (fun _ _ => rfl) (by norm_num [stations]) (by norm_num [stations]) _ _ ?_ s s h0
    (fun _ => le_rfl) ()).2
  rw [List.forall₂_map_right_iff, List.forall₂_map_left_iff, List.forall₂_same]
  intro p hp
  have := hl p hp
  exact ⟨rfl, show p ≤ p + 1 by linarith, fun _ => this, fun _ => show p ≤ p + 1 by linarith, id⟩

end Verif.Fresher
