import Verif.RunSpec
import Verif.DewpointBrentProps
import Verif.PrecipProps
import Verif.ThermalProps
import Verif.RunWet

/-! Lemmas for C125. -/

namespace Verif.Run
open Verif.Vapor Verif.Twostream

/-! ### Lemmas -/

theorem cut_within {ι : Type} (l : Limits) (h : Sane l) (f : ι → ℝ) (i : ι) : Within l (l.cut f i) := by
  obtain ⟨h1, h2, -⟩ := Thermal.clamp_limits l.lo l.hi (f i)
  exact ⟨fun a ha => h1 a ha fun b hb => h a b ha hb, h2⟩

variable {ι D : Type} [Fintype ι]

omit [Fintype ι] in
theorem collect_some {f : ι → Option ℝ} {g : ι → ℝ} (h : collect f = some g) (i : ι) : f i = some (g i) := by
  unfold collect at h
  split at h
  · rename_i hs
    simp only [Option.some.injEq] at h
    rw [← h]
    simp
  · cases h

omit [Fintype ι] in
theorem collect_of {f : ι → Option ℝ} (g : ι → ℝ) (h : ∀ i, f i = some (g i)) : collect f = some g := by
  unfold collect
  rw [dif_pos fun i => by rw [h i]; rfl]
  congr 1
  funext i
  simp [h i]

theorem dewImage_some {fuel : Nat} {tol : ℝ} {vp ta d : ι → ℝ} (h : dewImage fuel tol vp ta = some d) (i : ι) :
    ∃ r, dewCelsius fuel tol (vp i) = some r ∧ d i = if ta i ≤ r then ta i - 2 / 10 else r := by
  unfold dewImage at h
  cases hc : collect fun i => dewCelsius fuel tol (vp i) with
  | none => rw [hc] at h; cases h
  | some g =>
    rw [hc] at h
    simp only [Option.map_some, Option.some.injEq] at h
    exact ⟨g i, collect_some hc i, by rw [← h]⟩

theorem phase_range (m : String) (t p : ι → ℝ) (hp : ∀ i, 0 ≤ p i) (i : ι) :
    0 ≤ (match Nasde.phaseAndDensity t p m with
      | .ok r => r
      | .error _ => ((fun _ => 0, fun _ => 0) : (ι → ℝ) × (ι → ℝ))).2 i ∧
    (match Nasde.phaseAndDensity t p m with
      | .ok r => r
      | .error _ => ((fun _ => 0, fun _ => 0) : (ι → ℝ) × (ι → ℝ))).2 i ≤ 1 := by
  cases h : Nasde.phaseAndDensity t p m with
  | error e => exact ⟨le_refl _, zero_le_one⟩
  | ok r => exact Nasde.C81_fraction t p hp m r h i

/-- A step of the precipitation class keeps the images physical. -/
theorem pptStep_physical (cfg : Precip.PCfg) (env : Precip.PEnv ι D) (inp : Precip.PIn ι D) (s : Precip.PState ι)
    (ht : 0 ≤ cfg.timeStep) (hd : ∀ d i, 0 ≤ env.dist d i)
    (hp : ∀ t p, (∀ i, 0 ≤ p i) → ∀ i, 0 ≤ (env.phase t p).2 i ∧ (env.phase t p).2 i ≤ 1)
    (hr : ∀ p, (∀ i, 0 ≤ p i) → ∀ i, 0 ≤ inp.redist p i) (hs : Physical s) :
    Physical (Precip.pptStep cfg env inp s) := by
  have ht' : 0 ≤ cfg.timeStep / 60 / 24 := by positivity
  have hsus : ∀ d, Physical (Precip.susongStep cfg env d inp.temp s) := by
    intro d i
    unfold Precip.susongStep
    split
    · simp only
      refine ⟨hd d i, (hp _ _ (hd d) i).1, (hp _ _ (hd d) i).2, ?_⟩
      unfold Storms.timeSinceStorm
      have := (hs i).2.2.2
      simp only
      split
      · simp only; linarith
      · simp only
        generalize (if cfg.timeToEnd ≤ s.days i + 1 then (0 : ℝ) else s.total i) = q
        generalize (if (1 : ℝ) / 2 ≤ (env.phase inp.temp (env.dist d)).2 i then env.dist d i else q) = q
        split
        · exact le_refl _
        · linarith
    · have := (hs i).2.2.2
      exact ⟨le_refl _, le_refl _, zero_le_one, by simp only; linarith⟩
  have hmar : ∀ d, Physical (Precip.marksStep cfg env d inp.storming inp.stormTotal inp.temp s) := by
    intro d i
    unfold Precip.marksStep
    have h3 := (hs i).2.2.2
    split
    · simp only
      refine ⟨hd d i, ?_, ?_, ?_⟩
      · split
        · exact (hp _ _ (hd d) i).1
        · exact le_refl _
      · split
        · exact (hp _ _ (hd d) i).2
        · exact zero_le_one
      · generalize (if inp.storming = true ∧ ∃ i, inp.temp i < 2 then env.phase inp.temp (env.dist d)
          else (fun _ => 0, fun _ => 0)) = pr
        unfold Storms.timeSinceStormPixel
        simp only
        split
        · simp only
          split
          · exact le_refl _
          · linarith
        · simp only; linarith
    · exact ⟨le_refl _, le_refl _, zero_le_one, by simp only; linarith⟩
  have key : Physical (if cfg.grid = false then
      if cfg.marks = true then
        Precip.marksStep cfg env (if cfg.undercatch = true then env.adjust inp.clipped else inp.clipped) inp.storming
          inp.stormTotal inp.temp s
      else if cfg.undercatch = true then Precip.susongStep cfg env (env.adjust inp.data) inp.temp s else s
    else Precip.susongStep cfg env inp.data inp.temp s) := by
    split
    · split
      · exact hmar _
      · split
        · exact hsus _
        · exact hs
    · exact hsus _
  unfold Precip.pptStep
  simp only
  generalize (if cfg.grid = false then
      if cfg.marks = true then
        Precip.marksStep cfg env (if cfg.undercatch = true then env.adjust inp.clipped else inp.clipped) inp.storming
          inp.stormTotal inp.temp s
      else if cfg.undercatch = true then Precip.susongStep cfg env (env.adjust inp.data) inp.temp s else s
    else Precip.susongStep cfg env inp.data inp.temp s) = s1 at key ⊢
  split
  · exact fun i => ⟨hr _ (fun j => (key j).1) i, (key i).2⟩
  · exact key

theorem precipStep_physical (c : Cfg ι D) (hc : Sensible c) (x : In ι D) (dew temp wind : ι → ℝ)
    (s s' : Precip.PState ι) (hs : Physical s) (h : precipStep c x dew temp wind s = .ok s') : Physical s' := by
  unfold precipStep at h
  split at h
  · cases h
  · split at h
    · cases h
    · simp only [Except.ok.injEq] at h
      rw [← h]
      obtain ⟨a, ha, ha0⟩ := hc.rain
      refine pptStep_physical _ _ _ _ hc.step (fun d i => ?_) (fun t p hp i => phase_range c.nasde t p hp i)
        (fun p hp i => ?_) hs
      · exact ha0.trans ((cut_within c.precip hc.precip (c.interp d) i).1 a ha)
      · show 0 ≤ redist c x dew wind p i
        unfold redist
        exact Precip.C34_nonneg c.drift ⟨hc.scour.2, hc.drift.2⟩ hc.scour.1 hc.drift.1 _ _
          ⟨p i, _, _, _, _, _⟩ (hp i)

theorem clamp_some (lo hi : Option ℝ) (x : ℝ) :
    ∃ y, Utils.clampCell lo hi (some x) = some y ∧ y = Solar.clamp lo hi x := ⟨_, Solar.clamp_eq lo hi x, rfl⟩

omit [Fintype ι] in
/-- The albedo images with the sun up. -/
theorem albedo_within (cfg : Albedo.Cfg) (hl : Sane ⟨cfg.lo, cfg.hi⟩) (vt : ι → Int) (t : Int) (cz a : ι → ℝ)
    (v ir : ι → Option ℝ) (h : Albedo.distribute cfg vt t (some cz) a = .ok (v, ir)) (i : ι) :
    Within ⟨cfg.lo, cfg.hi⟩ (Solar.cells v i) ∧ Within ⟨cfg.lo, cfg.hi⟩ (Solar.cells ir i) := by
  unfold Albedo.distribute at h
  simp only at h
  split at h
  · cases h
  · split at h
    · cases h
    · rename_i v' ir' _
      simp only [Except.ok.injEq, Prod.mk.injEq] at h
      obtain ⟨rfl, rfl⟩ := h
      unfold Solar.cells
      simp only [Solar.clamp_eq, Option.elim, id]
      exact ⟨cut_within ⟨cfg.lo, cfg.hi⟩ hl v' i, cut_within ⟨cfg.lo, cfg.hi⟩ hl ir' i⟩

/-- The images of the sun's part of a step. -/
theorem solar_range (S : Solar.Setup ι) (ha : Sane ⟨S.albedo.lo, S.albedo.hi⟩) (hs : Sane ⟨S.solar.lo, S.solar.hi⟩)
    (st st' : Solar.Var → Solar.Attr ι) (x : Solar.Step ι) (av ai : ι → ℝ)
    (h : Solar.timestep S st x = .ok (st', av, ai)) :
    (0 < x.cosz → (∀ i, Within ⟨S.albedo.lo, S.albedo.hi⟩ (av i) ∧ Within ⟨S.albedo.lo, S.albedo.hi⟩ (ai i)) ∧
      ∃ img, Solar.written (st' .net) = .ok img ∧ ∀ i, Within ⟨S.solar.lo, S.solar.hi⟩ (img i)) ∧
    (x.cosz ≤ 0 → (∀ i, av i = 0 ∧ ai i = 0) ∧ ∀ v, Solar.written (st' v) = .ok fun _ => 0) := by
  constructor
  · intro hc
    unfold Solar.timestep Solar.illumination at h
    simp only [if_pos hc] at h
    split at h
    · cases h
    · rename_i v ir hal
      unfold Solar.distribute at h
      simp only [if_pos hc] at h
      generalize hg : stoporad S.solar.clear S.topo (x.s0 .ir) x.cosz x.hidden (S.shade x.cosz) (Solar.cells ir) (7 / 10) (28 / 10) = r1 at h
      generalize hg2 : stoporad S.solar.clear S.topo (x.s0 .vis) x.cosz x.hidden (S.shade x.cosz) (Solar.cells v) (28 / 100) (7 / 10) = r2 at h
      cases r1 with
      | error e => cases h
      | ok r1 =>
        cases r2 with
        | error e => cases h
        | ok r2 =>
          simp only [Except.ok.injEq, Prod.mk.injEq] at h
          obtain ⟨rfl, rfl, rfl⟩ := h
          refine ⟨albedo_within S.albedo ha _ _ _ _ v ir hal, ?_⟩
          unfold Solar.day Solar.written Solar.calcNet
          refine ⟨_, rfl, fun i => ?_⟩
          exact cut_within ⟨S.solar.lo, S.solar.hi⟩ hs (fun _ => _) i
  · intro hc
    obtain ⟨h1, h2⟩ := Solar.C46_night S st x hc
    refine ⟨?_, h2 st' av ai h⟩
    rw [h1] at h
    simp only [Except.ok.injEq, Prod.mk.injEq] at h
    obtain ⟨-, rfl, rfl⟩ := h
    exact fun _ => ⟨rfl, rfl⟩

/-- One step keeps the state physical and its images are in range. -/
theorem step_range (c : Cfg ι D) (hc : Sensible c) (fuel : Nat) (s s' : State ι) (x : In ι D) (o : Out ι)
    (hs : Physical s.ppt) (h : step c fuel s x = .ok (s', o)) : Physical s'.ppt ∧ InRange c x o := by
  unfold step at h
  simp only at h
  split at h
  · cases h
  · rename_i vp dew temp hv
    split at h
    · cases h
    · rename_i ppt hp
      split at h
      · cases h
      · rename_i sol av ai hsol
        split at h
        · cases h
        · rename_i th hth
          simp only [Except.ok.injEq, Prod.mk.injEq] at h
          obtain ⟨rfl, rfl⟩ := h
          have hphys := precipStep_physical c hc x dew temp _ _ _ hs hp
          obtain ⟨hday, hnight⟩ := solar_range c.sun hc.albedo hc.solar _ _ _ _ _ hsol
          have hvd : vp = c.vapor.cut x.vapor ∧ dewImage fuel c.tol vp (c.airTemp.cut x.airTemp) = some dew := by
            unfold vaporStep at hv
            simp only at hv
            split at hv
            · cases hv
            · rename_i d hd
              split at hv
              · split at hv
                · cases hv
                · simp only [Except.ok.injEq, Prod.mk.injEq] at hv
                  obtain ⟨rfl, rfl, -⟩ := hv
                  exact ⟨rfl, hd⟩
              · simp only [Except.ok.injEq, Prod.mk.injEq] at hv
                obtain ⟨rfl, rfl, -⟩ := hv
                exact ⟨rfl, hd⟩
          refine ⟨hphys, ?_⟩
          refine ⟨cut_within _ hc.airTemp _, ?_, fun i => ?_, cut_within _ hc.wind _, cut_within _ hc.cloud _, hphys,
            fun hz => (hday hz).1, fun hz => (hday hz).2, fun i => ?_, hnight⟩
          · rw [hvd.1]; exact cut_within _ hc.vapor _
          · obtain ⟨r, -, hr⟩ := dewImage_some hvd.2 i
            simp only
            rw [hr]
            split
            · linarith
            · linarith
          · obtain ⟨h1, h2, -⟩ := Thermal.C80_published c.thermal c.maps _ th hth i
            exact ⟨fun a ha => h1 a ha fun b hb => hc.thermal a b ha hb, h2⟩

/-! ### No abort -/

omit [Fintype ι] in
theorem albedo_runs (cfg : Albedo.Cfg) (h : Albedo.Accepted cfg.grain cfg.maxGrain cfg.dirt) (hd : DecayReady cfg)
    (vt : ι → Int) (t : Int) (cz : Option (ι → ℝ)) (a : ι → ℝ) : ∃ v ir, Albedo.distribute cfg vt t cz a = .ok (v, ir) := by
  cases cz with
  | none => exact ⟨_, _, rfl⟩
  | some cz =>
    unfold Albedo.distribute
    simp only [Albedo.albedo_ok _ _ _ _ _ h]
    generalize (fun i => Albedo.visCell _ (cz i)) = v
    generalize (fun i => Albedo.irCell _ (cz i)) = ir
    unfold DecayReady at hd
    cases hdec : cfg.decay with
    | none => exact ⟨_, _, rfl⟩
    | date start stop pwr =>
      rw [hdec] at hd
      obtain ⟨h1, h2, h3, h4, d, h5⟩ := hd
      obtain ⟨v', ir', e, -⟩ := Albedo.C38_value_partial cfg.veg vt start stop t pwr d v ir h3 h5 h4 h1 h2
      simp only [e]
      exact ⟨_, _, rfl⟩
    | hardy =>
      rw [hdec] at hd
      obtain ⟨h1, ⟨r, h2⟩, al, h3⟩ := hd
      obtain ⟨v', ir', e, -⟩ := Albedo.hardy_ok cfg.litter vt a v ir r al h1 h2 h3
      simp only [e]
      exact ⟨_, _, rfl⟩

theorem solar_runs (c : Cfg ι D) (hc : Sound c) (st : Solar.Var → Solar.Attr ι) (x : Solar.Step ι)
    (hx : 0 < x.cosz → Solar.Valid c.sun.solar.clear x.cosz ∧ ∀ b, 0 < x.s0 b) :
    ∃ r, Solar.timestep c.sun st x = .ok r := by
  by_cases hz : 0 < x.cosz
  · obtain ⟨hv, hs⟩ := hx hz
    obtain ⟨v, ir, hal⟩ := albedo_runs c.sun.albedo hc.grain hc.decay c.sun.vegType x.time (some (c.sun.shade x.cosz)) x.stormDay
    obtain ⟨a, b, ha, hb, h0, hab, h1⟩ := hc.albedo
    have hw := albedo_within c.sun.albedo (fun p q hp hq => by
      simp only [ha, hb, Option.some.injEq] at hp hq; rw [← hp, ← hq]; exact hab) _ _ _ _ v ir hal
    have hlim : ∀ y, Within ⟨c.sun.albedo.lo, c.sun.albedo.hi⟩ y → 0 ≤ y ∧ y ≤ 1 := fun y hy =>
      ⟨h0.trans (hy.1 a ha), (hy.2 b hb).trans h1⟩
    have wV : checkWavelengths (28 / 100) (7 / 10) = .ok .vis := by unfold checkWavelengths; norm_num
    have wI : checkWavelengths (7 / 10) (28 / 10) = .ok .ir := by unfold checkWavelengths; norm_num
    obtain ⟨vis, e1, -⟩ := Solar.stoporad_valid c.sun.solar.clear c.sun.topo (x.s0 .vis) x.cosz x.hidden (c.sun.shade x.cosz)
      (Solar.cells v) _ _ _ wV hz (hs .vis) hv hc.dem fun i => hlim _ (hw i).1
    obtain ⟨iri, e2, -⟩ := Solar.stoporad_valid c.sun.solar.clear c.sun.topo (x.s0 .ir) x.cosz x.hidden (c.sun.shade x.cosz)
      (Solar.cells ir) _ _ _ wI hz (hs .ir) hv hc.dem fun i => hlim _ (hw i).2
    unfold Solar.timestep Solar.illumination Solar.distribute
    simp only [if_pos hz, hal, e1, e2]
    exact ⟨_, rfl⟩
  · exact ⟨_, (Solar.C46_night c.sun st x (not_lt.1 hz)).1⟩

/-- The dew-point image: the solver ends on every cell, and no cell is at or below absolute zero. -/
theorem dew_runs (tol : ℝ) (vp ta : ι → ℝ) (ht : 1 / 10000 ≤ tol) (hv : ∀ i, 0 < vp i ∧ vp i ≤ 3 / 2 * Vapor.seaLevel)
    (hta : ∀ i, 2 / 10 < ta i + freeze) :
    ∃ N d, (∀ n, N ≤ n → dewImage n tol vp ta = some d) ∧ (∀ i, 0 < d i + freeze) ∧
      ∀ i, 20 ≤ vp i → d i < ta i ∧ (d i = ta i - 2 / 10 ∨ 204 ≤ d i + freeze) := by
  choose N a b y h0 h1 h2 h3 h4 h5 h using fun i => Dewpoint.C43_found (vp i) tol (hv i).1 (hv i).2 ht
  refine ⟨Finset.univ.sup N, fun i => if ta i ≤ y i - freeze then ta i - 2 / 10 else y i - freeze, fun n hn => ?_,
    fun i => ?_, fun i h20 => ?_⟩
  · unfold dewImage
    rw [collect_of (fun i => y i - freeze) fun i => ?_]
    · rfl
    · unfold dewCelsius eps
      rw [(h i n (le_trans (Finset.le_sup (Finset.mem_univ i)) hn)).2.2]
      rfl
  · simp only
    split
    · linarith [hta i]
    · linarith [h0 i, h1 i]
  · simp only
    split
    · exact ⟨by linarith, .inl rfl⟩
    · rename_i hlt
      have := lower_ge (vp i) h20 _ _ (h i _ le_rfl).1
      exact ⟨not_le.1 hlt, .inr (by linarith [h1 i])⟩

theorem index_of_mem (l : List ℝ) (d : ℝ) (h : d ∈ l) : (Precip.dirIndex l d).isSome := by
  unfold Precip.dirIndex
  rw [List.findIdx?_isSome]
  simp only [List.any_eq_true]
  exact ⟨d, h, by simp⟩

/-- One step ends, with a result that does not depend on the number of rounds allowed. -/
theorem step_runs (c : Cfg ι D) (hc : Sound c) (s : State ι) (x : In ι D) (hx : Meets c x) :
    ∃ N s' o, ∀ n, N ≤ n → step c n s x = .ok (s', o) := by
  obtain ⟨va, vb, hva, hvb, hv0, hvab, hv1⟩ := hc.vapor
  obtain ⟨a, ha, hab, ha0, hdem⟩ := hc.airTemp
  have hvap := cut_within c.vapor (fun p q hp hq => by
    rw [hva] at hp; rw [hvb] at hq; cases hp; cases hq; exact hvab) x.vapor
  have hair := cut_within c.airTemp (fun p q hp hq => by rw [ha] at hp; cases hp; exact hab q hq) x.airTemp
  have hta : ∀ i, a ≤ c.airTemp.cut x.airTemp i := fun i => (hair i).1 a ha
  obtain ⟨N, d, hd, hd0, hdw⟩ := dew_runs c.tol (c.vapor.cut x.vapor) (c.airTemp.cut x.airTemp) hc.tol
    (fun i => ⟨lt_of_lt_of_le hv0 ((hvap i).1 va hva), ((hvap i).2 vb hvb).trans hv1⟩) (fun i => by linarith [hta i])
  have hvs : ∃ w, ∀ n, N ≤ n → vaporStep c n x.vapor (c.airTemp.cut x.airTemp) = .ok (c.vapor.cut x.vapor, d, w) := by
    by_cases hw : c.wet = true
    · have hr := hc.wetBulb hw
      obtain ⟨v, q1, q2⟩ := hr.vapor
      obtain ⟨u, q3, q4⟩ := hr.cold
      obtain ⟨t, q5, q6⟩ := hr.hot
      choose w hwet using fun i => wet_cell c.tol (c.airTemp.cut x.airTemp i) (d i) (c.maps.dem i) hr.tol (by
          have h1 := (hair i).1 u q3
          rcases (hdw i (q2.trans ((hvap i).1 v q1))).2 with e | e
          · rw [e]; unfold freeze; linarith
          · linarith) (hdw i (q2.trans ((hvap i).1 v q1))).1 (((hair i).2 t q5).trans q6) (hr.dem i)
      refine ⟨w, fun n hn => ?_⟩
      unfold vaporStep
      simp only [hd n hn, if_pos hw]
      rw [collect_of w hwet]
    · refine ⟨d, fun n hn => ?_⟩
      unfold vaporStep
      simp only [hd n hn, if_neg hw]
  obtain ⟨w, hvs⟩ := hvs
  have hps : ∃ p, precipStep c x d w (c.wind.cut x.windSpeed) s.ppt = .ok p := by
    unfold precipStep
    have hm : ¬ (c.nasde ≠ "susong1999" ∧ c.nasde ≠ "piecewise_susong1999" ∧ c.nasde ≠ "marks2017") := by
      rintro ⟨h1, h2, h3⟩
      rcases hc.model with h | h | h
      · exact h1 h
      · exact h2 h
      · exact h3 h
    rw [if_neg hm, if_neg fun h => h.2.2 fun i => index_of_mem _ _ (hx.wind h.1 i)]
    exact ⟨_, rfl⟩
  obtain ⟨p, hp⟩ := hps
  obtain ⟨⟨sol, av, ai⟩, hsol⟩ := solar_runs c hc s.solar
    ⟨x.time, x.cosz, c.cloud.cut x.cloud, p.days, x.s0, x.hidden⟩ hx.sun
  obtain ⟨th, hth, -⟩ := Thermal.C80_options_partial c.thermal c.maps
    ⟨c.airTemp.cut x.airTemp, c.vapor.cut x.vapor, d, c.cloud.cut x.cloud⟩ (fun i => by
      refine ⟨by simp only; linarith [hta i], hd0 i, ?_⟩
      simp only
      unfold Thermal.lapseM
      linarith [hta i, hdem i]) hc.sky
  refine ⟨N, ⟨p, sol⟩, ⟨c.airTemp.cut x.airTemp, c.vapor.cut x.vapor, d, w, c.wind.cut x.windSpeed, p, av, ai,
    c.cloud.cut x.cloud, sol, th⟩, fun n hn => ?_⟩
  unfold step
  simp only [hvs n hn, hp, hsol, hth]

/-! ### Signs of the radiation -/

/-- No array among the attributes of the solar class has a negative cell. -/
def Bright (st : Solar.Var → Solar.Attr ι) : Prop := ∀ v a, st v = .array a → ∀ i, 0 ≤ a i

theorem solar_bright (c : Cfg ι D) (hc : Sound c) (hm : SunMaps c) (st st' : Solar.Var → Solar.Attr ι) (x : Solar.Step ι)
    (hcf : ∀ i, 0 ≤ x.cloudFactor i ∧ x.cloudFactor i ≤ 1)
    (hx : 0 < x.cosz → Solar.Valid c.sun.solar.clear x.cosz ∧ ∀ b, 0 < x.s0 b) (hst : Bright st) (av ai : ι → ℝ)
    (h : Solar.timestep c.sun st x = .ok (st', av, ai)) : Bright st' := by
  by_cases hz : 0 < x.cosz
  · obtain ⟨hv, hs⟩ := hx hz
    unfold Solar.timestep Solar.illumination at h
    simp only [if_pos hz] at h
    split at h
    · cases h
    · rename_i v ir hal
      obtain ⟨a, b, ha, hb, h0, hab, h1⟩ := hc.albedo
      have hw := albedo_within c.sun.albedo (fun p q hp hq => by
        simp only [ha, hb, Option.some.injEq] at hp hq; rw [← hp, ← hq]; exact hab) _ _ _ _ v ir hal
      have hlim : ∀ y, Within ⟨c.sun.albedo.lo, c.sun.albedo.hi⟩ y → 0 ≤ y ∧ y ≤ 1 := fun y hy =>
        ⟨h0.trans (hy.1 a ha), (hy.2 b hb).trans h1⟩
      have wV : checkWavelengths (28 / 100) (7 / 10) = .ok .vis := by unfold checkWavelengths; norm_num
      have wI : checkWavelengths (7 / 10) (28 / 10) = .ok .ir := by unfold checkWavelengths; norm_num
      obtain ⟨vis, e1, n1⟩ := Solar.C45_nonneg_partial c.sun.solar.clear c.sun.topo (x.s0 .vis) x.cosz x.hidden
        (c.sun.shade x.cosz) (Solar.cells v) _ _ _ wV hz (hs .vis) hv hc.dem (fun i => hlim _ (hw i).1)
        (hm.illum x.cosz) hm.svf hm.tcf
      obtain ⟨iri, e2, n2⟩ := Solar.C45_nonneg_partial c.sun.solar.clear c.sun.topo (x.s0 .ir) x.cosz x.hidden
        (c.sun.shade x.cosz) (Solar.cells ir) _ _ _ wI hz (hs .ir) hv hc.dem (fun i => hlim _ (hw i).2)
        (hm.illum x.cosz) hm.svf hm.tcf
      unfold Solar.distribute at h
      simp only [if_pos hz, e1, e2, Except.ok.injEq, Prod.mk.injEq] at h
      obtain ⟨rfl, -, -⟩ := h
      have hr0 : ∀ i b k, 0 ≤ (⟨(vis i).1, (vis i).2, (iri i).1, (iri i).2⟩ : Solar.Rad).get b k := by
        intro i b k
        have q1 := n1 i
        have q2 := n2 i
        cases b <;> cases k <;> simp only [Solar.Rad.get] <;> linarith
      have hr1 : ∀ i b k, 0 ≤ (if c.sun.solar.correctCloud = true then
          Solar.cloudCorrect ⟨(vis i).1, (vis i).2, (iri i).1, (iri i).2⟩ (x.cloudFactor i)
          else ⟨(vis i).1, (vis i).2, (iri i).1, (iri i).2⟩).get b k := by
        intro i b k
        split
        · unfold Solar.cloudCorrect
          have q1 := n1 i
          have q2 := n2 i
          cases b <;> cases k <;> simp only [Solar.Rad.get]
          · exact (Solar.C47_total _ _ _ (by linarith) (hcf i).1 (hcf i).2).1
          · exact (Solar.C47_diffuse _ _ _ (by linarith) (by linarith) (hcf i).1 (hcf i).2).1
          · exact (Solar.C47_total _ _ _ (by linarith) (hcf i).1 (hcf i).2).1
          · exact (Solar.C47_diffuse _ _ _ (by linarith) (by linarith) (hcf i).1 (hcf i).2).1
        · exact hr0 i b k
      intro w a' e i
      cases w with
      | clear b k =>
        simp only [Solar.day, Solar.Attr.array.injEq] at e
        rw [← e]
        exact hr0 i b k
      | cloud b k =>
        simp only [Solar.day] at e
        split at e
        · rename_i hcc
          have := hr1 i b k
          rw [if_pos hcc] at this
          simp only [Solar.Attr.array.injEq] at e
          rw [← e]
          simpa [hcc] using this
        · exact hst _ _ e i
      | veg b k =>
        simp only [Solar.day] at e
        split at e
        · rename_i hcv
          simp only [Solar.Attr.array.injEq] at e
          rw [← e]
          obtain ⟨c1, c2, c3, c4⟩ := hm.canopy i
          exact (Solar.C48_veg_correct _ _ _ _ _ (hr1 i) c1 c2 c3 c4 b k).1
        · exact hst _ _ e i
      | net =>
        simp only [Solar.day, Solar.Attr.array.injEq] at e
        rw [← e]
        obtain ⟨l, hl, hl0, hlh⟩ := hm.net
        unfold Solar.calcNet
        exact hl0.trans ((Thermal.clamp_limits _ _ _).1 l hl hlh)
  · rw [(Solar.C46_night c.sun st x (not_lt.1 hz)).1] at h
    simp only [Except.ok.injEq, Prod.mk.injEq] at h
    obtain ⟨rfl, -, -⟩ := h
    intro w a' e
    cases e

theorem step_bright (c : Cfg ι D) (hc : Sound c) (hm : SunMaps c) (fuel : Nat) (s s' : State ι) (x : In ι D) (o : Out ι)
    (hx : Meets c x) (hs : Bright s.solar) (h : step c fuel s x = .ok (s', o)) : Bright s'.solar ∧ o.solar = s'.solar := by
  unfold step at h
  simp only at h
  split at h
  · cases h
  · split at h
    · cases h
    · rename_i ppt hp
      split at h
      · cases h
      · rename_i sol av ai hsol
        split at h
        · cases h
        · simp only [Except.ok.injEq, Prod.mk.injEq] at h
          obtain ⟨rfl, rfl⟩ := h
          refine ⟨solar_bright c hc hm s.solar sol _ (fun i => ?_) hx.sun hs av ai hsol, rfl⟩
          obtain ⟨a, b, ha, hb, h0, hab, h1⟩ := hm.cloud
          have := cut_within c.cloud (fun p q hp hq => by
            rw [ha] at hp; rw [hb] at hq; cases hp; cases hq; exact hab) x.cloud i
          exact ⟨h0.trans (this.1 a ha), (this.2 b hb).trans h1⟩

end Verif.Run
