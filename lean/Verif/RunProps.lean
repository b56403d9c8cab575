import Verif.RunLemmas

/-!
C125: in a whole run every published image stays in its configured limits, and with sound limits no step
aborts.
-/

namespace Verif.Run
open Verif.Vapor Verif.Twostream

variable {ι D : Type} [Fintype ι]

/-- In a run of any length, from any state with physical precipitation images, every image of every
step is in its range. -/
theorem C125_in_range (c : Cfg ι D) (hc : Sensible c) (fuel : Nat) (s : State ι) (hs : Physical s.ppt)
    (xs : List (In ι D)) (os : List (Out ι)) (h : run c fuel s xs = .ok os) : List.Forall₂ (InRange c) xs os := by
  induction xs generalizing s os with
  | nil =>
    rw [run] at h
    simp only [Except.ok.injEq] at h
    rw [← h]
    exact .nil
  | cons x xs ih =>
    rw [run] at h
    split at h
    · cases h
    · rename_i s' o hst
      split at h
      · cases h
      · rename_i os' hos
        simp only [Except.ok.injEq] at h
        rw [← h]
        obtain ⟨h1, h2⟩ := step_range c hc fuel s s' x o hs hst
        exact .cons h2 (ih s' h1 os' hos)

/-- With a sound configuration a run over any inputs that meet the conditions ends without an abort, and
its images do not depend on how many rounds the dew-point solver's loops are granted. Missing: the wet-bulb
method outside the conditions of `WetReady`, and sun angles for which the two-stream model fails. -/
theorem C125_no_abort_partial (c : Cfg ι D) (hc : Sound c) (s : State ι) (xs : List (In ι D))
    (hx : ∀ x ∈ xs, Meets c x) : ∃ N os, ∀ n, N ≤ n → run c n s xs = .ok os := by
  induction xs generalizing s with
  | nil => exact ⟨0, [], fun _ _ => rfl⟩
  | cons x xs ih =>
    obtain ⟨N, s', o, h1⟩ := step_runs c hc s x (hx x (by simp))
    obtain ⟨M, os, h2⟩ := ih s' fun y hy => hx y (by simp [hy])
    refine ⟨max N M, o :: os, fun n hn => ?_⟩
    rw [run, h1 n (le_trans (le_max_left _ _) hn)]
    simp only [h2 n (le_trans (le_max_right _ _) hn)]

/-- Whatever a sound run writes for a solar variable is not negative, in every step and cell. A variable
whose correction is off is left out of it only in so far as there may be nothing to write. Missing: as in
`C125_no_abort_partial`. -/
theorem C125_radiation_partial (c : Cfg ι D) (hc : Sound c) (hm : SunMaps c) (fuel : Nat) (s : State ι)
    (hs : ∀ v a, s.solar v = .array a → ∀ i, 0 ≤ a i) (xs : List (In ι D)) (hx : ∀ x ∈ xs, Meets c x)
    (os : List (Out ι)) (h : run c fuel s xs = .ok os) (o : Out ι) (ho : o ∈ os) (v : Solar.Var) (img : ι → ℝ)
    (hw : Solar.written (o.solar v) = .ok img) (i : ι) : 0 ≤ img i := by
  induction xs generalizing s os with
  | nil =>
    rw [run] at h
    simp only [Except.ok.injEq] at h
    rw [← h] at ho
    cases ho
  | cons x xs ih =>
    rw [run] at h
    split at h
    · cases h
    · rename_i s' o' hst
      split at h
      · cases h
      · rename_i os' hos
        simp only [Except.ok.injEq] at h
        obtain ⟨h1, h2⟩ := step_bright c hc hm fuel s s' x o' (hx x (by simp)) hs hst
        rw [← h] at ho
        rcases List.mem_cons.1 ho with e | e
        · rw [e, h2] at hw
          unfold Solar.written at hw
          split at hw
          · cases hw
          · simp only [Except.ok.injEq] at hw
            rw [← hw]
          · rename_i a ha
            simp only [Except.ok.injEq] at hw
            rw [← hw]
            exact h1 v a ha i
        · exact ih s' h1 (fun y hy => hx y (by simp [hy])) os' hos e

/-- The same with the numbers of `CoreConfig.ini`, for a domain between 450 m below and 44 km above sea
level. Missing: as in `C125_no_abort_partial`. -/
theorem C125_defaults_partial (c : Cfg ι D) (hl : DefaultLimits c) 
    (hwet : c.wet = true → 7 / 1000 ≤ c.tol ∧ ∀ i, c.maps.dem i ≤ 5500) (hn : Nasde.KnownModel c.nasde)
    (htol : 1 / 10000 ≤ c.tol) (hg : Albedo.Accepted c.sun.albedo.grain c.sun.albedo.maxGrain c.sun.albedo.dirt)
    (hd : DecayReady c.sun.albedo) (hdem : ∀ i, -450 ≤ c.maps.dem i ∧ c.maps.dem i < 44000)
    (hsame : c.sun.topo.dem = c.maps.dem) (hsky : c.thermal.sky = .marks1979 → c.thermal.terrain = true)
    (hscour : 0 ≤ c.drift.minScour ∧ c.drift.minScour ≤ c.drift.maxScour)
    (hdrift : 0 ≤ c.drift.minDrift ∧ c.drift.minDrift ≤ c.drift.maxDrift) (hstep : 0 ≤ c.ppt.timeStep)
    (s : State ι) (hs : Physical s.ppt) (xs : List (In ι D)) (hx : ∀ x ∈ xs, Meets c x) :
    ∃ N os, (∀ n, N ≤ n → run c n s xs = .ok os) ∧ List.Forall₂ (fun x o => ∀ i,
      (-73 ≤ o.airTemp i ∧ o.airTemp i ≤ 47) ∧ (20 ≤ o.vapor i ∧ o.vapor i ≤ 5000) ∧ o.dew i < o.airTemp i ∧
      (447 / 1000 ≤ o.wind i ∧ o.wind i ≤ 35) ∧ (0 ≤ o.cloud i ∧ o.cloud i ≤ 1) ∧
      0 ≤ o.ppt.precip i ∧ (0 ≤ o.ppt.perc i ∧ o.ppt.perc i ≤ 1) ∧ 0 ≤ o.ppt.days i ∧
      (0 ≤ o.albedoVis i ∧ o.albedoVis i ≤ 1) ∧ (0 ≤ o.albedoIr i ∧ o.albedoIr i ≤ 1) ∧
      (∃ net, Solar.written (o.solar .net) = .ok net ∧ 0 ≤ net i ∧ net i ≤ 800 ∧ (x.cosz ≤ 0 → net i = 0)) ∧
      (0 ≤ o.thermal.thermal i ∧ o.thermal.thermal i ≤ 600)) xs os := by
  obtain ⟨l1, l2, l3, l4, l5, l6, l7, l8⟩ := hl
  have a1 : c.sun.albedo.lo = some 0 := congrArg Limits.lo l5
  have a2 : c.sun.albedo.hi = some 1 := congrArg Limits.hi l5
  have sane : ∀ {l : Limits} {p q : ℝ}, l = ⟨some p, some q⟩ → p ≤ q → Sane l := by
    intro l p q e hpq u v hu hv
    subst e
    simp only [Option.some.injEq] at hu hv
    rw [← hu, ← hv]
    exact hpq
  have hsound : Sound c := by
    refine ⟨fun h => ⟨(hwet h).1, ⟨20, by rw [l2], le_rfl⟩, ⟨-73, by rw [l1], by norm_num⟩, ⟨47, by rw [l1], le_rfl⟩, (hwet h).2⟩, hn, htol, ⟨20, 5000, by rw [l2], by rw [l2], by norm_num, by norm_num, by norm_num [Vapor.seaLevel]⟩,
      ⟨-73, by rw [l1], ?_, by norm_num [freeze], fun i => ?_⟩, hg, hd,
      ⟨0, 1, a1, a2, le_refl _, zero_le_one, le_refl _⟩, fun i => ?_, hsky⟩
    · intro b hb
      rw [l1] at hb
      simp only [Option.some.injEq] at hb
      rw [← hb]; norm_num
    · have := (hdem i).1
      unfold freeze
      linarith
    · rw [hsame]; exact (hdem i).2
  have hsens : Sensible c := by
    refine ⟨sane l1 (by norm_num), sane l2 (by norm_num), sane l3 (by norm_num), sane l6 (by norm_num),
      sane l5 (by norm_num), sane l7 (by norm_num), sane l8 (by norm_num), ?_, ⟨0, by rw [l4], le_refl _⟩, hscour, hdrift,
      hstep⟩
    intro a b _ hb
    rw [l4] at hb
    cases hb
  obtain ⟨N, os, h⟩ := C125_no_abort_partial c hsound s xs hx
  refine ⟨N, os, h, (C125_in_range c hsens N s hs xs os (h N le_rfl)).imp fun x o r i => ?_⟩
  have out : ∀ {l : Limits} {p q y : ℝ}, l = ⟨some p, some q⟩ → Within l y → p ≤ y ∧ y ≤ q := by
    intro l p q y e hy
    subst e
    exact ⟨hy.1 p rfl, hy.2 q rfl⟩
  have day : (0 ≤ o.albedoVis i ∧ o.albedoVis i ≤ 1) ∧ (0 ≤ o.albedoIr i ∧ o.albedoIr i ≤ 1) ∧
      ∃ net, Solar.written (o.solar .net) = .ok net ∧ 0 ≤ net i ∧ net i ≤ 800 ∧ (x.cosz ≤ 0 → net i = 0) := by
    rcases lt_or_ge 0 x.cosz with hz | hz
    · obtain ⟨img, e, hi⟩ := r.net hz
      exact ⟨out l5 (r.albedo hz i).1, out l5 (r.albedo hz i).2, img, e, (out l7 (hi i)).1, (out l7 (hi i)).2,
        fun h' => absurd hz (not_lt.2 h')⟩
    · obtain ⟨h1, h2⟩ := r.night hz
      rw [(h1 i).1, (h1 i).2]
      exact ⟨by norm_num, by norm_num, _, h2 .net, le_refl _, by norm_num, fun _ => rfl⟩
  exact ⟨out l1 (r.airTemp i), out l2 (r.vapor i), r.dew i, out l3 (r.wind i), out l6 (r.cloud i), (r.precip i).1,
    ⟨(r.precip i).2.1, (r.precip i).2.2.1⟩, (r.precip i).2.2.2, day.1, day.2.1, day.2.2, out l8 (r.thermal i)⟩

/-! ### What is not true -/

/-- The full claim: every published image is within its limits, precipitation and albedo included. -/
def C125_full : Prop :=
  ∀ (c : Cfg Unit ℝ), Sensible c → ∀ (n : Nat) (s : State Unit), Physical s.ppt → ∀ (x : In Unit ℝ) (s' : State Unit)
    (o : Out Unit), step c n s x = .ok (s', o) →
    ∀ i, Within c.precip (o.ppt.precip i) ∧ Within (albedoLimits c) (o.albedoVis i)

/-- Precipitation is limited before it is redistributed by the wind: a cold sheltered cell at its maximum
ends above it. -/
theorem C125_precip_max_fails (c : Cfg ι D) (n : Nat) (s s' : State ι) (x : In ι D) (o : Out ι) (i : ι)
    (h : step c n s x = .ok (s', o)) (hg : c.ppt.grid = true) (hw : c.ppt.winstral = true) (hsum : 0 < c.sum x.precip)
    (k : Nat) (b : ℝ) (hk : Precip.dirIndex c.dirs (x.dirRound i) = some k) (hb : c.tbreak k i = some b)
    (hth : c.drift.threshold < b) (hdew : o.dew i < 1 / 2)
    (hf : 1 < Precip.clampTo c.drift.minDrift c.drift.maxDrift (Precip.driftFactor (o.wind i)))
    (m : ℝ) (hm : 0 < m) (hhi : c.precip.hi = some m) (hp : m ≤ c.interp x.precip i) :
    m < o.ppt.precip i := by
  have hcut : c.precip.cut (c.interp x.precip) i = m := by
    unfold Limits.cut Solar.clamp
    rw [hhi]
    have e : ∀ y : ℝ, m ≤ y → (some m).elim y (fun h => if h ≤ y then h else y) = m := fun y hy => if_pos hy
    apply e
    cases hl : c.precip.lo with
    | none => exact hp
    | some a =>
      show m ≤ if c.interp x.precip i ≤ a then a else c.interp x.precip i
      split
      · rename_i h'
        exact hp.trans h'
      · exact hp
  unfold step at h
  simp only at h
  split at h
  · cases h
  · rename_i vp dew temp hv
    split at h
    · cases h
    · rename_i ppt hppt
      split at h
      · cases h
      · split at h
        · cases h
        · simp only [Except.ok.injEq, Prod.mk.injEq] at h
          obtain ⟨-, rfl⟩ := h
          simp only at hdew hf ⊢
          unfold precipStep at hppt
          split at hppt
          · cases hppt
          · split at hppt
            · cases hppt
            · simp only [Except.ok.injEq] at hppt
              rw [← hppt]
              unfold Precip.pptStep
              simp only [hg, hw, Bool.true_eq_false, if_false]
              rw [if_pos ⟨trivial, i, hdew⟩]
              simp only
              unfold redist
              rw [hk]
              simp only [Option.bind_some, hb]
              unfold Precip.driftCell
              simp only [hth, hdew, not_le.2 hth, not_le.2 hdew, decide_true, decide_false, if_true, if_false,
                and_self, Bool.false_eq_true, and_true]
              unfold Precip.susongStep
              rw [if_pos hsum]
              simp only
              rw [hcut]
              nlinarith

/-- A run of one cell: a cold night with snow in a sheltered place. -/
noncomputable def snowyCfg : Cfg Unit ℝ where
  airTemp := ⟨some (-73), some 47⟩
  vapor := ⟨some 20, some 5000⟩
  wind := ⟨some (447 / 1000), some 35⟩
  precip := ⟨some 0, some 10⟩
  cloud := ⟨some 0, some 1⟩
  tol := 1 / 100
  wet := false
  ppt := ⟨true, false, false, true, 60, 1, 6⟩
  nasde := "susong1999"
  interp := fun d _ => d
  sum := fun d => d
  adjust := fun d => d
  drift := ⟨7, 55 / 100, 1, 1, 35 / 10⟩
  vegFact := []
  vegClass := fun _ => 0
  dirs := [0]
  tbreak := fun _ _ => some 10
  sun := Solar.sampleSetup
  thermal := ⟨.marks1979, some .garen2005, true, true, some 0, some 600⟩
  maps := ⟨fun _ => 1000, fun _ => 9 / 10, fun _ => 0, fun _ => 1⟩

noncomputable def snowyState : State Unit := ⟨⟨fun _ => 0, fun _ => 0, fun _ => 0, fun _ => 0, fun _ => 0⟩, Solar.initial Unit⟩

/-- The input of the step; `z` is the cosine of the solar zenith angle. -/
noncomputable def snowyIn (z : ℝ) : In Unit ℝ :=
  ⟨0, z, fun _ => 600, fun _ => False, fun _ => -5, fun _ => 300, fun _ => 20, fun _ => 0, fun _ => 0, fun _ => 1 / 2, 10, 10, true, none⟩

theorem snowy_sensible : Sensible snowyCfg := by
  refine ⟨?_, ?_, ?_, ?_, ?_, ?_, ?_, ?_, ⟨0, rfl, le_refl _⟩, by norm_num [snowyCfg], by norm_num [snowyCfg],
    by norm_num [snowyCfg]⟩ <;>
  · intro a b ha hb
    simp only [snowyCfg, albedoLimits, solarLimits, thermalLimits, Solar.sampleSetup, Option.some.injEq, reduceCtorEq] at ha hb
    try (rw [← ha, ← hb]; norm_num)

theorem snowy_sound : Sound snowyCfg := by
  refine ⟨fun h => (by cases h), .inl rfl, by norm_num [snowyCfg], ⟨20, 5000, rfl, rfl, by norm_num, by norm_num, by norm_num [Vapor.seaLevel]⟩,
    ⟨-73, rfl, ?_, by norm_num [freeze], fun _ => by norm_num [freeze, snowyCfg]⟩,
    by norm_num [Albedo.Accepted, snowyCfg, Solar.sampleSetup], trivial,
    ⟨0, 1, rfl, rfl, le_refl _, zero_le_one, le_refl _⟩, fun _ => by norm_num [snowyCfg, Solar.sampleSetup], fun _ => rfl⟩
  intro b hb
  simp only [snowyCfg, Option.some.injEq] at hb
  rw [← hb]; norm_num

theorem snowy_meets (z : ℝ) (hz : z ≤ 0 ∨ z = 1 / 2) : Meets snowyCfg (snowyIn z) := by
  refine ⟨fun h => ?_, fun _ _ => by simp [snowyCfg, snowyIn]⟩
  rcases hz with h' | h'
  · exact absurd h (not_lt.2 h')
  · rw [h']
    exact ⟨Solar.sample_valid, fun _ => by norm_num [snowyIn]⟩

theorem snowy_physical : Physical snowyState.ppt := fun _ => by norm_num [snowyState]

theorem C125_fails : ¬ C125_full := by
  intro h
  obtain ⟨N, s', o, hst⟩ := step_runs snowyCfg snowy_sound snowyState (snowyIn 0) (snowy_meets 0 (.inl le_rfl))
  have hr := (step_range snowyCfg snowy_sensible N snowyState s' _ o snowy_physical (hst N le_rfl)).2
  have h10 := (h snowyCfg snowy_sensible N snowyState snowy_physical _ s' o (hst N le_rfl) ()).1.2 10 rfl
  have hta : o.airTemp () = -5 ∧ o.wind () = 20 := by
    have := hst N le_rfl
    unfold step at this
    simp only at this
    split at this
    · cases this
    · split at this
      · cases this
      · split at this
        · cases this
        · split at this
          · cases this
          · simp only [Except.ok.injEq, Prod.mk.injEq] at this
            obtain ⟨-, rfl⟩ := this
            constructor <;> norm_num [Limits.cut, Solar.clamp, snowyCfg, snowyIn]
  have hd := hr.dew ()
  have := C125_precip_max_fails snowyCfg N snowyState s' (snowyIn 0) o () (hst N le_rfl) rfl rfl
    (by norm_num [snowyCfg, snowyIn]) 0 10 (by simp [Precip.dirIndex, snowyCfg, snowyIn]) rfl (by norm_num [snowyCfg])
    (by rw [hta.1] at hd; linarith) (by
      rw [hta.2]
      have hx : (2 : ℝ) ≤ Precip.driftFactor 20 := by
        unfold Precip.driftFactor
        have := Real.add_one_le_exp (-(956 / 10000) * 20 + 289 / 10000 * (20 : ℝ) ^ 2)
        norm_num at this ⊢
        linarith
      show 1 < Precip.clampTo 1 (35 / 10) (Precip.driftFactor 20)
      unfold Precip.clampTo
      have e : (if Precip.driftFactor 20 ≤ 1 then 1 else Precip.driftFactor 20) = Precip.driftFactor 20 :=
        if_neg (by linarith)
      simp only [e]
      split
      · norm_num
      · linarith) 10 (by norm_num) rfl (by norm_num [snowyCfg, snowyIn])
  linarith

/-- At night both albedos are 0, below a positive lower limit. -/
theorem C125_albedo_night_fails (c : Cfg ι D) (hc : Sensible c) (n : Nat) (s s' : State ι) (hs : Physical s.ppt)
    (x : In ι D) (o : Out ι) (h : step c n s x = .ok (s', o)) (hz : x.cosz ≤ 0) (a : ℝ) (ha : c.sun.albedo.lo = some a)
    (h0 : 0 < a) (i : ι) : ¬ Within (albedoLimits c) (o.albedoVis i) ∧ ¬ Within (albedoLimits c) (o.albedoIr i) := by
  obtain ⟨h1, -⟩ := (step_range c hc n s s' x o hs h).2.night hz
  rw [(h1 i).1, (h1 i).2]
  exact ⟨fun hw => absurd (hw.1 a ha) (not_le.2 h0), fun hw => absurd (hw.1 a ha) (not_le.2 h0)⟩

/-- A day and a night of the run above end, with all images in range. -/
example : ∃ N os, (∀ n, N ≤ n → run snowyCfg n snowyState [snowyIn (1 / 2), snowyIn 0] = .ok os) ∧
    List.Forall₂ (InRange snowyCfg) [snowyIn (1 / 2), snowyIn 0] os := by
  obtain ⟨N, os, h⟩ := C125_no_abort_partial snowyCfg snowy_sound snowyState [snowyIn (1 / 2), snowyIn 0] (by
    intro x hx
    simp only [List.mem_cons, List.not_mem_nil, or_false] at hx
    rcases hx with rfl | rfl
    · exact snowy_meets _ (.inr rfl)
    · exact snowy_meets _ (.inl le_rfl))
  exact ⟨N, os, h, C125_in_range snowyCfg snowy_sensible N snowyState snowy_physical _ os (h N le_rfl)⟩

/-- The same run with the wet-bulb method ends too. -/
example : ∃ N os, ∀ n, N ≤ n →
    run { snowyCfg with wet := true } n snowyState [snowyIn (1 / 2), snowyIn 0] = .ok os := by
  have hs : Sound { snowyCfg with wet := true } := ⟨fun _ => ⟨by norm_num [snowyCfg], ⟨20, rfl, le_rfl⟩,
    ⟨-73, rfl, by norm_num⟩, ⟨47, rfl, le_rfl⟩, fun _ => by norm_num [snowyCfg]⟩, snowy_sound.model, snowy_sound.tol,
    snowy_sound.vapor, snowy_sound.airTemp, snowy_sound.grain, snowy_sound.decay, snowy_sound.albedo, snowy_sound.dem,
    snowy_sound.sky⟩
  refine C125_no_abort_partial _ hs snowyState _ fun x hx => ?_
  simp only [List.mem_cons, List.not_mem_nil, or_false] at hx
  rcases hx with rfl | rfl
  · exact ⟨(snowy_meets _ (.inr rfl)).sun, (snowy_meets _ (.inr rfl)).wind⟩
  · exact ⟨(snowy_meets _ (.inl le_rfl)).sun, (snowy_meets _ (.inl le_rfl)).wind⟩

/-- The hypotheses of `C125_radiation_partial` and `C125_defaults_partial` hold of it too, with the default
upper limit of precipitation and the limits of solar radiation. -/
noncomputable def plainCfg : Cfg Unit ℝ :=
  { snowyCfg with
    precip := ⟨some 0, none⟩
    sun := { Solar.sampleSetup with solar := { Solar.sampleSetup.solar with lo := some 0, hi := some 800 } } }

example : DefaultLimits plainCfg ∧ SunMaps plainCfg := by
  refine ⟨⟨rfl, rfl, rfl, rfl, rfl, rfl, rfl, rfl⟩, ⟨fun _ _ => ?_, fun _ => ?_, fun _ => ?_, fun _ => ?_,
    ⟨0, 1, rfl, rfl, le_refl _, zero_le_one, le_refl _⟩, ⟨0, rfl, le_refl _, fun b hb => ?_⟩⟩⟩
  · norm_num [plainCfg, Solar.sampleSetup]
  · norm_num [plainCfg, Solar.sampleSetup]
  · norm_num [plainCfg, Solar.sampleSetup]
  · norm_num [plainCfg, Solar.sampleSetup]
  · simp only [plainCfg, Option.some.injEq] at hb
    rw [← hb]; norm_num

end Verif.Run
