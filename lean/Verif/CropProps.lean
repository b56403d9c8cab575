import Verif.CropLemmas
import Verif.RunProps
import Verif.RunChain
import Verif.PrecipProps
import Verif.TwostreamProps

/-!
Property C138: a run over a part of the domain gives the images of the run over the whole domain. It holds of air
temperature, vapor pressure, dew point, precipitation temperature, wind, cloud factor, thermal radiation and
precipitation without condition, and of everything if the part represents the domain in every step; it fails of the
days since the last storm, the percentage of snow of the marks2017 model and, through the mean albedo, of solar
radiation.
-/

namespace Verif.Crop
open Verif.Run

variable {ι κ D : Type} [Fintype ι] [Fintype κ]

/-- C138 as stated. -/
def C138_full : Prop :=
  ∀ (ι κ D : Type) [Fintype ι] [Fintype κ] (f : κ → ι) (c : Cfg ι D), Sensible c → Sound c → ∀ (n : Nat) (s : State ι)
    (xs : List (In ι D)) (os : List (Out ι)), Physical s.ppt → run c n s xs = .ok os →
    run (cfg f c) n (state f s) (xs.map (input f)) = .ok (os.map (out f))

/-- The part represents the domain in a step with input `x` and images `o`: it has a cell with precipitation, with
snow, with cold precipitation if the domain has one, and in sunshine the same mean albedos. -/
structure Represents (f : κ → ι) (c : Cfg ι D) (x : In ι D) (o : Out ι) : Prop where
  rain : (∃ i, 0 < amount c x i) → ∃ k, 0 < amount c x (f k)
  snow : (∃ i, 0 < o.ppt.perc i) → ∃ k, 0 < o.ppt.perc (f k)
  cold : (∃ i, o.precipTemp i < 2) → ∃ k, o.precipTemp (f k) < 2
  vis : 0 < x.cosz → mean (o.albedoVis ∘ f) = mean o.albedoVis
  ir : 0 < x.cosz → mean (o.albedoIr ∘ f) = mean o.albedoIr

omit [Fintype ι] in
theorem amount_nonneg (c : Cfg ι D) (hc : Sensible c) (x : In ι D) (i : ι) : 0 ≤ amount c x i := by
  obtain ⟨a, ha, h0⟩ := hc.rain
  exact h0.trans ((cut_within c.precip hc.precip _ i).1 a ha)

theorem step_crop (f : κ → ι) (c : Cfg ι D) (hc : Sensible c) (n : Nat) (s s' : State ι) (x : In ι D) (o : Out ι)
    (hr : Represents f c x o) (h : step c n s x = .ok (s', o)) :
    step (cfg f c) n (state f s) (input f x) = .ok (state f s', out f o) := by
  unfold step at h ⊢
  simp only at h ⊢
  split at h
  · cases h
  · rename_i vp dew temp hv
    split at h
    · cases h
    · rename_i p hp
      split at h
      · cases h
      · rename_i sol av ai hsol
        split at h
        · cases h
        · rename_i th hth
          simp only [Except.ok.injEq, Prod.mk.injEq] at h
          obtain ⟨rfl, rfl⟩ := h
          have h1 : vaporStep (cfg f c) n (input f x).vapor ((cfg f c).airTemp.cut (input f x).airTemp) =
              .ok (vp ∘ f, dew ∘ f, temp ∘ f) := vaporStep_crop f c n _ _ _ _ _ hv
          rw [h1]
          simp only
          have h2 : precipStep (cfg f c) (input f x) (dew ∘ f) (temp ∘ f) ((cfg f c).wind.cut (input f x).windSpeed) (state f s).ppt =
              .ok (ppt f p) :=
            precipStep_crop f c x dew temp (c.wind.cut x.windSpeed) s.ppt p (amount_nonneg c hc x) hr.rain hr.snow hr.cold hp
          rw [h2]
          simp only
          have h3 : Solar.timestep (cfg f c).sun (state f s).solar ⟨(input f x).time, (input f x).cosz,
              (cfg f c).cloud.cut (input f x).cloud, (ppt f p).days, (input f x).s0, (input f x).hidden⟩ =
              .ok (fun v => attr f (sol v), av ∘ f, ai ∘ f) := by
            unfold Solar.timestep at hsol ⊢
            simp only at hsol ⊢
            split at hsol
            · cases hsol
            · rename_i v ir hal
              split at hsol
              · cases hsol
              · rename_i st' hst
                simp only [Except.ok.injEq, Prod.mk.injEq] at hsol
                obtain ⟨rfl, rfl, rfl⟩ := hsol
                have hill : Solar.illumination (cfg f c).sun.shade (input f x).cosz =
                    (Solar.illumination c.sun.shade x.cosz).map (· ∘ f) := by
                  unfold Solar.illumination
                  by_cases hz : 0 < x.cosz
                  · rw [if_pos hz, if_pos (show 0 < (input f x).cosz from hz)]; rfl
                  · rw [if_neg hz, if_neg (show ¬ 0 < (input f x).cosz from hz)]; rfl
                rw [hill]
                have ha := albedo_crop f c.sun.albedo c.sun.vegType x.time _ p.days v ir hal
                have ha' : Albedo.distribute (cfg f c).sun.albedo (cfg f c).sun.vegType (input f x).time
                    ((Solar.illumination c.sun.shade x.cosz).map (· ∘ f)) (ppt f p).days = .ok (v ∘ f, ir ∘ f) := ha
                rw [ha']
                simp only
                have hs := solar_crop f c.sun x.s0 x.hidden s.solar st' (c.cloud.cut x.cloud) _ x.cosz (Solar.cells v) (Solar.cells ir)
                  hr.vis hr.ir hst
                have hs' : Solar.distribute (cfg f c).sun.solar (cfg f c).sun.topo (cfg f c).sun.veg (input f x).s0 (input f x).hidden
                    (state f s).solar ((cfg f c).cloud.cut (input f x).cloud)
                    ((Solar.illumination c.sun.shade x.cosz).map (· ∘ f)) (input f x).cosz (Solar.cells (v ∘ f)) (Solar.cells (ir ∘ f)) =
                    .ok fun v => attr f (st' v) := hs
                rw [hs']
                rfl
          rw [h3]
          simp only
          have h4 : Thermal.distribute (cfg f c).thermal (cfg f c).maps
              ⟨(cfg f c).airTemp.cut (input f x).airTemp, vp ∘ f, dew ∘ f, (cfg f c).cloud.cut (input f x).cloud⟩ =
              .ok (thermal f th) := thermal_crop f c.thermal c.maps _ vp dew _ th hth
          rw [h4]
          rfl

/-- A run over a part that represents the domain in every step gives exactly the images of the run over the domain at
the cells of the part, and does not abort. Missing: parts that do not represent the domain. -/
theorem C138_run_partial (f : κ → ι) (c : Cfg ι D) (hc : Sensible c) (n : Nat) (xs : List (In ι D)) : ∀ (s : State ι)
    (os : List (Out ι)), List.Forall₂ (Represents f c) xs os → run c n s xs = .ok os →
    run (cfg f c) n (state f s) (xs.map (input f)) = .ok (os.map (out f)) := by
  induction xs with
  | nil =>
    intro s os _ h
    cases h
    rfl
  | cons x xs ih =>
    intro s os hr h
    rw [run] at h
    split at h
    · cases h
    · rename_i s' o hs
      split at h
      · cases h
      · rename_i os' ho
        cases h
        rw [List.forall₂_cons] at hr
        rw [List.map_cons, run, step_crop f c hc n s s' x o hr.1 hs]
        simp only
        rw [ih s' os' hr.2 ho]
        rfl

/-- A permutation of the cells, and any other part that every cell of the domain is in, represents the domain as far as
precipitation is concerned; at night nothing else is needed. -/
theorem represents_onto (f : κ → ι) (hf : Function.Surjective f) (c : Cfg ι D) (x : In ι D) (o : Out ι) (hz : x.cosz ≤ 0) :
    Represents f c x o :=
  ⟨fun ⟨i, hi⟩ => (hf i).elim fun k hk => ⟨k, hk ▸ hi⟩, fun ⟨i, hi⟩ => (hf i).elim fun k hk => ⟨k, hk ▸ hi⟩,
    fun ⟨i, hi⟩ => (hf i).elim fun k hk => ⟨k, hk ▸ hi⟩, fun h => absurd h (not_lt.2 hz), fun h => absurd h (not_lt.2 hz)⟩

/-! ### Images that need no condition -/

/-- The images of the part are those of the domain, except snow and sunshine. -/
structure SameAir (f : κ → ι) (o : Out ι) (o' : Out κ) : Prop where
  airTemp : o'.airTemp = o.airTemp ∘ f
  vapor : o'.vapor = o.vapor ∘ f
  dew : o'.dew = o.dew ∘ f
  precipTemp : o'.precipTemp = o.precipTemp ∘ f
  wind : o'.wind = o.wind ∘ f
  cloud : o'.cloud = o.cloud ∘ f
  thermal : o'.thermal = thermal f o.thermal

theorem step_parts (c : Cfg ι D) (n : Nat) (s s' : State ι) (x : In ι D) (o : Out ι) (h : step c n s x = .ok (s', o)) :
    vaporStep c n x.vapor (c.airTemp.cut x.airTemp) = .ok (o.vapor, o.dew, o.precipTemp) ∧
    o.airTemp = c.airTemp.cut x.airTemp ∧ o.wind = c.wind.cut x.windSpeed ∧ o.cloud = c.cloud.cut x.cloud ∧
    Thermal.distribute c.thermal c.maps ⟨o.airTemp, o.vapor, o.dew, o.cloud⟩ = .ok o.thermal ∧
    precipStep c x o.dew o.precipTemp o.wind s.ppt = .ok o.ppt := by
  unfold step at h
  simp only at h
  split at h
  · cases h
  · rename_i vp dew temp hv
    split at h
    · cases h
    · rename_i p hp
      split at h
      · cases h
      · rename_i sol av ai hsol
        split at h
        · cases h
        · rename_i th hth
          simp only [Except.ok.injEq, Prod.mk.injEq] at h
          obtain ⟨rfl, rfl⟩ := h
          exact ⟨hv, rfl, rfl, rfl, hth, hp⟩

theorem step_air (f : κ → ι) (c : Cfg ι D) (n : Nat) (s s1 : State ι) (t t1 : State κ) (x : In ι D) (o : Out ι) (o' : Out κ)
    (h : step c n s x = .ok (s1, o)) (h' : step (cfg f c) n t (input f x) = .ok (t1, o')) : SameAir f o o' := by
  obtain ⟨a1, a2, a3, a4, a5, -⟩ := step_parts c n s s1 x o h
  obtain ⟨b1, b2, b3, b4, b5, -⟩ := step_parts (cfg f c) n t t1 (input f x) o' h'
  have h1 : vaporStep (cfg f c) n (input f x).vapor ((cfg f c).airTemp.cut (input f x).airTemp) =
    .ok (o.vapor ∘ f, o.dew ∘ f, o.precipTemp ∘ f) := vaporStep_crop f c n _ _ _ _ _ a1
  rw [h1] at b1
  simp only [Except.ok.injEq, Prod.mk.injEq] at b1
  obtain ⟨e1, e2, e3⟩ := b1
  have e4 : o'.airTemp = o.airTemp ∘ f := by rw [a2, b2]; rfl
  have e5 : o'.cloud = o.cloud ∘ f := by rw [a4, b4]; rfl
  refine ⟨e4, e1.symm, e2.symm, e3.symm, by rw [a3, b3]; rfl, e5, ?_⟩
  have h2 := thermal_crop f c.thermal c.maps _ _ _ _ _ a5
  rw [e4, ← e1, ← e2, e5] at b5
  have b5' : Thermal.distribute c.thermal (maps f c.maps) ⟨o.airTemp ∘ f, o.vapor ∘ f, o.dew ∘ f, o.cloud ∘ f⟩ = .ok o'.thermal := b5
  rw [h2] at b5'
  exact (Except.ok.inj b5').symm

/-- Whatever the part and the states: a run over the part that ends has the air temperature, vapor pressure, dew point,
precipitation temperature, wind speed, cloud factor and thermal radiation of the run over the domain. -/
theorem C138_air (f : κ → ι) (c : Cfg ι D) (n : Nat) (xs : List (In ι D)) : ∀ (s : State ι) (t : State κ) (os : List (Out ι))
    (os' : List (Out κ)), run c n s xs = .ok os → run (cfg f c) n t (xs.map (input f)) = .ok os' →
    List.Forall₂ (SameAir f) os os' := by
  induction xs with
  | nil =>
    intro s t os os' h h'
    cases h; cases h'
    exact .nil
  | cons x xs ih =>
    intro s t os os' h h'
    rw [run] at h
    rw [List.map_cons, run] at h'
    split at h
    · cases h
    · rename_i s1 o hs
      split at h
      · cases h
      · rename_i os1 ho
        cases h
        split at h'
        · cases h'
        · rename_i t1 o' hs'
          split at h'
          · cases h'
          · rename_i os1' ho'
            cases h'
            exact .cons (step_air f c n s s1 t t1 x o o' hs hs') (ih s1 t1 os1 os1' ho ho')

theorem run_length (c : Cfg ι D) (n : Nat) (xs : List (In ι D)) : ∀ (s : State ι) (os : List (Out ι)), run c n s xs = .ok os →
    xs.length = os.length := by
  induction xs with
  | nil => intro s os h; cases h; rfl
  | cons x xs ih =>
    intro s os h
    rw [run] at h
    split at h
    · cases h
    · rename_i s' o hs
      split at h
      · cases h
      · rename_i os' ho
        cases h
        rw [List.length_cons, List.length_cons, ih s' os' ho]

/-- The cells are anonymous: renumbering them (for instance turning the grid upside down) renumbers the images of a run
and changes nothing else. -/
theorem C138_renumber (e : κ ≃ ι) (c : Cfg ι D) (hc : Sensible c) (n : Nat) (s : State ι) (xs : List (In ι D)) (os : List (Out ι))
    (h : run c n s xs = .ok os) : run (cfg e c) n (state e s) (xs.map (input e)) = .ok (os.map (out e)) := by
  have hm : ∀ a : ι → ℝ, mean (a ∘ e) = mean a := by
    intro a
    unfold mean
    rw [Fintype.card_congr e]
    congr 1
    exact Equiv.sum_comp e a
  have hall : ∀ (x : In ι D) (o : Out ι), Represents e c x o := fun x o =>
    ⟨fun ⟨i, hi⟩ => ⟨e.symm i, by rwa [e.apply_symm_apply]⟩, fun ⟨i, hi⟩ => ⟨e.symm i, by rwa [e.apply_symm_apply]⟩,
      fun ⟨i, hi⟩ => ⟨e.symm i, by rwa [e.apply_symm_apply]⟩, fun _ => hm _, fun _ => hm _⟩
  refine C138_run_partial e c hc n xs s os ?_ h
  rw [List.forall₂_iff_get]
  exact ⟨run_length c n xs s os h, fun i h1 h2 => hall _ _⟩

/-- The precipitation of a step, cell by cell. -/
theorem precip_cell (c : Cfg ι D) (hr : Precip.Refreshing c.ppt) (x : In ι D) (dew temp wind : ι → ℝ) (s p : Precip.PState ι)
    (h : precipStep c x dew temp wind s = .ok p) (i : ι) :
    p.precip i = if c.ppt.winstral = true then
        redist c x dew wind (fun j => if 0 < c.sum (used c x) then amount c x j else 0) i
      else if 0 < c.sum (used c x) then amount c x i else 0 := by
  unfold precipStep at h
  split_ifs at h with h1 h2
  have h3 := Except.ok.inj h
  have hs1 : ∀ (q : Precip.PState ι), (q = if c.ppt.grid = false then
          if c.ppt.marks = true then
            Precip.marksStep c.ppt ⟨c.sum, fun d => c.precip.cut (c.interp d), phase c.nasde, c.adjust⟩
              (if c.ppt.undercatch = true then c.adjust x.clipped else x.clipped) x.storming x.stormTotal temp s
          else if c.ppt.undercatch = true then
            Precip.susongStep c.ppt ⟨c.sum, fun d => c.precip.cut (c.interp d), phase c.nasde, c.adjust⟩ (c.adjust x.precip) temp s
          else s
        else Precip.susongStep c.ppt ⟨c.sum, fun d => c.precip.cut (c.interp d), phase c.nasde, c.adjust⟩ x.precip temp s) →
      q.precip = fun j => if 0 < c.sum (used c x) then amount c x j else 0 := by
    intro q hq
    rw [hq]
    unfold amount used
    cases hg : c.ppt.grid with
    | true =>
      simp only [reduceCtorEq, if_true, if_false, Precip.susongStep]
      split_ifs <;> rfl
    | false =>
      cases hm : c.ppt.marks with
      | true =>
        simp only [reduceCtorEq, if_true, if_false, Precip.marksStep]
        split_ifs <;> rfl
      | false =>
        have hu : c.ppt.undercatch = true := by
          rcases hr with h | h | h
          · rw [hg] at h; cases h
          · rw [hm] at h; cases h
          · exact h
        simp only [hu, reduceCtorEq, if_true, if_false, Precip.susongStep]
        split_ifs <;> rfl
  have e : ∀ q : Precip.PState ι, q.precip = (fun j => if 0 < c.sum (used c x) then amount c x j else 0) →
      (p = if c.ppt.winstral = true ∧ ∃ i, dew i < 1 / 2 then { q with precip := redist c x dew wind q.precip } else q) →
      p.precip i = if c.ppt.winstral = true then
        redist c x dew wind (fun j => if 0 < c.sum (used c x) then amount c x j else 0) i
      else if 0 < c.sum (used c x) then amount c x i else 0 := by
    intro q hq hp
    rw [hp]
    by_cases hw : c.ppt.winstral = true
    · rw [if_pos hw]
      by_cases hd : ∃ i, dew i < 1 / 2
      · rw [if_pos ⟨hw, hd⟩, hq]
      · rw [if_neg (fun h => hd h.2), redist_warm c x dew wind _ i (fun h => hd ⟨i, h⟩), hq]
    · rw [if_neg hw, if_neg (fun h => hw h.1), hq]
  exact e _ (hs1 _ rfl) h3.symm

/-- The same of precipitation, in configurations that compute it in every step. -/
theorem C138_precip (f : κ → ι) (c : Cfg ι D) (hr : Precip.Refreshing c.ppt) (n : Nat) (s s1 : State ι) (t t1 : State κ) (x : In ι D)
    (o : Out ι) (o' : Out κ) (h : step c n s x = .ok (s1, o)) (h' : step (cfg f c) n t (input f x) = .ok (t1, o')) :
    o'.ppt.precip = o.ppt.precip ∘ f := by
  have ha := step_air f c n s s1 t t1 x o o' h h'
  obtain ⟨-, -, -, -, -, a⟩ := step_parts c n s s1 x o h
  obtain ⟨-, -, -, -, -, b⟩ := step_parts (cfg f c) n t t1 (input f x) o' h'
  rw [ha.dew, ha.wind] at b
  funext k
  rw [precip_cell (cfg f c) hr (input f x) _ _ _ _ _ b k]
  show _ = o.ppt.precip (f k)
  rw [precip_cell c hr x _ _ _ _ _ a (f k)]
  rfl

/-! ### Images that do depend on the rest of the domain -/

/-- The days since the last storm: a cell without snow that had enough snow in a storm before stays at 0 days as long as
it snows anywhere else in the domain; in a run over this cell alone the day is counted. -/
theorem C138_storm_fails (precip perc : ι → ℝ) (ts mass time thresh : ℝ) (c : Storms.Clock ι ℝ) (i j : ι) (h0 : ∀ i, 0 ≤ perc i)
    (hj : 0 < perc j) (hi : perc i = 0) (ht : 0 < thresh) (hm : mass ≤ c.precip i) (hd : c.days i + 1 < time) :
    (Storms.timeSinceStorm precip perc ts mass time thresh c).days i = 0 ∧
    (Storms.timeSinceStorm (fun _ : Unit => precip i) (fun _ => perc i) ts mass time thresh ⟨fun _ => c.days i, fun _ => c.precip i⟩).days () =
      c.days i + 1 := by
  unfold Storms.timeSinceStorm
  constructor
  · have hs : ∑ i, perc i ≠ 0 := fun h => (sum_zero perc h0).1 h ⟨j, hj⟩
    simp only [if_neg hs, hi, if_neg (not_le.2 ht), if_neg (not_le.2 hd), if_pos hm]
  · simp [hi]

/-- The percentage of snow of the marks2017 model: a cold cell without precipitation has 100 % snow when it rains
somewhere in the domain, 0 % when it does not. -/
theorem C138_percent_fails (t p : ι → ℝ) (i j : ι) (ht : t i ≤ -1 / 2) (hi : p i = 0) (hj : 0 < p j) :
    (Nasde.marks2017 t p).pcs i = 1 ∧ (Nasde.marks2017 (fun _ : Unit => t i) (fun _ => p i)).pcs () = 0 := by
  constructor
  · unfold Nasde.marks2017
    have h : ∃ i, 0 < p i := ⟨j, hj⟩
    simp only [if_pos h]
    have e : Nasde.percentSnow (0 : ℝ) (Nasde.checkTemperature (K := ℝ) 0 (-10) (Nasde.checkTemperature (K := ℝ) 0 (-10) (t i)).1).1 = 1 := by
      have : (Nasde.checkTemperature (K := ℝ) 0 (-10) (Nasde.checkTemperature (K := ℝ) 0 (-10) (t i)).1).1 ≤ -1 / 2 := by
        unfold Nasde.checkTemperature
        simp only
        split_ifs <;> linarith
      generalize (Nasde.checkTemperature (K := ℝ) 0 (-10) (Nasde.checkTemperature (K := ℝ) 0 (-10) (t i)).1).1 = u at this
      unfold Nasde.percentSnow
      simp only [if_pos this]
      rw [if_neg (by rintro ⟨h1, -⟩; linarith), if_neg (by rintro ⟨h1, -⟩; linarith)]
    split_ifs <;> exact e
  · unfold Nasde.marks2017
    have h : ¬ ∃ u : Unit, 0 < p i := by rintro ⟨-, h⟩; rw [hi] at h; exact lt_irrefl _ h
    rw [if_neg h]

/-! ### The sky over a brighter ground -/

section sky
open Verif.Twostream

theorem coef_ground {cosz omega g r r' : ℝ} {c : Coef} (hr : 0 ≤ r) (hr' : 0 ≤ r') (h : coef cosz omega g r = .ok c) :
    coef cosz omega g r' = .ok { c with rm := c.gam.g2 - c.gmx * r', rp := c.gam.g2 - c.gpx * r' } ∧
      c.rm = c.gam.g2 - c.gmx * r ∧ c.rp = c.gam.g2 - c.gpx * r := by
  unfold coef at h ⊢
  rw [if_neg (not_lt.2 hr)] at h
  rw [if_neg (not_lt.2 hr')]
  cases hm : mwgamma cosz omega g with
  | error e => rw [hm] at h; cases h
  | ok γ =>
    rw [hm] at h
    simp only at h ⊢
    by_cases hlt : γ.g1 < γ.g2
    · rw [if_pos hlt] at h; cases h
    · rw [if_neg hlt] at h ⊢
      have := Except.ok.inj h
      subst this
      exact ⟨rfl, rfl, rfl⟩

/-- Over a brighter ground the clear sky of a cell that gets any light is strictly brighter; the direct beam is the same. -/
theorem twostream_ground (cosz s0 tau omega g r r' : ℝ) (o o' : Twostream.Out) (hc : 0 < cosz) (ht : 0 < tau) (hw : 0 ≤ omega)
    (hw1 : omega < 1) (hg : 0 ≤ g) (hg1 : g < 1) (hwg : 1 < omega * (4 - 3 * g)) (hr : 0 ≤ r) (hrr : r < r') (hr1 : r' ≤ 1)
    (h : twostream cosz s0 tau omega g r = .ok o) (h' : twostream cosz s0 tau omega g r' = .ok o') (hb : 0 < o.btrans) :
    o'.btrans = o.btrans ∧ o.trans < o'.trans := by
  obtain ⟨-, c, x, hcf, hx, -, rfl⟩ := twostream_ok hc h
  obtain ⟨-, c', x', hcf', hx', -, rfl⟩ := twostream_ok hc h'
  have hr' : 0 ≤ r' := hr.trans hrr.le
  have hd : depth tau = tau := if_neg ht.ne'
  rw [hd] at hx hx'
  obtain ⟨b0, hb0, -, -⟩ := coef_ok hcf
  obtain ⟨c1, hc1, G, -⟩ := coef_good (r0 := r) hw hw1 hg hg1 hwg hb0
  have e1 : c1 = c := Except.ok.inj (hc1.symm.trans hcf)
  subst e1
  obtain ⟨c2, hc2, G', -⟩ := coef_good (r0 := r') hw hw1 hg hg1 hwg hb0
  have e2 : c2 = c' := Except.ok.inj (hc2.symm.trans hcf')
  subst e2
  rw [if_neg (not_lt.2 hr)] at G
  rw [if_neg (not_lt.2 hr')] at G'
  obtain ⟨e3, erm, erp⟩ := coef_ground hr hr' hcf
  have e4 := Except.ok.inj (hcf'.symm.trans e3)
  rcases cell_btrans hx with ⟨-, hz, -⟩ | ⟨hsm, -⟩
  · exact absurd hb (by simp only [hz]; exact lt_irrefl _)
  · have hden := G.denrt_pos (hrr.le.trans hr1) hr tau ht.le
    have hden' := G'.denrt_pos hr1 hr' tau ht.le
    have hlt : denrt c2 tau < denrt c1 tau := by
      rw [e4]
      unfold denrt
      simp only
      rw [erm, erp]
      have h1 : Real.exp (-tau * c1.xi) < Real.exp (tau * c1.xi) := Real.exp_lt_exp.2 (by nlinarith [mul_pos ht G.xi_pos])
      have h2 : 0 < c1.gpx * c1.gmx := mul_pos G.gpx_pos G.gmx_pos
      have h3 : 0 < (Real.exp (tau * c1.xi) - Real.exp (-tau * c1.xi)) * (c1.gpx * c1.gmx) * (r' - r) :=
        mul_pos (mul_pos (sub_pos.2 h1) h2) (sub_pos.2 hrr)
      nlinarith
    have hns : ¬ SemiInf c1 cosz tau := by
      rintro (h | h)
      · exact absurd h.1 (Real.exp_pos _).ne'
      · exact absurd hsm (not_lt.2 h)
    have hns' : ¬ SemiInf c2 cosz tau := by rw [e4]; exact hns
    have hom : c1.omx ≠ 0 := by
      intro h0
      unfold cell at hx
      simp only at hx
      rw [if_neg hns, if_pos (.inl h0)] at hx
      cases hx
    have hN := G.diffuse_nonneg hr omega tau hw hc hom ht.le
    unfold cell at hx hx'
    simp only at hx hx'
    rw [if_neg hns] at hx
    rw [if_neg hns'] at hx'
    split at hx
    · cases hx
    split at hx'
    · cases hx'
    rw [← Except.ok.inj hx, ← Except.ok.inj hx']
    refine ⟨rfl, ?_⟩
    simp only
    have hf : c2.gam = c1.gam ∧ c2.xi = c1.xi ∧ c2.gpx = c1.gpx ∧ c2.gmx = c1.gmx ∧ c2.opx = c1.opx ∧ c2.omx = c1.omx ∧
        c2.alph1 = c1.alph1 ∧ c2.alph2 = c1.alph2 := by rw [e4]; exact ⟨rfl, rfl, rfl, rfl, rfl, rfl, rfl, rfl⟩
    obtain ⟨f1, f2, f3, f4, f5, f6, f7, f8⟩ := hf
    rw [f1, f2, f3, f4, f5, f6, f7, f8]
    have hp : 0 < Real.exp (-tau / cosz) * denrt c1 tau := mul_pos (Real.exp_pos _) hden
    exact div_lt_div_of_pos_left (by linarith) hden' hlt

theorem twostreamAll_cell {α : Type} {cosz s0 : ℝ} {tau : α → ℝ} {omega g r0 : ℝ} {o : α → Twostream.Out}
    (h : twostreamAll cosz s0 tau omega g r0 = .ok o) (i : α) : twostream cosz s0 (tau i) omega g r0 = .ok (o i) := by
  unfold twostreamAll at h
  split at h
  · cases h
  · rename_i hn
    rw [← Except.ok.inj h]
    simp only
    cases ht : twostream cosz s0 (tau i) omega g r0 with
    | ok o => rfl
    | error e => exact absurd ⟨i, e, ht⟩ hn

theorem stoporad_cell {α : Type} [Fintype α] {p : Clear} {T : Topo α} {s0 cosz : ℝ} {hidden : α → Prop} {illum alb : α → ℝ} {lo hi : ℝ}
    {r : α → ℝ × ℝ} (hc : 0 < cosz) (h : stoporad p T s0 cosz hidden illum alb lo hi = .ok r) (i : α) :
    ∃ o, twostream cosz s0 (tauAt p.tau p.tauElevation (T.dem i)) p.omega p.gamma (mean alb) = .ok o ∧ 0 < s0 ∧
      (r i).2 = s0 * cosz * (o.trans - o.btrans) * T.svf i +
        (s0 * cosz * (o.trans - o.btrans) * (1 - T.svf i) + s0 * o.btrans * cosz) * T.tcf i * alb i := by
  unfold stoporad at h
  cases hw : checkWavelengths lo hi with
  | error e => rw [hw] at h; cases h
  | ok u =>
    rw [hw] at h
    simp only at h
    rw [if_neg (not_lt.2 hc.le)] at h
    split at h
    · cases h
    · rename_i o ho
      have hi := twostreamAll_cell ho i
      refine ⟨o i, hi, (twostream_ok hc hi).1, ?_⟩
      rw [← Except.ok.inj h]
      rfl

/-- Solar radiation: in a run over a part darker on the average than the domain, the diffuse clear-sky radiation of every
cell that sees the sky and gets light is strictly smaller than in the run over the domain. -/
theorem C138_sun_fails (f : κ → ι) (p : Clear) (T : Topo ι) (s0 cosz : ℝ) (hidden : ι → Prop) (illum alb : ι → ℝ) (lo hi : ℝ)
    (r : ι → ℝ × ℝ) (r' : κ → ℝ × ℝ) (hc : 0 < cosz) (hw : 0 ≤ p.omega) (hw1 : p.omega < 1) (hg : 0 ≤ p.gamma) (hg1 : p.gamma < 1)
    (hwg : 1 < p.omega * (4 - 3 * p.gamma)) (hd : 0 ≤ mean (alb ∘ f)) (hm : mean (alb ∘ f) < mean alb) (hm1 : mean alb ≤ 1)
    (h : stoporad p T s0 cosz hidden illum alb lo hi = .ok r)
    (h' : stoporad p ⟨T.dem ∘ f, T.svf ∘ f, T.tcf ∘ f⟩ s0 cosz (hidden ∘ f) (illum ∘ f) (alb ∘ f) lo hi = .ok r') (k : κ)
    (ht : 0 < tauAt p.tau p.tauElevation (T.dem (f k))) (hs : 0 < T.svf (f k)) (hs1 : T.svf (f k) ≤ 1) (hf : 0 ≤ T.tcf (f k))
    (ha : 0 ≤ alb (f k))
    (hl : ∀ o, twostream cosz s0 (tauAt p.tau p.tauElevation (T.dem (f k))) p.omega p.gamma (mean alb) = .ok o → 0 < o.btrans) :
    (r' k).2 < (r (f k)).2 := by
  obtain ⟨o, ho, h0, e⟩ := stoporad_cell hc h (f k)
  obtain ⟨o', ho', -, e'⟩ := stoporad_cell hc h' k
  have hb := hl o ho
  have hb' : 0 < o'.btrans := by
    obtain ⟨-, c, x, hcf, hx, -, rfl⟩ := twostream_ok hc ho
    obtain ⟨-, c', x', hcf', hx', -, rfl⟩ := twostream_ok hc ho'
    have hxi := Except.ok.inj (hcf'.symm.trans (coef_ground (hd.trans hm.le) hd hcf).1)
    rcases cell_btrans hx with ⟨-, hz, -⟩ | ⟨hsm, -⟩
    · exact absurd hb (by simp only [hz]; exact lt_irrefl _)
    · rcases cell_btrans hx' with ⟨hz, -, -⟩ | ⟨-, hz⟩
      · rw [hxi] at hz
        exact absurd hsm (not_lt.2 hz)
      · simp only [hz]
        exact Real.exp_pos _
  obtain ⟨e1, e2⟩ := twostream_ground cosz s0 _ p.omega p.gamma _ _ o' o hc ht hw hw1 hg hg1 hwg hd hm hm1 ho' ho hb'
  rw [e, e']
  simp only [Function.comp] at *
  rw [e1]
  have hk : 0 < s0 * cosz := mul_pos h0 hc
  have h1 : s0 * cosz * (o'.trans - o'.btrans) < s0 * cosz * (o.trans - o'.btrans) := mul_lt_mul_of_pos_left (by linarith) hk
  generalize s0 * cosz * (o'.trans - o'.btrans) = d' at *
  generalize s0 * cosz * (o.trans - o'.btrans) = d at *
  have h2 : d' * T.svf (f k) < d * T.svf (f k) := mul_lt_mul_of_pos_right h1 hs
  have h3 : (d' * (1 - T.svf (f k)) + s0 * o'.btrans * cosz) * T.tcf (f k) * alb (f k) ≤
      (d * (1 - T.svf (f k)) + s0 * o'.btrans * cosz) * T.tcf (f k) * alb (f k) :=
    mul_le_mul_of_nonneg_right (mul_le_mul_of_nonneg_right
      (by have := mul_le_mul_of_nonneg_right h1.le (sub_nonneg.2 hs1); linarith) hf) ha
  linarith

/-- Two flat cells, one with albedo 0.9, the other 0.1: the dark one gets less diffuse light when it is run alone. -/
example : ∃ r r', stoporad ⟨100, 1 / 5, 85 / 100, 0⟩ (⟨fun _ => 100, fun _ => 1, fun _ => 0⟩ : Topo Bool) 600 (1 / 2) (fun _ => False)
      (fun _ => 1 / 2) (fun b => if b = true then 9 / 10 else 1 / 10) (28 / 100) (7 / 10) = .ok r ∧
    stoporad ⟨100, 1 / 5, 85 / 100, 0⟩ (⟨fun _ => 100, fun _ => 1, fun _ => 0⟩ : Topo Unit) 600 (1 / 2) (fun _ => False)
      (fun _ => 1 / 2) (fun _ => 1 / 10) (28 / 100) (7 / 10) = .ok r' ∧ (r' ()).2 < (r false).2 := by
  have hq : tauAt (1 / 5) 100 100 = 1 / 5 := by
    unfold tauAt
    rw [mul_div_assoc, div_self, mul_one]
    unfold hysat
    have h1 : stdLapse ≠ 0 := by norm_num [stdLapse]
    rw [if_neg h1]
    apply mul_ne_zero (by norm_num [seaLevel])
    apply (Real.rpow_pos_of_pos _ _).ne'
    norm_num [stdAirtmp, stdLapse]
  have hsq : Real.sqrt (3 * (1 - 85 / 100)) < 1 := by
    rw [Real.sqrt_lt' one_pos]; norm_num
  have hsn := Real.sqrt_nonneg (3 * (1 - 85 / 100 : ℝ))
  have key : ∀ r0 : ℝ, r0 ≤ 1 → ∃ o, twostream (1 / 2) 600 (1 / 5) (85 / 100) 0 r0 = .ok o ∧ 0 < o.btrans := by
    intro r0 hr
    obtain ⟨o, h1, -⟩ := C77_physical_partial (1 / 2) 600 (1 / 5) (85 / 100) 0 r0 (1 / 2) (by norm_num)
      (by norm_num) (by norm_num) (by norm_num) (by norm_num) (by norm_num) hr (by norm_num)
      (beta0_zero (by norm_num) (by norm_num)) (by
        intro hr
        have h2 := hr.1
        rw [hybrid_iso] at h2
        simp only at h2
        rw [root_iso] at h2
        nlinarith)
    refine ⟨o, h1, ?_⟩
    obtain ⟨-, c, x, hcf, hx, -, rfl⟩ := twostream_ok (by norm_num) h1
    have hd : depth (1 / 5) = 1 / 5 := if_neg (by norm_num)
    rw [hd] at hx
    rcases cell_btrans hx with ⟨hz, -⟩ | ⟨-, hz⟩
    · rw [coef_iso (by norm_num) (by norm_num) (by norm_num)] at hcf
      rw [← Except.ok.inj hcf] at hz
      simp only at hz
      exact absurd (exp_lt_big (x := 1 / 5 * Real.sqrt (3 * (1 - 85 / 100))) (by linarith)) (not_lt.2 hz)
    · simp only [hz]
      exact Real.exp_pos _
  have hall : ∀ (α : Type) [Fintype α] (alb : α → ℝ), mean alb ≤ 1 → ∃ r, stoporad ⟨100, 1 / 5, 85 / 100, 0⟩
      (⟨fun _ => 100, fun _ => 1, fun _ => 0⟩ : Topo α) 600 (1 / 2) (fun _ => False) (fun _ => 1 / 2) alb (28 / 100) (7 / 10) = .ok r := by
    intro α _ alb hm
    obtain ⟨o, ho, -⟩ := key (mean alb) hm
    have ho' : twostream (1 / 2) 600 (1 / 5) (85 / 100) 0 ((∑ i, alb i) / (Fintype.card α : ℝ)) = .ok o := ho
    have hA : twostreamAll (1 / 2) 600 (fun _ : α => tauAt (1 / 5) 100 100) (85 / 100) 0 ((∑ i, alb i) / (Fintype.card α : ℝ)) =
        .ok fun _ => o := by
      unfold twostreamAll
      simp only [hq, ho', reduceCtorEq, exists_false, dite_false]
    have hB : checkWavelengths (28 / 100) (7 / 10) = .ok .vis := by
      unfold checkWavelengths
      norm_num
    unfold stoporad
    rw [hB]
    simp only
    rw [if_neg (by norm_num), hA]
    exact ⟨_, rfl⟩
  have hm1 : mean (fun b : Bool => if b = true then (9 / 10 : ℝ) else 1 / 10) = 1 / 2 := by norm_num [mean]
  have hm2 : mean (fun _ : Unit => (1 / 10 : ℝ)) = 1 / 10 := by norm_num [mean]
  obtain ⟨r, hr⟩ := hall Bool (fun b => if b = true then 9 / 10 else 1 / 10) (by rw [hm1]; norm_num)
  obtain ⟨r', hr'⟩ := hall Unit (fun _ => 1 / 10) (by rw [hm2]; norm_num)
  refine ⟨r, r', hr, hr', ?_⟩
  refine C138_sun_fails (fun _ : Unit => false) ⟨100, 1 / 5, 85 / 100, 0⟩ ⟨fun _ => 100, fun _ => 1, fun _ => 0⟩ 600 (1 / 2) (fun _ => False)
    (fun _ => 1 / 2) (fun b => if b = true then 9 / 10 else 1 / 10) (28 / 100) (7 / 10) r r' (by norm_num) (by norm_num) (by norm_num)
    (by norm_num) (by norm_num) (by norm_num) ?_ ?_ (by rw [hm1]; norm_num) hr ?_ () (by rw [hq]; norm_num) (by norm_num)
    (by norm_num) (by norm_num) (by norm_num) ?_
  · norm_num [mean]
  · rw [hm1]; norm_num [mean]
  · have e : ((fun b : Bool => if b = true then (9 / 10 : ℝ) else 1 / 10) ∘ fun _ : Unit => false) = fun _ => 1 / 10 := by
      funext u
      simp
    rw [e]
    exact hr'
  · intro o ho
    obtain ⟨o2, h1, h2⟩ := key (mean fun b : Bool => if b = true then (9 / 10 : ℝ) else 1 / 10) (by rw [hm1]; norm_num)
    rw [hq, h1] at ho
    rw [← Except.ok.inj ho]
    exact h2

end sky

/-! ### A run in two cells -/

/-- Two cells: it snows in the first (`true`), the second is dry. -/
noncomputable def pairCfg : Cfg Bool ℝ := { cfg (fun _ : Bool => ()) snowyCfg with interp := fun d b => if b = true then d else 0 }

/-- The second cell had 5 mm of snow in the storm. -/
noncomputable def pairState : State Bool :=
  ⟨⟨fun _ => 0, fun _ => 0, fun _ => 0, fun _ => 0, fun _ => 5⟩, Solar.initial Bool⟩

noncomputable def pairIn : In Bool ℝ := input (fun _ : Bool => ()) (snowyIn 0)

theorem pair_sensible : Sensible pairCfg :=
  ⟨snowy_sensible.airTemp, snowy_sensible.vapor, snowy_sensible.wind, snowy_sensible.cloud, snowy_sensible.albedo, snowy_sensible.solar,
    snowy_sensible.thermal, snowy_sensible.precip, snowy_sensible.rain, snowy_sensible.scour, snowy_sensible.drift, snowy_sensible.step⟩

theorem pair_sound : Sound pairCfg := by
  refine ⟨fun h => (by cases h), snowy_sound.model, snowy_sound.tol, snowy_sound.vapor, ?_, snowy_sound.grain, snowy_sound.decay,
    snowy_sound.albedo, fun _ => snowy_sound.dem (), snowy_sound.sky⟩
  obtain ⟨a, h1, h2, h3, h4⟩ := snowy_sound.airTemp
  exact ⟨a, h1, h2, h3, fun _ => h4 ()⟩

theorem pair_meets : Meets pairCfg pairIn :=
  ⟨fun h => absurd h (lt_irrefl _), fun h _ => (snowy_meets 0 (.inl le_rfl)).wind h ()⟩

theorem pair_physical : Physical pairState.ppt := fun _ => by norm_num [pairState]

theorem susong_days {α : Type} [Fintype α] (c : Cfg α ℝ) (hg : c.ppt.grid = true) (x : In α ℝ) (dew temp wind : α → ℝ)
    (s p : Precip.PState α) (h : precipStep c x dew temp wind s = .ok p) :
    p.days = (Precip.susongStep c.ppt ⟨c.sum, fun d => c.precip.cut (c.interp d), phase c.nasde, c.adjust⟩ x.precip temp s).days := by
  unfold precipStep at h
  split_ifs at h with h1 h2
  rw [← Except.ok.inj h]
  unfold Precip.pptStep
  simp only
  rw [if_neg (show ¬ c.ppt.grid = false by rw [hg]; exact Bool.noConfusion)]
  split_ifs <;> rfl

theorem pair_days (dew temp wind : Bool → ℝ) (p : Precip.PState Bool) (ht : ∀ i, temp i < -5)
    (h : precipStep pairCfg pairIn dew temp wind pairState.ppt = .ok p) : p.days false = 0 := by
  rw [susong_days pairCfg rfl pairIn dew temp wind _ p h]
  have hcl : (Nasde.classify (some (temp true))).1 = (1 : ℝ) := by
    have := ht true
    have h2 : ¬ (-5 : ℝ) ≤ temp true := not_le.2 this
    have h3 : ¬ (-3 : ℝ) ≤ temp true := by linarith
    have h4 : ¬ (-3 / 2 : ℝ) ≤ temp true := by linarith
    have h5 : ¬ (-1 / 2 : ℝ) ≤ temp true := by linarith
    have h6 : ¬ (0 : ℝ) ≤ temp true := by linarith
    have h7 : ¬ (1 / 2 : ℝ) ≤ temp true := by linarith
    simp only [Nasde.classify, Nasde.table, Nasde.TableRow.hits, List.foldl_cons, List.foldl_nil, this, h2, h3, h4, h5, h6, h7, decide_true,
      decide_false, Bool.false_and, Bool.and_true, if_true, if_false, Bool.false_eq_true]
  unfold Precip.susongStep
  simp only [cfg, pairCfg, snowyCfg, input, pairIn, snowyIn, pairState, phase]
  norm_num [Nasde.phaseAndDensity, Nasde.susong1999, Limits.cut, Solar.clamp, Storms.timeSinceStorm, ppt, hcl]

theorem part_days (dew temp wind : Unit → ℝ) (p : Precip.PState Unit)
    (h : precipStep (cfg (fun _ : Unit => false) pairCfg) (input (fun _ : Unit => false) pairIn) dew temp wind
      (state (fun _ : Unit => false) pairState).ppt = .ok p) : p.days () = 1 := by
  rw [susong_days _ rfl _ dew temp wind _ p h]
  unfold Precip.susongStep
  simp only [cfg, pairCfg, snowyCfg, input, pairIn, snowyIn, state, pairState, phase]
  norm_num [Nasde.phaseAndDensity, Nasde.susong1999, Limits.cut, Solar.clamp, Storms.timeSinceStorm, ppt]

/-- C138 as stated is false: in the run over both cells the dry cell has had its storm 0 days ago, in the run over the
dry cell alone 1 day ago. -/
theorem C138_fails : ¬ C138_full := by
  intro h
  obtain ⟨n, os, hrun⟩ := C125_no_abort_partial pairCfg pair_sound pairState [pairIn] (by
    intro x hx
    rw [List.mem_singleton] at hx
    rw [hx]
    exact pair_meets)
  have h1 := hrun n le_rfl
  have h2 := h Bool Unit ℝ (fun _ => false) pairCfg pair_sensible pair_sound n pairState [pairIn] os pair_physical h1
  have hrange := C125_in_range pairCfg pair_sensible n pairState pair_physical [pairIn] os h1
  rw [run] at h1
  split at h1
  · cases h1
  · rename_i s' o hs
    simp only [run] at h1
    cases h1
    rw [List.map_singleton, List.map_singleton, run] at h2
    split at h2
    · cases h2
    · rename_i t' o' ht
      simp only [run, Except.ok.injEq, List.cons.injEq, and_true] at h2
      obtain ⟨-, -, -, -, -, a⟩ := step_parts _ _ _ _ _ _ hs
      obtain ⟨-, -, -, -, -, b⟩ := step_parts _ _ _ _ _ _ ht
      have hx := (List.forall₂_cons.1 hrange).1
      have hdew : ∀ i, o.dew i < -5 := by
        intro i
        have h5 := hx.dew i
        have h6 : o.airTemp i = -5 := by
          obtain ⟨-, e, -⟩ := step_parts _ _ _ _ _ _ hs
          rw [e]
          norm_num [pairCfg, cfg, snowyCfg, pairIn, input, snowyIn, Limits.cut, Solar.clamp]
        linarith
      have htemp : o.precipTemp = o.dew := by
        obtain ⟨hv, -⟩ := step_parts _ _ _ _ _ _ hs
        unfold vaporStep at hv
        simp only at hv
        split at hv
        · cases hv
        · rw [if_neg (show ¬ pairCfg.wet = true from fun h => by cases h)] at hv
          simp only [Except.ok.injEq, Prod.mk.injEq] at hv
          rw [← hv.2.1, ← hv.2.2]
      have e1 := pair_days _ _ _ _ (by rw [htemp]; exact hdew) a
      have e2 := part_days _ _ _ _ b
      rw [h2] at e2
      have e3 : (out (fun _ : Unit => false) o).ppt.days () = o.ppt.days false := rfl
      rw [e3, e1] at e2
      exact zero_ne_one e2

/-! ### The hypotheses are met -/

/-- Exchanging the two cells. -/
example (n : Nat) (os : List (Out Bool)) (h : run pairCfg n pairState [pairIn, pairIn] = .ok os) :
    run (cfg not pairCfg) n (state not pairState) [input not pairIn, input not pairIn] = .ok (os.map (out not)) :=
  C138_renumber ⟨not, not, Bool.not_not, Bool.not_not⟩ pairCfg pair_sensible n pairState [pairIn, pairIn] os h

theorem pair_runs (m : Nat) (s : State Bool) : ∃ n os, run pairCfg n s (List.replicate m pairIn) = .ok os := by
  obtain ⟨n, os, h⟩ := C125_no_abort_partial pairCfg pair_sound s (List.replicate m pairIn) (by
    intro x hx
    rw [List.eq_of_mem_replicate hx]
    exact pair_meets)
  exact ⟨n, os, h n le_rfl⟩

/-- A part in which one cell is taken twice, and the other once, in a run of any length: it represents the domain at
night. -/
example (m : Nat) (f : Fin 3 → Bool) (hf : f = fun k => decide (k = 0)) : ∃ n os, run pairCfg n pairState (List.replicate m pairIn) = .ok os ∧
    run (cfg f pairCfg) n (state f pairState) ((List.replicate m pairIn).map (input f)) = .ok (os.map (out f)) := by
  subst hf
  obtain ⟨n, os, h⟩ := pair_runs m pairState
  refine ⟨n, os, h, C138_run_partial _ pairCfg pair_sensible n _ pairState os ?_ h⟩
  rw [List.forall₂_iff_get]
  refine ⟨run_length pairCfg n _ _ os h, fun i h1 h2 => represents_onto _ ?_ _ _ _ ?_⟩
  · intro b
    cases b
    · exact ⟨1, by decide⟩
    · exact ⟨0, by decide⟩
  · rw [List.get_eq_getElem, List.getElem_replicate]
    exact le_rfl

/-- The dry cell alone: its precipitation and its air are those of the run over both cells. -/
example (n : Nat) (s1 : State Bool) (t t1 : State Unit) (o : Out Bool) (o' : Out Unit) (h : step pairCfg n pairState pairIn = .ok (s1, o))
    (h' : step (cfg (fun _ : Unit => false) pairCfg) n t (input (fun _ => false) pairIn) = .ok (t1, o')) :
    o'.ppt.precip () = o.ppt.precip false ∧ o'.dew () = o.dew false := by
  refine ⟨?_, ?_⟩
  · rw [C138_precip (fun _ : Unit => false) pairCfg (.inl rfl) n pairState s1 t t1 pairIn o o' h h']; rfl
  · rw [(step_air (fun _ : Unit => false) pairCfg n pairState s1 t t1 pairIn o o' h h').dew]; rfl

/-- Snow in one of two cells; the other had 5 mm in the storm. -/
example : (Storms.timeSinceStorm (fun b : Bool => if b = true then 10 else 0) (fun b => if b = true then 1 else 0) (1 / 24) 1 6 (1 / 2)
    ⟨fun _ => 0, fun _ => (5 : ℝ)⟩).days false = 0 :=
  (C138_storm_fails _ _ _ _ _ _ ⟨fun _ => 0, fun _ => 5⟩ false true (by intro b; cases b <;> norm_num) (by norm_num) (by norm_num)
    (by norm_num) (by norm_num) (by norm_num)).1

/-- Rain in one of two cold cells. -/
example : (Nasde.marks2017 (fun _ : Bool => (-2 : ℝ)) fun b => if b = true then 3 else 0).pcs false = 1 :=
  (C138_percent_fails (fun _ => -2) (fun b : Bool => if b = true then 3 else 0) false true (by norm_num) (by norm_num) (by norm_num)).1

end Verif.Crop
