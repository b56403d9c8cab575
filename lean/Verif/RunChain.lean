import Verif.RunLemmas
import Verif.PrecipProps

/-!
C127: within a time step every module works on the images that the step publishes, and from step to step the
precipitation images and the solar attributes are handed on.
-/

namespace Verif.Run
open Verif.Vapor Verif.Twostream

variable {ι D : Type} [Fintype ι]

/-- The images `o` of a step with input `x` fit together, and follow from the precipitation images and solar
attributes `prev` of the step before. Only published images appear on the right. -/
structure Linked (c : Cfg ι D) (prev : State ι) (x : In ι D) (o : Out ι) : Prop where
  airTemp : o.airTemp = c.airTemp.cut x.airTemp
  vapor : o.vapor = c.vapor.cut x.vapor
  wind : o.wind = c.wind.cut x.windSpeed
  cloud : o.cloud = c.cloud.cut x.cloud
  /-- the dew point is that of the published vapor pressure, kept below the published air temperature -/
  dew : ∀ i, ∃ n r, dewCelsius n c.tol (o.vapor i) = some r ∧
    o.dew i = if o.airTemp i ≤ r then o.airTemp i - 2 / 10 else r
  dry : c.wet = false → o.precipTemp = o.dew
  /-- the wet-bulb temperature of the published air temperature and dew point at the pressure of the cell -/
  wet : c.wet = true → ∀ i, ∃ last k, WetBulb.wetbulb (o.airTemp i + freeze) (o.dew i + freeze)
    (hysat Vapor.seaLevel stdAirtmp stdLapse (c.maps.dem i / 1000) gravity molAir) c.tol =
      .value (o.precipTemp i + freeze) last k
  precip : precipStep c x o.dew o.precipTemp o.wind prev.ppt = .ok o.ppt
  /-- the albedos are those of the published days since the last storm -/
  albedo : ∃ v ir, Albedo.distribute c.sun.albedo c.sun.vegType x.time (Solar.illumination c.sun.shade x.cosz) o.ppt.days =
    .ok (v, ir) ∧ o.albedoVis = Solar.cells v ∧ o.albedoIr = Solar.cells ir
  solar : Solar.distribute c.sun.solar c.sun.topo c.sun.veg x.s0 x.hidden prev.solar o.cloud
    (Solar.illumination c.sun.shade x.cosz) x.cosz o.albedoVis o.albedoIr = .ok o.solar
  thermal : Thermal.distribute c.thermal c.maps ⟨o.airTemp, o.vapor, o.dew, o.cloud⟩ = .ok o.thermal

/-- The same for all steps of a run. -/
inductive Chain (c : Cfg ι D) : State ι → List (In ι D) → List (Out ι) → Prop
  | nil (s) : Chain c s [] []
  | cons (s x o xs os) : Linked c s x o → Chain c ⟨o.ppt, o.solar⟩ xs os → Chain c s (x :: xs) (o :: os)

theorem hysat_zero : hysat Vapor.seaLevel stdAirtmp stdLapse (0 / 1000) gravity molAir = Vapor.seaLevel := by
  unfold hysat stdLapse stdAirtmp
  norm_num

theorem step_linked (c : Cfg ι D) (fuel : Nat) (s s' : State ι) (x : In ι D) (o : Out ι) (h : step c fuel s x = .ok (s', o)) :
    s' = ⟨o.ppt, o.solar⟩ ∧ Linked c s x o := by
  unfold step at h
  simp only at h
  split at h
  · cases h
  · rename_i vp dew temp hv
    split at h
    · cases h
    · rename_i ppt hppt
      split at h
      · cases h
      · rename_i sol av ai hsol
        split at h
        · cases h
        · rename_i th hth
          simp only [Except.ok.injEq, Prod.mk.injEq] at h
          obtain ⟨rfl, rfl⟩ := h
          refine ⟨rfl, ?_⟩
          unfold vaporStep at hv
          simp only at hv
          cases hd : dewImage fuel c.tol (c.vapor.cut x.vapor) (c.airTemp.cut x.airTemp) with
          | none => rw [hd] at hv; cases hv
          | some d =>
            rw [hd] at hv
            simp only at hv
            have halb : ∃ v ir, Albedo.distribute c.sun.albedo c.sun.vegType x.time (Solar.illumination c.sun.shade x.cosz)
                ppt.days = .ok (v, ir) ∧ av = Solar.cells v ∧ ai = Solar.cells ir ∧
                Solar.distribute c.sun.solar c.sun.topo c.sun.veg x.s0 x.hidden s.solar (c.cloud.cut x.cloud)
                  (Solar.illumination c.sun.shade x.cosz) x.cosz (Solar.cells v) (Solar.cells ir) = .ok sol := by
              unfold Solar.timestep at hsol
              simp only at hsol
              split at hsol
              · cases hsol
              · rename_i v ir hal
                split at hsol
                · cases hsol
                · rename_i st' hst
                  simp only [Except.ok.injEq, Prod.mk.injEq] at hsol
                  obtain ⟨rfl, rfl, rfl⟩ := hsol
                  exact ⟨v, ir, hal, rfl, rfl, hst⟩
            obtain ⟨v, ir, ha1, ha2, ha3, ha4⟩ := halb
            split at hv
            · rename_i hw
              split at hv
              · cases hv
              · rename_i w hcol
                simp only [Except.ok.injEq, Prod.mk.injEq] at hv
                obtain ⟨rfl, rfl, rfl⟩ := hv
                refine ⟨rfl, rfl, rfl, rfl, fun i => ?_, fun h0 => ?_, fun _ i => ?_, hppt, ⟨v, ir, ha1, ha2, ha3⟩, ?_, hth⟩
                · obtain ⟨r, h1, h2⟩ := dewImage_some hd i
                  exact ⟨fuel, r, h1, h2⟩
                · rw [hw] at h0; cases h0
                · have := collect_some hcol i
                  unfold wetCelsius at this
                  simp only at this
                  split at this
                  · cases this
                  · have e : (if c.maps.dem i = 0 then Vapor.seaLevel
                        else hysat Vapor.seaLevel stdAirtmp stdLapse (c.maps.dem i / 1000) gravity molAir) =
                        hysat Vapor.seaLevel stdAirtmp stdLapse (c.maps.dem i / 1000) gravity molAir := by
                      split
                      · rename_i hz
                        rw [hz, hysat_zero]
                      · rfl
                    rw [e] at this
                    simp only
                    split at this
                    · rename_i ti last k hwb
                      simp only [Option.some.injEq] at this
                      refine ⟨last, k, ?_⟩
                      rw [hwb, ← this, sub_add_cancel]
                    · cases this
                    · cases this
                · rw [ha2, ha3]; exact ha4
            · rename_i hw
              simp only [Except.ok.injEq, Prod.mk.injEq] at hv
              obtain ⟨rfl, rfl, rfl⟩ := hv
              refine ⟨rfl, rfl, rfl, rfl, fun i => ?_, fun _ => rfl, fun h0 => absurd h0 hw, hppt, ⟨v, ir, ha1, ha2, ha3⟩, ?_,
                hth⟩
              · obtain ⟨r, h1, h2⟩ := dewImage_some hd i
                exact ⟨fuel, r, h1, h2⟩
              · rw [ha2, ha3]; exact ha4

theorem run_chain (c : Cfg ι D) (fuel : Nat) (s : State ι) (xs : List (In ι D)) (os : List (Out ι))
    (h : run c fuel s xs = .ok os) : Chain c s xs os := by
  induction xs generalizing s os with
  | nil =>
    rw [run] at h
    simp only [Except.ok.injEq] at h
    rw [← h]
    exact .nil s
  | cons x xs ih =>
    rw [run] at h
    split at h
    · cases h
    · rename_i s' o hst
      split at h
      · cases h
      · rename_i os' hos
        simp only [Except.ok.injEq] at h
        rw [← h]
        obtain ⟨h1, h2⟩ := step_linked c fuel s s' x o hst
        rw [h1] at hos
        exact .cons s x o xs os' h2 (ih _ _ hos)

end Verif.Run
