import Verif.NetworkSerial

/-!
C10: a threaded run distributes and writes the same values as a serial run.

The specification is `serialLoop`, the model of `distribute_single_timestep` called date after date,
with the attributes of the modules overwritten in place; the threads only communicate through the
queues.
-/

namespace Verif.Network
open Verif.Pipeline Verif.Queue

variable {V σ : Type}

/-- Agreement of a threaded run with the serial loop: whatever any schedule publishes is the value of
the attribute after the same date of the serial loop, and a finished run has published every
variable of every date. -/
def Agrees (c : Cfg) (F : Comp V σ) (init : Mod → σ) (attr0 : SVar → V) (w : List SVar) (n : Nat) :
    Prop :=
  ∀ s, Reach (net c F init w n) s →
    (∀ q t v, q ≠ .output → Published s (.smrf q) t v →
      v = (serialLoop c F ⟨init, attr0⟩ (t + 1)).attr q) ∧
    (Finished (net c F init w n) s → ∀ q ∈ keys c, q ≠ .output → ∀ t < n,
      Published s (.smrf q) t ((serialLoop c F ⟨init, attr0⟩ (t + 1)).attr q))

/-- C10 as stated, for the values. -/
def C10_full : Prop :=
  ∀ (c : Cfg), Supported c → ∀ (F : Comp Nat Nat) (init : Mod → Nat) (attr0 : SVar → Nat)
    (w : List SVar), (∀ q, q ∈ w ↔ q ∈ keys c) → ∀ n, Agrees c F init attr0 w n

theorem netOrder_nodup : netOrder.Nodup := by decide

theorem netOrder_all (m : Mod) : m ∈ netOrder := by cases m <;> decide

/-- C10 without winstral rescaling of precipitation (the four wind arguments of the precipitation
module are then not used, precipitation.py 311). Missing: winstral rescaling, where the two drivers
pass different wind fields, see `C10_wind_argument_fails`. -/
theorem C10_threaded_equals_serial_partial (c : Cfg) (hc : Supported c)
    (hp : c.winstralPrecip = false) (F : Comp V σ) (hF : IgnoresWind F) (init : Mod → σ)
    (attr0 : SVar → V) (w : List SVar) (hw : ∀ q, q ∈ w ↔ q ∈ keys c) (n : Nat) :
    Agrees c F init attr0 w n := by
  intro s hr
  have W := net_single c F init w n
  obtain ⟨st, hst, -⟩ := rel_run c hc hp F hF (net c F init w n) rfl attr0 n
  have hval : ∀ q t v, q ≠ .output → Published s (.smrf q) t v →
      v = (serialLoop c F ⟨init, attr0⟩ (t + 1)).attr q := by
    intro q t v hne hpub
    have h1 := C06_agrees_with_serial W netOrder netOrder_nodup netOrder_all hst hr hpub
    obtain ⟨m, x, hm⟩ := published_mayPut hr hpub
    have hq : q ∈ keys c := writes_keys c m q (mayPut_body c F m x t q hm).1
    rw [rel_value c hc hp F hF (net c F init w n) rfl attr0 t q hq hne] at h1
    exact (Option.some.inj h1).symm
  refine ⟨hval, ?_⟩
  intro hfin q hq hne t ht
  obtain ⟨v, hv⟩ := (cleaner_published hr).1 t (by rw [hfin.2]; exact ht) (.smrf q)
    (List.mem_map_of_mem ((hw q).2 hq))
  rw [← hval q t v hne hv]
  exact hv

/-- The two drivers call every module other than precipitation with the same arguments, and
precipitation with the same first six. -/
theorem C10_same_arguments_partial (c : Cfg) (m : Mod) :
    (m ≠ .precip → threadArgs c m = serialArgs c m) ∧
    (threadArgs c .precip).take 6 = (serialArgs c .precip).take 6 :=
  ⟨args_eq c m, args_precip c⟩

/-- Components for the counterexample: the wind module computes wind speed 1 and flat wind 2, and the
precipitation module returns its ninth argument. -/
def windComp : Comp Nat Nat where
  f m s _ args := (s, fun q => match m with
    | .precip => args.getD 8 0
    | .wind => if q = .flatwind then 2 else 1
    | _ => 0)
  up _ := false
  nil := 0
  row _ _ := 0

/-- C10 fails with winstral rescaling: the serial driver hands `wind_speed` to the precipitation
module (model_framework.py 450), the thread hands it `flatwind` (precipitation.py 489, 505). -/
theorem C10_wind_argument_fails : ¬ C10_full := by
  intro h
  obtain ⟨⟨s, hs, hf⟩, -⟩ := C09_completes_partial demoCfg demo_supported windComp (fun _ => 0)
    (keys demoCfg) (fun _ => Iff.rfl) 1 _ .init
  have hr := hs.reach .init
  have h2 := (h demoCfg demo_supported windComp (fun _ => 0) (fun _ => 0) (keys demoCfg)
    (fun _ => Iff.rfl) 1 s hr).2 hf .precip (by simp [keys]) (by simp) 0 (by decide)
  have h3 := C06_agrees_with_serial (net_single demoCfg windComp (fun _ => 0) (keys demoCfg) 1)
    netOrder netOrder_nodup netOrder_all (st := fun _ => 0) (by
      have : (serialRun (net demoCfg windComp (fun _ => 0) (keys demoCfg) 1) netOrder 1).map
          (fun st => netOrder.map st) = some (netOrder.map fun _ => 0) := rfl
      show serialRun (net demoCfg windComp (fun _ => 0) (keys demoCfg) 1) netOrder 1 = _
      cases hst : serialRun (net demoCfg windComp (fun _ => 0) (keys demoCfg) 1) netOrder 1 with
      | none => rw [hst] at this; cases this
      | some st =>
        rw [hst] at this
        simp only [Option.map_some, Option.some.injEq, List.map_inj_left] at this
        congr 1
        funext m
        exact this m (netOrder_all m)) hr h2
  have e1 : serialValue (net demoCfg windComp (fun _ => 0) (keys demoCfg) 1) netOrder 0
      (.smrf .precip) = some 2 := rfl
  have e2 : (serialLoop demoCfg windComp ⟨fun _ => 0, fun _ => 0⟩ (0 + 1)).attr .precip = 1 := rfl
  rw [e1, e2] at h3
  cases h3

/-! ### Output variables -/

/-- Variables a user may ask for (`possible_output_variables`, model_framework.py 219-225): two of
them are not thread variables of any module. -/
inductive OVar
  | thread (s : SVar) | lastStormDay | soilTemp
  deriving DecidableEq

/-- `v['variable'] in self.queues.keys()` (queue.py 277). -/
def inQueue (c : Cfg) : OVar → Bool
  | .thread s => decide (s ∈ keys c)
  | _ => false

/-- Variables written by the output thread at an output date (queue.py 276-292). -/
def threadedWritten (c : Cfg) (req : List OVar) : List OVar := req.filter (inQueue c)

/-- Variables written by the serial driver (model_framework.py 731-748): all of them. -/
def serialWritten (req : List OVar) : List OVar := req

/-- Both drivers write the same variables exactly when every requested variable is a thread
variable. -/
theorem C10_same_outputs_partial (c : Cfg) (req : List OVar) :
    threadedWritten c req = serialWritten req ↔
      ∀ o ∈ req, ∃ s, o = .thread s ∧ s ∈ keys c := by
  simp only [threadedWritten, serialWritten, List.filter_eq_self]
  refine forall₂_congr fun o _ => ?_
  cases o <;> simp [inQueue]

/-- Any request for `last_storm_day` or `soil_temp`, or for `flatwind`, `thermal_cloud` or
`thermal_veg` when the configuration does not make them thread variables, is honoured by the serial
driver and dropped by the threaded one. -/
theorem C10_outputs_fails (c : Cfg) (req : List OVar) (o : OVar) (ho : o ∈ req)
    (h : o = .lastStormDay ∨ o = .soilTemp ∨ (o = .thread .flatwind ∧ c.winstralWind = false) ∨
      (o = .thread .thermalCloud ∧ c.thermalCloud = false) ∨
      (o = .thread .thermalVeg ∧ c.thermalVeg = false)) :
    o ∈ serialWritten req ∧ o ∉ threadedWritten c req := by
  refine ⟨ho, ?_⟩
  simp only [threadedWritten, List.mem_filter, not_and]
  intro _
  rcases h with rfl | rfl | ⟨rfl, h⟩ | ⟨rfl, h⟩ | ⟨rfl, h⟩
  · simp [inQueue]
  · simp [inQueue]
  all_goals
    simp [inQueue, keys, h, clearVars, cloudVars, vegVars, winstralVars]

/-- Hypotheses are satisfiable: the demo configuration without winstral rescaling, with a
precipitation component using only its first six arguments. -/
def plainCfg : Cfg := { demoCfg with winstralPrecip := false }

def plainComp : Comp Nat Nat where
  f _ s t args := (s + (args.take 6).sum + 1, fun q => s + (args.take 6).sum + t + lvl (ownerS q))
  up v := v % 2 = 0
  nil := 0
  row _ t := t

example (n : Nat) : Agrees plainCfg plainComp (fun _ => 0) (fun _ => 0) (keys plainCfg) n :=
  C10_threaded_equals_serial_partial plainCfg
    ⟨rfl, rfl, rfl, (fun h => by cases h), demo_supported.outVars⟩ rfl plainComp
    (fun s t l l' h => by simp [plainComp, h]) _ _ _ (fun _ => Iff.rfl) n

/-- The serial values are not constant. -/
example : (serialLoop plainCfg plainComp ⟨fun _ => 0, fun _ => 0⟩ 2).attr .netSolar ≠
    (serialLoop plainCfg plainComp ⟨fun _ => 0, fun _ => 0⟩ 1).attr .netSolar := by decide

example : threadedWritten demoCfg [.thread .precip, .soilTemp] ≠
    serialWritten [.thread .precip, .soilTemp] := by decide

end Verif.Network
