import Verif.NetworkWF

/-! Property C09: which configurations run to completion when threaded. -/

namespace Verif.Network
open Verif.Pipeline Verif.Queue

variable {V σ : Type}

instance : Fintype Mod where
  elems := {.load, .sun, .shade, .airTemp, .vaporPressure, .wind, .precip, .albedo, .cloudFactor,
    .solar, .thermal, .output}
  complete m := by cases m <;> decide

/-- A run completes: however far it has got, it can go on to the end, and it cannot stop before. -/
def Completes (N : Net Mod Var V σ) : Prop :=
  ∀ s, Reach N s → (∃ s', Steps N s s' ∧ Finished N s') ∧ ((¬ ∃ s', Step N s s') → Finished N s)

/-- C09 as stated: every configuration accepted by the framework completes. -/
def C09_full : Prop :=
  ∀ (c : Cfg), 0 < c.freq → OutOK c → ∀ (F : Comp Nat Nat) (init : Mod → Nat) (n : Nat),
    Completes (net c F init (keys c) n)

/-- C09, what holds: with output at every step, both solar corrections on, and winstral rescaling
only together with the winstral wind model, the run completes — for all other options, all key
orders of the queue dictionary, all capacities, all computations, all numbers of dates, all
schedules. Missing: the other configurations, for which it is false (next theorems). -/
theorem C09_completes_partial (c : Cfg) (hc : Supported c) (F : Comp V σ) (init : Mod → σ)
    (w : List SVar) (hw : ∀ q, q ∈ w ↔ q ∈ keys c) (n : Nat) :
    Completes (net c F init w n) := by
  intro s hr
  exact C08_terminates (net_wf c hc F init w hw n)
    (fun i s t _ => net_depth c F init w n i s t) hr

/-- No execution of a supported configuration is longer than this. -/
theorem C09_bounded_partial (c : Cfg) (F : Comp V σ) (init : Mod → σ)
    (w : List SVar) (n k : Nat) {s : St Mod Var V σ} (h : ReachIn (net c F init w n) k s) :
    k ≤ 12 * (n * (c.outVars.length + 31)) + n * (2 * w.length + 2) := by
  have := C08_bounded_length (fun i s t _ => net_depth c F init w n i s t) h
  have hcard : Fintype.card Mod = 12 := rfl
  simpa [hcard, net] using this

/-- A network in which some watched queue is never written at some date does not finish. -/
theorem never_finishes {N : Net Mod Var V σ} {q : Var} {t : Nat} (ht : t < N.steps)
    (hq : q ∈ N.watched) (hp : ∀ m x, ¬ MayPut q (N.body m x t)) {s : St Mod Var V σ}
    (hr : Reach N s) : ¬ Finished N s := by
  rintro ⟨_, hcl⟩
  obtain ⟨v, hv⟩ := (cleaner_published hr).1 t (by omega) q hq
  obtain ⟨m, x, hx⟩ := published_mayPut hr hv
  exact hp m x hx

/-- What the bodies can put. -/
theorem mayPut_body (c : Cfg) (F : Comp V σ) (m : Mod) (x : σ) (t : Nat) (v : SVar)
    (h : MayPut (.smrf v) (body c F m x t)) :
    v ∈ writes c m ∧ (m = .output → t % c.freq = 0) ∧
    (m = .precip → ¬ (c.winstralPrecip = true ∧ c.winstralWind = false)) := by
  have hput : ∀ (m : Mod) (out : Var → V) (y : σ),
      MayPut (.smrf v) (putAll ((writes c m).map .smrf) out (.ret y)) → v ∈ writes c m := by
    intro m out y h
    have := mayPut_putAll _ _ _ _ h
    simpa using this
  have hgen : ∀ m : Mod, m ≠ .output → MayPut (.smrf v)
      (getAll (reads c m) (fun _ => none) fun env =>
        if m = .precip ∧ c.winstralPrecip = true ∧ c.winstralWind = false then
          .get .dead fun _ => .ret x
        else
          putAll ((writes c m).map .smrf)
            (outOf F (F.f m x t ((threadArgs c m).map (Src.eval F env))).2)
            (.ret (F.f m x t ((threadArgs c m).map (Src.eval F env))).1)) →
      v ∈ writes c m ∧ (m = .output → t % c.freq = 0) ∧
      (m = .precip → ¬ (c.winstralPrecip = true ∧ c.winstralWind = false)) := by
    intro m hm h
    obtain ⟨e, he⟩ := mayPut_getAll _ _ _ _ h
    split at he
    · simp [MayPut] at he
    · rename_i hn
      exact ⟨hput _ _ _ he, fun h => absurd h hm, fun h h' => hn ⟨h, h'⟩⟩
  cases m with
  | load =>
    have := mayPut_putAll _ _ _ _ h
    simp at this
  | sun => exact ⟨hput _ _ _ h, by simp, by simp⟩
  | shade =>
    refine ⟨?_, by simp, by simp⟩
    simp only [body, MayPut] at h
    obtain ⟨_, h⟩ := h
    split at h
    · simp [MayPut] at h; simp [writes, h]
    · simp [MayPut] at h; simp [writes, h]
  | output =>
    simp only [body] at h
    split at h
    · rename_i h0
      obtain ⟨e, he⟩ := mayPut_getAll _ _ _ _ h
      simp [MayPut] at he
      exact ⟨by simp [writes, he], fun _ => h0, by simp⟩
    · simp [MayPut] at h
  | airTemp => exact hgen .airTemp (by simp) h
  | vaporPressure => exact hgen .vaporPressure (by simp) h
  | wind => exact hgen .wind (by simp) h
  | precip => exact hgen .precip (by simp) h
  | albedo => exact hgen .albedo (by simp) h
  | cloudFactor => exact hgen .cloudFactor (by simp) h
  | solar => exact hgen .solar (by simp) h
  | thermal => exact hgen .thermal (by simp) h

/-- C09 fails for every output frequency above one: as soon as there are two dates, no schedule ever
reaches the end, because the output thread only marks output dates and the cleaner waits for the mark
of every date (queue.py 227-228, 295). -/
theorem C09_frequency_fails (c : Cfg) (hf : 1 < c.freq) (F : Comp V σ) (init : Mod → σ)
    (w : List SVar) (hw : ∀ q, q ∈ w ↔ q ∈ keys c) (n : Nat) (hn : 2 ≤ n) {s : St Mod Var V σ}
    (hr : Reach (net c F init w n) s) : ¬ Finished (net c F init w n) s := by
  refine never_finishes (N := net c F init w n) (q := .smrf .output) (t := 1) hn ?_ ?_ hr
  · exact List.mem_map_of_mem ((hw _).2 (by simp [keys]))
  · intro m x h
    obtain ⟨h1, h2, -⟩ := mayPut_body c F m x 1 _ h
    have hm : m = .output := (writes_owner c m _ h1).symm
    have := h2 hm
    rw [Nat.mod_eq_of_lt hf] at this
    omega

/-- C09 fails whenever one of the two solar corrections is off (solar.py 204-209 always registers all
the variables but 398-405 only puts them under the flags). -/
theorem C09_solar_flags_fails (c : Cfg) (hf : c.solarCloud = false ∨ c.solarVeg = false)
    (F : Comp V σ) (init : Mod → σ) (w : List SVar) (hw : ∀ q, q ∈ w ↔ q ∈ keys c) (n : Nat)
    (hn : 1 ≤ n) {s : St Mod Var V σ} (hr : Reach (net c F init w n) s) :
    ¬ Finished (net c F init w n) s := by
  have key : ∀ v, v ∈ keys c → ownerS v = .solar → v ∉ writes c .solar →
      ¬ Finished (net c F init w n) s := by
    intro v h1 h2 h3
    refine never_finishes (N := net c F init w n) (q := .smrf v) (t := 0) hn ?_ ?_ hr
    · exact List.mem_map_of_mem ((hw _).2 h1)
    · intro m x h
      obtain ⟨h4, -, -⟩ := mayPut_body c F m x 0 _ h
      have := writes_owner c m _ h4
      rw [h2] at this; subst this
      exact h3 h4
  rcases hf with hf | hf
  · refine key .vegIrBeam (by simp [keys, vegVars]) rfl ?_
    simp [writes, hf, clearVars, cloudVars]
  · refine key .cloudIrBeam (by simp [keys, cloudVars]) rfl ?_
    simp [writes, hf, clearVars, vegVars]

/-- C09 fails for winstral precipitation rescaling with another wind model: the precipitation thread
stops at the first date with a `KeyError` and nothing stops the others. -/
theorem C09_winstral_rescaling_fails (c : Cfg) (h1 : c.winstralPrecip = true)
    (h2 : c.winstralWind = false) (F : Comp V σ) (init : Mod → σ) (w : List SVar)
    (hw : ∀ q, q ∈ w ↔ q ∈ keys c) (n : Nat) (hn : 1 ≤ n) {s : St Mod Var V σ}
    (hr : Reach (net c F init w n) s) : ¬ Finished (net c F init w n) s := by
  refine never_finishes (N := net c F init w n) (q := .smrf .precip) (t := 0) hn ?_ ?_ hr
  · exact List.mem_map_of_mem ((hw _).2 (by simp [keys]))
  · intro m x h
    obtain ⟨h4, -, h5⟩ := mayPut_body c F m x 0 _ h
    have hm : m = .precip := (writes_owner c m _ h4).symm
    exact h5 hm ⟨h1, h2⟩

/-- A typical configuration: all defaults, winstral wind and rescaling, marks2017. -/
def demoCfg : Cfg where
  winstralWind := true
  winstralPrecip := true
  marks2017 := true
  solarCloud := true
  solarVeg := true
  thermalCloud := true
  thermalVeg := false
  freq := 1
  outVars := [.airTemp, .netSolar, .stormDays, .thermal]
  cap := 2

/-- Some computations. -/
def demoComp : Comp Nat Nat where
  f _ s t args := (s + args.sum + 1, fun q => s + args.sum + t + lvl (ownerS q))
  up v := v % 2 = 0
  nil := 0
  row _ t := t

/-- C09 as stated is false. -/
theorem C09_fails : ¬ C09_full := by
  intro h
  have := (h { demoCfg with freq := 2 } (by decide)
    (by intro v hv; simp [demoCfg] at hv
        rcases hv with rfl | rfl | rfl | rfl <;> simp [keys])
    demoComp (fun _ => 0) 3) _ .init
  obtain ⟨⟨s', h1, h2⟩, -⟩ := this
  exact C09_frequency_fails _ (by decide) _ _ _ (fun _ => Iff.rfl) 3 (by decide)
    (h1.reach .init) h2

theorem demo_supported : Supported demoCfg where
  freq := rfl
  solarCloud := rfl
  solarVeg := rfl
  winstral := fun _ => rfl
  outVars := by
    intro v hv; simp [demoCfg] at hv
    rcases hv with rfl | rfl | rfl | rfl <;> simp [keys]

/-- The hypotheses are satisfiable. -/
example (n : Nat) : Completes (net demoCfg demoComp (fun _ => 0) (keys demoCfg) n) :=
  C09_completes_partial demoCfg demo_supported _ _ _ (fun _ => Iff.rfl) n

example {s : St Mod Var Nat Nat}
    (hr : Reach (net { demoCfg with freq := 3 } demoComp (fun _ => 0) (keys demoCfg) 5) s) :
    ¬ Finished (net { demoCfg with freq := 3 } demoComp (fun _ => 0) (keys demoCfg) 5) s :=
  C09_frequency_fails _ (by decide) _ _ _ (fun _ => Iff.rfl) 5 (by decide) hr

example {s : St Mod Var Nat Nat}
    (hr : Reach (net { demoCfg with solarVeg := false } demoComp (fun _ => 0) (keys demoCfg) 5) s) :
    ¬ Finished (net { demoCfg with solarVeg := false } demoComp (fun _ => 0) (keys demoCfg) 5) s :=
  C09_solar_flags_fails _ (.inr rfl) _ _ _ (fun _ => Iff.rfl) 5 (by decide) hr

end Verif.Network
