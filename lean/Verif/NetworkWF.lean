import Verif.NetworkLemmas

/-! Well-formedness of the concrete network (helper for C09, C10, C11). -/

namespace Verif.Network
open Verif.Pipeline Verif.Queue

variable {V σ : Type}

/-- Configurations for which the network is well formed. -/
structure Supported (c : Cfg) : Prop where
  /-- every date is an output date -/
  freq : c.freq = 1
  /-- both solar corrections are on -/
  solarCloud : c.solarCloud = true
  solarVeg : c.solarVeg = true
  /-- precipitation rescaling with winstral needs the winstral wind model -/
  winstral : c.winstralPrecip = true → c.winstralWind = true
  /-- the output thread only reads queues that exist and does not read its own marker -/
  outVars : ∀ v ∈ c.outVars, v ∈ keys c ∧ v ≠ .output

/-- Well-formed requests of output variables: only thread variables are read (queue.py 277) and
`output` is not an output variable of any module. -/
def OutOK (c : Cfg) : Prop := ∀ v ∈ c.outVars, v ∈ keys c ∧ v ≠ .output

theorem owned_of_ne_load (c : Cfg) (m : Mod) (h : m ≠ .load) :
    owned c m = (writes c m).map .smrf := by
  cases m <;> first | rfl | exact absurd rfl h

/-- Every configuration has a single writer per queue. -/
theorem net_single (c : Cfg) (F : Comp V σ) (init : Mod → σ) (w : List SVar) (n : Nat) :
    SingleWriter (net c F init w n) (owned c) where
  nodup := owned_nodup c
  disjoint := owned_disjoint c
  atMost m s t := by
    have hgen : ∀ m : Mod, AtMost (getAll (reads c m) (fun _ => none) fun env =>
        if m = .precip ∧ c.winstralPrecip = true ∧ c.winstralWind = false then
          .get .dead fun _ => .ret s
        else
          putAll ((writes c m).map .smrf)
            (outOf F (F.f m s t ((threadArgs c m).map (Src.eval F env))).2)
            (.ret (F.f m s t ((threadArgs c m).map (Src.eval F env))).1))
        ((writes c m).map .smrf) := by
      intro m
      apply atMost_getAll
      intro env
      split
      · simp [AtMost]
      · exact atMost_putAll _ _ _
    cases m with
    | load => exact atMost_putAll _ _ _
    | sun => exact atMost_putAll _ _ _
    | shade =>
      simp only [net, body, AtMost]
      intro v
      split
      · simp [AtMost, owned, writes]
      · simp [AtMost, owned, writes]
    | output =>
      simp only [net, body]
      split
      · apply atMost_getAll
        intro env
        simp [AtMost, owned, writes]
      · simp [AtMost]
    | airTemp => exact hgen .airTemp
    | vaporPressure => exact hgen .vaporPressure
    | wind => exact hgen .wind
    | precip => exact hgen .precip
    | albedo => exact hgen .albedo
    | cloudFactor => exact hgen .cloudFactor
    | solar => exact hgen .solar
    | thermal => exact hgen .thermal

theorem reads_ok (c : Cfg) (hc : Supported c) (m : Mod) (q : Var) (hq : q ∈ reads c m) :
    (∃ j, q ∈ owned c j) ∧ rank q < lvl m := by
  have hS : ∀ v, v ∈ keys c → ∃ j, Var.smrf v ∈ owned c j := fun v hv =>
    ⟨ownerS v, (mem_owned_smrf _ _ _).2 (keys_owner c hc.solarCloud hc.solarVeg v hv)⟩
  have hD : ∀ d, ∃ j, Var.data d ∈ owned c j := fun d =>
    ⟨.load, by cases d <;> simp [owned, allData]⟩
  have hw := hc.winstral
  cases q with
  | dead =>
    exfalso
    cases m <;> simp only [reads, List.mem_append, List.mem_cons, List.not_mem_nil, reduceCtorEq,
      or_false, false_or] at hq
    split at hq
    · split at hq <;> simp at hq
    · simp at hq
  | data d =>
    refine ⟨hD d, ?_⟩
    cases m <;> first | (simp [rank, lvl]; done) | simp [reads] at hq
  | smrf v =>
    have : v ∈ keys c ∧ lvl (ownerS v) < lvl m := by
      cases m
      case precip =>
        by_cases h1 : c.winstralPrecip = true
        · simp [reads, h1, hw h1] at hq
          rcases hq with rfl | rfl | rfl | rfl | rfl | rfl | rfl <;>
            exact ⟨by simp [keys, hw h1, winstralVars], by decide⟩
        · simp [reads, h1] at hq
          rcases hq with rfl | rfl | rfl <;> exact ⟨by simp [keys], by decide⟩
      all_goals
        simp [reads] at hq
        try (rcases hq with rfl | rfl | rfl | rfl | rfl | rfl <;> exact ⟨by simp [keys], by decide⟩)
        try (rcases hq with rfl | rfl | rfl | rfl <;> exact ⟨by simp [keys], by decide⟩)
        try (rcases hq with rfl | rfl <;> exact ⟨by simp [keys], by decide⟩)
        try (subst hq; exact ⟨by simp [keys], by decide⟩)
    exact ⟨hS v this.1, this.2⟩

/-- Supported configurations are well formed. -/
theorem net_wf (c : Cfg) (hc : Supported c) (F : Comp V σ) (init : Mod → σ) (w : List SVar)
    (hw : ∀ q, q ∈ w ↔ q ∈ keys c) (n : Nat) :
    WF (net c F init w n) (owned c) rank where
  nodup := owned_nodup c
  disjoint := owned_disjoint c
  prog m s t _ := by
    have hrank : ∀ (m : Mod) (q' : Var), q' ∈ (writes c m).map Var.smrf → rank q' = lvl m := by
      intro m q' h
      simp only [List.mem_map] at h
      obtain ⟨v, hv, rfl⟩ := h
      simp [rank, writes_owner c m v hv]
    have hwatch : ∀ m : Mod, m ≠ .load →
        ∃ q' ∈ (writes c m).map Var.smrf, q' ∈ (net c F init w n).watched := by
      intro m hm
      have : ∃ v, v ∈ writes c m := by
        cases m
        case load => exact absurd rfl hm
        case solar => exact ⟨.netSolar, by simp [writes]⟩
        case thermal => exact ⟨.thermal, by simp [writes]⟩
        case precip => exact ⟨.precip, by simp [writes]⟩
        case wind => exact ⟨.windSpeed, by simp [writes]⟩
        all_goals exact ⟨_, List.mem_cons_self⟩
      obtain ⟨v, hv⟩ := this
      refine ⟨.smrf v, List.mem_map_of_mem hv, ?_⟩
      exact List.mem_map_of_mem ((hw v).2 (writes_keys c m v hv))
    have hgen : ∀ m : Mod, m ≠ .load →
        WFProg (fun q => ∃ j, q ∈ owned c j) (net c F init w n).watched rank
        (getAll (reads c m) (fun _ => none) fun env =>
        if m = .precip ∧ c.winstralPrecip = true ∧ c.winstralWind = false then
          .get .dead fun _ => .ret s
        else
          putAll ((writes c m).map .smrf)
            (outOf F (F.f m s t ((threadArgs c m).map (Src.eval F env))).2)
            (.ret (F.f m s t ((threadArgs c m).map (Src.eval F env))).1))
        ((writes c m).map .smrf) := by
      intro m hm
      apply wf_getAll
      · intro q hq
        obtain ⟨h1, h2⟩ := reads_ok c hc m q hq
        exact ⟨h1, fun q' hq' => by rw [hrank m q' hq']; exact h2⟩
      · exact hwatch m hm
      · intro env
        rw [if_neg]
        · exact wf_putAll _ _ _ _ _ _
        · rintro ⟨-, h1, h2⟩
          rw [hc.winstral h1] at h2; cases h2
    have hsun : ∀ v, v ∈ writes c .sun → Var.smrf v ∈ owned c .sun := fun v hv =>
      (mem_owned_smrf _ _ _).2 hv
    cases m with
    | load => exact wf_putAll _ _ _ _ _ _
    | sun => exact wf_putAll _ _ _ _ _ _
    | shade =>
      have h1 := hwatch .shade (by simp)
      simp only [net, body, WFProg]
      refine ⟨⟨.sun, hsun _ (by simp [writes])⟩, by simp [owned, writes, rank, ownerS, lvl],
        h1, ?_⟩
      intro v
      split
      · exact ⟨⟨.sun, hsun _ (by simp [writes])⟩, by simp [owned, writes, rank, ownerS, lvl],
          h1, by simp [WFProg, owned, writes]⟩
      · simp [WFProg, owned, writes]
    | output =>
      simp only [net, body, hc.freq, Nat.mod_one, if_true]
      apply wf_getAll
      · intro q hq
        simp only [List.mem_map] at hq
        obtain ⟨v, hv, rfl⟩ := hq
        obtain ⟨h1, h2⟩ := hc.outVars v hv
        refine ⟨⟨ownerS v, (mem_owned_smrf _ _ _).2
          (keys_owner c hc.solarCloud hc.solarVeg v h1)⟩, ?_⟩
        intro q' hq'
        simp only [owned, writes, List.map_cons, List.map_nil, List.mem_singleton] at hq'
        subst hq'
        simp only [rank]
        cases v <;> first | exact absurd rfl h2 | decide
      · exact hwatch .output (by simp)
      · intro env
        simp [WFProg, owned, writes]
    | airTemp => exact hgen .airTemp (by simp)
    | vaporPressure => exact hgen .vaporPressure (by simp)
    | wind => exact hgen .wind (by simp)
    | precip => exact hgen .precip (by simp)
    | albedo => exact hgen .albedo (by simp)
    | cloudFactor => exact hgen .cloudFactor (by simp)
    | solar => exact hgen .solar (by simp)
    | thermal => exact hgen .thermal (by simp)
  watched_owned q h := by
    simp only [net, List.mem_map] at h
    obtain ⟨v, hv, rfl⟩ := h
    exact ⟨ownerS v, (mem_owned_smrf _ _ _).2
      (keys_owner c hc.solarCloud hc.solarVeg v ((hw v).1 hv))⟩
  unwatched_unbounded i q hq h := by
    cases q with
    | smrf v =>
      rw [mem_owned_smrf] at hq
      exact absurd (List.mem_map_of_mem ((hw v).2 (writes_keys c i v hq))) h
    | _ => simp [net]

/-- No body performs more queue operations than this. -/
theorem net_depth (c : Cfg) (F : Comp V σ) (init : Mod → σ) (w : List SVar) (n : Nat)
    (m : Mod) (s : σ) (t : Nat) :
    DepthLE ((net c F init w n).body m s t) (c.outVars.length + 30) := by
  have hwlen : ∀ m, (writes c m).length ≤ 13 := by
    intro m
    cases m <;> simp only [writes, clearVars, vegVars, cloudVars]
    case solar => cases c.solarCloud <;> cases c.solarVeg <;> decide
    case thermal => cases c.thermalCloud <;> cases c.thermalVeg <;> decide
    case precip => cases c.marks2017 <;> decide
    case wind => cases c.winstralWind <;> decide
    all_goals decide
  have hrlen : ∀ m, (reads c m).length ≤ 10 := by
    intro m
    cases m <;> simp only [reads]
    case precip => cases c.winstralPrecip <;> cases c.winstralWind <;> decide
    all_goals decide
  have hgen : ∀ m : Mod, DepthLE (getAll (reads c m) (fun _ => none) fun env =>
        if m = .precip ∧ c.winstralPrecip = true ∧ c.winstralWind = false then
          .get .dead fun _ => .ret s
        else
          putAll ((writes c m).map .smrf)
            (outOf F (F.f m s t ((threadArgs c m).map (Src.eval F env))).2)
            (.ret (F.f m s t ((threadArgs c m).map (Src.eval F env))).1))
        (c.outVars.length + 30) := by
    intro m
    have := hrlen m
    refine DepthLE.mono (depth_getAll _ _ _ 13 ?_) (by omega)
    intro env
    split
    · exact ⟨12, rfl, by simp [DepthLE]⟩
    · refine DepthLE.mono (depth_putAll _ _ _) ?_
      simpa using hwlen m
  cases m with
  | load => exact DepthLE.mono (depth_putAll _ _ _) (by simp [allData])
  | sun => exact DepthLE.mono (depth_putAll _ _ _) (by simp [writes])
  | shade =>
    simp only [net, body, DepthLE]
    refine ⟨c.outVars.length + 29, rfl, fun v => ?_⟩
    split
    · exact ⟨c.outVars.length + 28, rfl, fun v => ⟨c.outVars.length + 27, rfl, by simp [DepthLE]⟩⟩
    · exact ⟨c.outVars.length + 28, rfl, by simp [DepthLE]⟩
  | output =>
    simp only [net, body]
    split
    · refine DepthLE.mono (depth_getAll _ _ _ 1 ?_) (by simp)
      intro env
      exact ⟨0, rfl, by simp [DepthLE]⟩
    · simp [DepthLE]
  | airTemp => exact hgen .airTemp
  | vaporPressure => exact hgen .vaporPressure
  | wind => exact hgen .wind
  | precip => exact hgen .precip
  | albedo => exact hgen .albedo
  | cloudFactor => exact hgen .cloudFactor
  | solar => exact hgen .solar
  | thermal => exact hgen .thermal

end Verif.Network
