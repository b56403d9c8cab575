import Verif.AliasLemmas
import Verif.NetworkProps

/-!
C11: a value published to the queues stays as it was while somebody may still read it.

The storm-day array is published by reference and updated in place. `cell s .precip (.smrf
.stormDays)` is its current contents (see `Verif/Alias.lean`).
-/

namespace Verif.Network
open Verif.Pipeline Verif.Queue

variable {V σ : Type}

/-- What a reader needs: as long as some variable of date `t` has not been published (so that its
thread, or the output thread, may still have to read `storm_days` of date `t`), the storm-day array
still holds what was published for date `t`. -/
def StableStormDays (N : Net Mod Var V σ) (c : Cfg) : Prop :=
  ∀ s, Reach N s → ∀ t v, Published s (.smrf .stormDays) t v →
    ∀ q ∈ keys c, (¬ ∃ w, Published s (.smrf q) t w) →
      cell s .precip (.smrf .stormDays) = some v

/-- C11 as stated: for every configuration that runs. -/
def C11_full : Prop :=
  ∀ (c : Cfg), Supported c → ∀ (F : Comp Nat Nat) (init : Mod → Nat) (w : List SVar),
    (∀ q, q ∈ w ↔ q ∈ keys c) → ∀ n, StableStormDays (net c F init w n) c

/-- The precipitation thread reads the dew point of a date before it puts anything. -/
theorem precip_needs (c : Cfg) (F : Comp V σ) (s : σ) (t : Nat) :
    Needs (.smrf .dewPoint) (body c F .precip s t) := by
  simp only [body, reads]
  simp [getAll, Needs]

/-- C11 holds for `queue_max_values = 1`: the precipitation thread cannot start the next date
before the cleaner has seen every variable of the current one. Missing: any other capacity, see
`C11_fails`. -/
theorem C11_capacity_one_partial (c : Cfg) (hc : Supported c) (hcap : c.cap = 1) (F : Comp V σ)
    (init : Mod → σ) (w : List SVar) (hw : ∀ q, q ∈ w ↔ q ∈ keys c) (n : Nat) :
    StableStormDays (net c F init w n) c := by
  intro s hr t v hp q hq hnp
  have W := net_single c F init w n
  obtain ⟨todo, inv⟩ := hr.inv (net_wf c hc F init w hw n)
  have hone : ∀ v', (net c F init w n).cap (.smrf v') = 1 := fun _ => hcap
  have hwq : Var.smrf q ∈ (net c F init w n).watched := List.mem_map_of_mem ((hw q).2 hq)
  have hno : ∀ x, ¬ Done (net c F init w n) (owned c) todo s.thr (.smrf x) (t + 1) :=
    fun x hd => hnp (cap_one hr inv (hone x) hd _ hwq)
  have hd := published_done W hr inv hp
  -- the writer is the precipitation thread
  obtain ⟨i, hp⟩ := hp
  obtain ⟨-, ho, huniq⟩ := (hr.hist i).puts W
  have hi : i = .precip := by
    have h1 := ho _ _ _ hp
    rw [mem_owned_smrf] at h1
    exact (writes_owner c i _ h1).symm
  subst hi
  obtain ⟨⟨T, -, -, hat, hT⟩, -, -⟩ := (hr.hist .precip).puts W
  obtain ⟨hle, hnT⟩ := hT _ _ _ hp
  have hle2 : (s.thr .precip).t ≤ t + 1 := by
    by_contra hcon
    exact hno .stormDays ⟨.precip, ho _ _ _ hp, .inl (by omega)⟩
  -- nothing pending
  have hpend : pending (.smrf .stormDays) (s.thr .precip).p = none := by
    cases hpd : pending (Var.smrf SVar.stormDays) (s.thr .precip).p with
    | none => rfl
    | some v' =>
      exfalso
      by_cases h : t = (s.thr .precip).t
      · exact hnT h (pending_todo hat hpd)
      · have ht1 : (s.thr .precip).t = t + 1 := by omega
        rcases needs_hist (d := .smrf .dewPoint) (fun s t _ => precip_needs c F s t)
          (hr.hist .precip) with ⟨x, hx⟩ | hn
        · rw [ht1] at hx
          exact hno .dewPoint (published_done W hr inv (hr.store.2.2 _ _ _ _ hx))
        · exact pending_not_needs hpd hn
  obtain ⟨t', v', hl, htt⟩ := lastPut_max W (hr.hist .precip) hp
  have hm := lastPut_mem hl
  have ht' : t' = t := by
    have h1 := (hT _ _ _ hm).1
    by_contra hcon
    have : t' = t + 1 := by omega
    subst this
    exact hno .stormDays (published_done W hr inv ⟨_, hm⟩)
  subst ht'
  have : v' = v := huniq _ _ _ _ hm hp
  subst this
  simp [cell, hpend, hl]

/-- Components in which the storm days count the dates. -/
def stormComp : Comp Nat Nat where
  f _ s _ _ := (s + 1, fun _ => s + 1)
  up _ := false
  nil := 0
  row _ _ := 0

/-- The schedule of the counterexample: precipitation publishes date 0 and computes date 1 before
albedo has run. -/
def stormSched : List Mod :=
  List.replicate 7 .load ++ List.replicate 2 .airTemp ++ List.replicate 5 .vaporPressure ++
  List.replicate 11 .precip ++
  [.load, .airTemp, .vaporPressure] ++
  List.replicate 7 .load ++ List.replicate 2 .airTemp ++ List.replicate 5 .vaporPressure ++
  List.replicate 7 .precip

def stormCfg : Cfg := { demoCfg with winstralWind := false, winstralPrecip := false,
                                     marks2017 := false }

theorem storm_supported : Supported stormCfg where
  freq := rfl
  solarCloud := rfl
  solarVeg := rfl
  winstral := fun h => by cases h
  outVars := by
    intro v hv; simp [stormCfg, demoCfg] at hv
    rcases hv with rfl | rfl | rfl | rfl <;> simp [keys]

deriving instance DecidableEq for Act

def stormNet : Net Mod Var Nat Nat := net stormCfg stormComp (fun _ => 0) (keys stormCfg) 3

/-- C11 fails for the default `queue_max_values = 2`: the array published for date 0 is overwritten
while the albedo of date 0 has not been computed. -/
theorem C11_fails : ¬ C11_full := by
  intro h
  have h1 := h stormCfg storm_supported stormComp (fun _ => 0) (keys stormCfg) (fun _ => Iff.rfl) 3
  have key : (sched stormNet stormNet.initial stormSched).map (fun s =>
      (decide (Act.put (.smrf .stormDays) 0 1 ∈ s.hist .precip),
        cell s .precip (.smrf .stormDays),
        (s.hist .albedo).length)) = some (true, some 2, 0) := by
    rfl
  cases hs : sched stormNet stormNet.initial stormSched with
  | none => rw [hs] at key; cases key
  | some s =>
    rw [hs] at key
    simp only [Option.map_some, Option.some.injEq, Prod.mk.injEq, decide_eq_true_eq,
      List.length_eq_zero_iff] at key
    obtain ⟨k1, k2, k3⟩ := key
    have hr : Reach stormNet s := sched_reach .init hs
    have := h1 s hr 0 1 ⟨_, k1⟩ .albedoVis (by simp [keys]) (by
      rintro ⟨v, i, hi⟩
      have := ((hr.hist i).puts (net_single stormCfg stormComp (fun _ => 0) (keys stormCfg) 3)).2.1
        _ _ _ hi
      rw [mem_owned_smrf] at this
      have hm : i = .albedo := (writes_owner stormCfg i _ this).symm
      subst hm
      rw [k3] at hi
      cases hi)
    rw [k2] at this
    cases this

theorem storm1_supported : Supported { stormCfg with cap := 1 } where
  freq := rfl
  solarCloud := rfl
  solarVeg := rfl
  winstral := fun h => by cases h
  outVars := storm_supported.outVars

/-- The hypotheses of the partial theorem are satisfiable. -/
example : StableStormDays (net { stormCfg with cap := 1 } stormComp (fun _ => 0) (keys stormCfg) 3)
    { stormCfg with cap := 1 } :=
  C11_capacity_one_partial _ storm1_supported rfl _ _ _ (fun _ => Iff.rfl) 3

/-- With capacity one there is a reachable state in which storm days have been published and the
albedo thread has not started. -/
example : ∃ s, Reach (net { stormCfg with cap := 1 } stormComp (fun _ => 0) (keys stormCfg) 3) s ∧
    Published s (.smrf .stormDays) 0 1 ∧ s.hist .albedo = [] := by
  let N := net { stormCfg with cap := 1 } stormComp (fun _ => 0) (keys stormCfg) 3
  have key : (sched N N.initial (stormSched.take 25)).map (fun s =>
      (decide (Act.put (.smrf .stormDays) 0 1 ∈ s.hist .precip), (s.hist .albedo).length)) =
      some (true, 0) := rfl
  cases hs : sched N N.initial (stormSched.take 25) with
  | none => rw [hs] at key; cases key
  | some s =>
    rw [hs] at key
    simp only [Option.map_some, Option.some.injEq, Prod.mk.injEq, decide_eq_true_eq,
      List.length_eq_zero_iff] at key
    exact ⟨s, sched_reach .init hs, ⟨_, key.1⟩, key.2⟩

end Verif.Network
