import Verif.Network
import Verif.PipelineProps

/-! Helper lemmas about the concrete SMRF network (C09, C10, C11). -/

namespace Verif.Network
open Verif.Pipeline Verif.Queue

variable {V σ : Type}

/-- The thread that writes a variable. -/
def ownerS : SVar → Mod
  | .cosz | .azimuth => .sun
  | .illumAng => .shade
  | .output => .output
  | .airTemp => .airTemp
  | .vaporPressure | .dewPoint | .precipTemp => .vaporPressure
  | .windSpeed | .windDirection | .flatwind | .cellmaxus | .dirRoundCell => .wind
  | .precip | .percentSnow | .snowDensity | .stormDays | .stormTotal | .stormId => .precip
  | .albedoVis | .albedoIr => .albedo
  | .cloudFactor => .cloudFactor
  | .thermal | .thermalClear | .thermalCloud | .thermalVeg => .thermal
  | _ => .solar

/-- Level of a thread in the dependency order. -/
def lvl : Mod → Nat
  | .load => 0
  | .sun | .airTemp | .wind | .cloudFactor => 1
  | .shade | .vaporPressure => 2
  | .precip | .thermal => 3
  | .albedo => 4
  | .solar => 5
  | .output => 6

def rank : Var → Nat
  | .data _ => 0
  | .smrf s => lvl (ownerS s)
  | .dead => 0

/-- Queues written by each thread. -/
def owned (c : Cfg) : Mod → List Var
  | .load => allData.map .data
  | m => (writes c m).map .smrf

theorem writes_owner (c : Cfg) (m : Mod) (q : SVar) (h : q ∈ writes c m) : ownerS q = m := by
  cases m <;> cases q <;> first | rfl | simp [writes, clearVars, vegVars, cloudVars] at h

theorem keys_owner (c : Cfg) (hs : c.solarCloud = true) (hv : c.solarVeg = true) (q : SVar)
    (h : q ∈ keys c) : q ∈ writes c (ownerS q) := by
  simp only [keys, clearVars, vegVars, cloudVars, winstralVars] at h
  cases q <;> simp [ownerS, writes, clearVars, vegVars, cloudVars, hs, hv] at h ⊢ <;> exact h

theorem writes_keys (c : Cfg) (m : Mod) (q : SVar) (h : q ∈ writes c m) : q ∈ keys c := by
  have := writes_owner c m q h
  subst this
  cases q <;> simp [ownerS, writes, keys, winstralVars, clearVars, vegVars, cloudVars] at h ⊢ <;> exact h

theorem writes_nodup (c : Cfg) (m : Mod) : (writes c m).Nodup := by
  cases m <;> simp only [writes, clearVars, vegVars, cloudVars]
  case solar => cases c.solarCloud <;> cases c.solarVeg <;> decide
  case thermal => cases c.thermalCloud <;> cases c.thermalVeg <;> decide
  case precip => cases c.marks2017 <;> decide
  case wind => cases c.winstralWind <;> decide
  all_goals decide

theorem smrf_inj : Function.Injective Var.smrf := by
  intro a b h; cases h; rfl

theorem owned_nodup (c : Cfg) (m : Mod) : (owned c m).Nodup := by
  unfold owned
  split
  · decide
  · exact (List.nodup_map_iff smrf_inj).2 (writes_nodup c _)

theorem mem_owned_smrf (c : Cfg) (m : Mod) (q : SVar) :
    Var.smrf q ∈ owned c m ↔ q ∈ writes c m := by
  unfold owned
  split
  · simp [writes]
  · simp

theorem owned_disjoint (c : Cfg) (i j : Mod) (q : Var) (hi : q ∈ owned c i) (hj : q ∈ owned c j) :
    i = j := by
  cases q with
  | smrf q =>
    rw [mem_owned_smrf] at hi hj
    rw [← writes_owner c i q hi, writes_owner c j q hj]
  | data d =>
    have : ∀ m, Var.data d ∈ owned c m → m = .load := by
      intro m h
      unfold owned at h
      split at h
      · rfl
      · simp at h
    rw [this i hi, this j hj]
  | dead =>
    exfalso
    unfold owned at hi
    split at hi <;> simp at hi

/-! ### Programs built from `getAll` and `putAll` -/

section
variable {Q : Type} [DecidableEq Q]

theorem atMost_getAll (qs : List Q) (env : Q → Option V) (k : (Q → Option V) → Prog Q V σ)
    (todo : List Q) (hk : ∀ env, AtMost (k env) todo) : AtMost (getAll qs env k) todo := by
  induction qs generalizing env with
  | nil => exact hk _
  | cons q qs ih => simp only [getAll, AtMost]; intro v; exact ih _

theorem atMost_putAll (qs : List Q) (out : Q → V) (s : σ) : AtMost (putAll qs out (.ret s)) qs := by
  induction qs with
  | nil => simp [putAll, AtMost]
  | cons q qs ih => simp [putAll, AtMost, ih]

theorem wf_getAll (present : Q → Prop) (watched : List Q) (rank : Q → Nat) (qs : List Q)
    (env : Q → Option V) (k : (Q → Option V) → Prog Q V σ) (todo : List Q)
    (h : ∀ q ∈ qs, present q ∧ ∀ q' ∈ todo, rank q < rank q')
    (hw : ∃ q' ∈ todo, q' ∈ watched)
    (hk : ∀ env, WFProg present watched rank (k env) todo) :
    WFProg present watched rank (getAll qs env k) todo := by
  induction qs generalizing env with
  | nil => exact hk _
  | cons q qs ih =>
    simp only [getAll, WFProg]
    refine ⟨(h q (by simp)).1, (h q (by simp)).2, hw, fun v => ih _ ?_⟩
    intro q' hq'; exact h q' (by simp [hq'])

theorem wf_putAll (present : Q → Prop) (watched : List Q) (rank : Q → Nat) (qs : List Q)
    (out : Q → V) (s : σ) : WFProg present watched rank (putAll qs out (.ret s)) qs := by
  induction qs with
  | nil => simp [putAll, WFProg]
  | cons q qs ih => simp [putAll, WFProg, ih]

omit [DecidableEq Q] in
theorem DepthLE.mono {p : Prog Q V σ} {n m : Nat} (h : DepthLE p n) (hnm : n ≤ m) : DepthLE p m := by
  induction p generalizing n m with
  | ret => simp [DepthLE]
  | get q k ih =>
    simp only [DepthLE] at h ⊢
    obtain ⟨n', rfl, h⟩ := h
    exact ⟨m - 1, by omega, fun v => ih v (h v) (by omega)⟩
  | put q v p ih =>
    simp only [DepthLE] at h ⊢
    obtain ⟨n', rfl, h⟩ := h
    exact ⟨m - 1, by omega, ih h (by omega)⟩

theorem depth_getAll (qs : List Q) (env : Q → Option V) (k : (Q → Option V) → Prog Q V σ) (m : Nat)
    (hk : ∀ env, DepthLE (k env) m) : DepthLE (getAll qs env k) (qs.length + m) := by
  induction qs generalizing env with
  | nil => simpa [getAll] using hk _
  | cons q qs ih =>
    simp only [getAll, DepthLE, List.length_cons]
    exact ⟨qs.length + m, by omega, fun v => ih _⟩

omit [DecidableEq Q] in
theorem depth_putAll (qs : List Q) (out : Q → V) (s : σ) :
    DepthLE (putAll qs out (.ret s)) qs.length := by
  induction qs with
  | nil => simp [putAll, DepthLE]
  | cons q qs ih => exact ⟨_, rfl, ih⟩

theorem runProg_getAll (env : Q → Option V) (qs : List Q) (e : Q → Option V)
    (k : (Q → Option V) → Prog Q V σ) (h : ∀ q ∈ qs, ∃ v, env q = some v) :
    runProg env (getAll qs e k) = runProg env (k fun q => if q ∈ qs then env q else e q) := by
  induction qs generalizing e with
  | nil => simp [getAll]
  | cons q qs ih =>
    obtain ⟨v, hv⟩ := h q (by simp)
    simp only [getAll, runProg, hv]
    rw [ih _ fun q' hq' => h q' (by simp [hq'])]
    congr 2
    funext q'
    by_cases h1 : q' ∈ qs
    · simp [h1]
    · by_cases h2 : q' = q
      · subst h2; simp [h1, hv]
      · simp [h1, h2]

theorem runProg_putAll (env : Q → Option V) (qs : List Q) (out : Q → V) (s : σ) :
    runProg env (putAll qs out (.ret s)) =
      some (s, fun q => if q ∈ qs then some (out q) else env q) := by
  induction qs generalizing env with
  | nil => simp [putAll, runProg]
  | cons q qs ih =>
    simp only [putAll, runProg]
    rw [ih]
    congr 2
    funext q'
    by_cases h1 : q' ∈ qs
    · simp [h1]
    · by_cases h2 : q' = q
      · subst h2; simp [h1]
      · simp [h1, h2]

/-- `p` may put to `q` on some path. -/
def MayPut (q : Q) : Prog Q V σ → Prop
  | .ret _ => False
  | .get _ k => ∃ v, MayPut q (k v)
  | .put q' _ p => q' = q ∨ MayPut q p

theorem mayPut_getAll (q : Q) (qs : List Q) (env : Q → Option V) (k : (Q → Option V) → Prog Q V σ)
    (h : MayPut q (getAll qs env k)) : ∃ e, MayPut q (k e) := by
  induction qs generalizing env with
  | nil => exact ⟨_, h⟩
  | cons q' qs ih =>
    simp only [getAll, MayPut] at h
    obtain ⟨v, h⟩ := h
    exact ih _ h

omit [DecidableEq Q] in
theorem mayPut_putAll (q : Q) (qs : List Q) (out : Q → V) (s : σ)
    (h : MayPut q (putAll qs out (.ret s))) : q ∈ qs := by
  induction qs with
  | nil => simp [putAll, MayPut] at h
  | cons q' qs ih =>
    simp only [putAll, MayPut] at h
    rcases h with rfl | h
    · simp
    · simp [ih h]
end

/-- What is published at a date was put by a body run at that date. -/
theorem published_mayPut {I Q : Type} [DecidableEq I] [DecidableEq Q] {N : Net I Q V σ}
    {s : St I Q V σ} (hr : Reach N s) {q : Q} {t : Nat} {v : V} (hp : Published s q t v) :
    ∃ i x, MayPut q (N.body i x t) := by
  obtain ⟨i, hp⟩ := hp
  have hh := hr.hist i
  have key : ∀ (h : List (Act Q V)) (th : Thr Q V σ), Hist N i h th →
      (∀ q, MayPut q th.p → ∃ x, MayPut q (N.body i x th.t)) ∧
      (∀ q t v, Act.put q t v ∈ h → ∃ x, MayPut q (N.body i x t)) := by
    have hstart : ∀ (x : σ) (t : Nat) (q : Q), MayPut q (N.start i x t) →
        ∃ x, MayPut q (N.body i x t) := by
      intro x t q h
      unfold Net.start at h
      split at h
      · exact ⟨x, h⟩
      · simp [MayPut] at h
    intro h th hh
    induction hh with
    | nil => exact ⟨fun q hq => hstart _ _ _ hq, by simp⟩
    | cons _ l ih =>
      cases l with
      | got t q k v =>
        refine ⟨fun q' hq' => ih.1 q' (by simp only [MayPut]; exact ⟨v, hq'⟩), ?_⟩
        intro q' t' v' hm
        exact ih.2 q' t' v' (by simpa using hm)
      | put t q v p =>
        refine ⟨fun q' hq' => ih.1 q' (by simp only [MayPut]; exact .inr hq'), ?_⟩
        intro q' t' v' hm
        simp only [List.mem_cons, Act.put.injEq] at hm
        rcases hm with ⟨rfl, rfl, rfl⟩ | hm
        · exact ih.1 q' (by simp [MayPut])
        · exact ih.2 _ _ _ hm
      | next t x hlt =>
        refine ⟨fun q' hq' => hstart _ _ _ hq', ?_⟩
        intro q' t' v' hm
        exact ih.2 q' t' v' (by simpa using hm)
  obtain ⟨x, hx⟩ := (key _ _ hh).2 _ _ _ hp
  exact ⟨i, x, hx⟩

/-- The cleaner only passes a date when every watched queue has been written for it. -/
theorem cleaner_published {I Q : Type} [DecidableEq I] [DecidableEq Q] {N : Net I Q V σ}
    {s : St I Q V σ} (hr : Reach N s) :
    (∀ t < s.clT, ∀ q ∈ N.watched, ∃ v, Published s q t v) ∧
    (∀ n, s.clPhase = .getting n → ∀ q ∈ N.watched.take n, ∃ v, Published s q s.clT v) ∧
    (∀ n, s.clPhase = .cleaning n → ∀ q ∈ N.watched, ∃ v, Published s q s.clT v) := by
  induction hr with
  | init =>
    refine ⟨by simp [Net.initial], ?_, by simp [Net.initial]⟩
    intro n hn q hq
    simp only [Net.initial, Phase.getting.injEq] at hn
    subst hn; simp at hq
  | @step s s' hr st ih =>
    obtain ⟨h1, h2, h3⟩ := ih
    have hmono : ∀ q t v, Published s q t v → Published s' q t v :=
      fun q t v ⟨i, hi⟩ => ⟨i, st.hist_mono i hi⟩
    have hstore := hr.store
    cases st with
    | thread i a th' que' hl he =>
      refine ⟨fun t ht q hq => ?_, fun n hn q hq => ?_, fun n hn q hq => ?_⟩
      · obtain ⟨v, hv⟩ := h1 t ht q hq; exact ⟨v, hmono _ _ _ hv⟩
      · obtain ⟨v, hv⟩ := h2 n hn q hq; exact ⟨v, hmono _ _ _ hv⟩
      · obtain ⟨v, hv⟩ := h3 n hn q hq; exact ⟨v, hmono _ _ _ hv⟩
    | clGet n q v ht hp hq hv =>
      rw [getWake_value] at hv
      refine ⟨h1, ?_, by simp⟩
      intro m hm q' hq'
      simp only [Phase.getting.injEq] at hm
      subst hm
      rw [List.take_add_one, hq] at hq'
      simp only [Option.toList_some, List.mem_append, List.mem_singleton] at hq'
      rcases hq' with hq' | rfl
      · exact h2 n hp q' hq'
      · exact ⟨v, hstore.2.1 _ _ _ hv⟩
    | clTurn n ht hp hq =>
      refine ⟨h1, by simp, ?_⟩
      intro m _ q' hq'
      have hlen : N.watched.length ≤ n := by simpa using hq
      exact h2 n hp q' (by rw [List.take_of_length_le hlen]; exact hq')
    | clClean n q ht hp hq =>
      exact ⟨h1, by simp, fun m _ q' hq' => h3 n hp q' hq'⟩
    | clNext n ht hp hq =>
      refine ⟨?_, ?_, by simp⟩
      · intro t' ht' q' hq'
        simp only at ht'
        rcases Nat.lt_or_ge t' s.clT with h | h
        · exact h1 t' h q' hq'
        · have : t' = s.clT := by omega
          subst this
          exact h3 n hp q' hq'
      · intro m hm q' hq'
        simp only [Phase.getting.injEq] at hm
        subst hm; simp at hq'

end Verif.Network
