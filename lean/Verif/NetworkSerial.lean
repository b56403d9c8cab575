import Verif.NetworkProps

/-! Helper lemmas relating the serial driver to the thread bodies (C10). -/

namespace Verif.Network
open Verif.Pipeline Verif.Queue

variable {V σ : Type}

/-- Order in which the thread bodies are run one after the other. -/
def netOrder : List Mod := .load :: (serialOrder ++ [.output])

/-- Queues of the argument sources. -/
def Src.var? : Src → Option Var
  | .data d => some (.data d)
  | .var s => some (.smrf s)
  | .none => Option.none

/-- Every argument a thread passes is a value it has read. -/
theorem threadArgs_read (c : Cfg) (hw : c.winstralPrecip = true → c.winstralWind = true) (m : Mod)
    (a : Src) (ha : a ∈ threadArgs c m) (q : Var) (hq : a.var? = some q) : q ∈ reads c m := by
  cases m
  case precip =>
    by_cases h1 : c.winstralPrecip = true
    · simp [threadArgs, h1] at ha
      rcases ha with rfl | rfl | rfl | rfl | rfl | rfl | rfl | rfl | rfl | rfl <;>
        (simp [Src.var?] at hq; subst hq; simp [reads, h1, hw h1])
    · simp [threadArgs, h1] at ha
      rcases ha with rfl | rfl | rfl | rfl | rfl | rfl | rfl <;>
        first | (simp [Src.var?] at hq; subst hq; simp [reads, h1]; done) | simp [Src.var?] at hq
  all_goals
    simp [threadArgs] at ha
    try (rcases ha with rfl | rfl | rfl | rfl | rfl | rfl <;>
      (simp [Src.var?] at hq; subst hq; simp [reads]))
    try (rcases ha with rfl | rfl | rfl | rfl <;>
      (simp [Src.var?] at hq; subst hq; simp [reads]))
    try (rcases ha with rfl | rfl <;>
      (simp [Src.var?] at hq; subst hq; simp [reads]))
    try (subst ha; simp [Src.var?] at hq; subst hq; simp [reads]; done)

/-- The serial driver and the threads pass the same arguments, except to precipitation. -/
theorem args_eq (c : Cfg) (m : Mod) (h : m ≠ .precip) : threadArgs c m = serialArgs c m := by
  cases m <;> first | rfl | exact absurd rfl h

theorem args_precip (c : Cfg) :
    (threadArgs c .precip).take 6 = (serialArgs c .precip).take 6 := by
  simp [threadArgs, serialArgs]

/-- Relation between the serial driver's state `x` and the values `env` of the bodies run one after
the other, after the modules in `D` have run at date `t`. -/
structure Rel (c : Cfg) (F : Comp V σ) (t : Nat) (D : List Mod) (env : Var → Option V)
    (st : Mod → σ) (x : Ser V σ) : Prop where
  data : ∀ d, env (.data d) = some (F.row d t)
  vars : ∀ m ∈ D, ∀ q ∈ writes c m, env (.smrf q) = some (x.attr q)
  st : ∀ m ∈ serialOrder, st m = x.st m

/-- Variables read at a date by each module. -/
def readVars (c : Cfg) : Mod → List SVar
  | .shade => [.cosz, .azimuth]
  | m => (reads c m).filterMap fun | .smrf v => some v | _ => none

/-- The precipitation module does not look at the wind fields. -/
def IgnoresWind (F : Comp V σ) : Prop :=
  ∀ s t (l l' : List V), l.take 6 = l'.take 6 → F.f .precip s t l = F.f .precip s t l'

theorem rel_step (c : Cfg) (hc : Supported c) (hp : c.winstralPrecip = false) (F : Comp V σ)
    (hF : IgnoresWind F) (t : Nat) (D : List Mod) (env : Var → Option V) (st : Mod → σ)
    (x : Ser V σ) (R : Rel c F t D env st x) (m : Mod) (hm : m ∈ serialOrder) (hD : m ∉ D)
    (hdep : ∀ v ∈ readVars c m, ownerS v ∈ D) :
    ∃ y env', runProg env (body c F m (st m) t) = some (y, env') ∧
      Rel c F t (m :: D) env' (fun j => if j = m then y else st j) (serialCall c F t x m) := by
  -- availability of variables read
  have havail : ∀ v, v ∈ keys c → ownerS v ∈ D → env (.smrf v) = some (x.attr v) := by
    intro v hv hD
    exact R.vars _ hD v (keys_owner c hc.solarCloud hc.solarVeg v hv)
  -- frame: other modules' attributes are kept
  have hframe : ∀ j ∈ D, ∀ q ∈ writes c j, q ∉ writes c m := by
    intro j hj q hq hq'
    have h1 := writes_owner c j q hq
    have h2 := writes_owner c m q hq'
    exact hD (by rw [← h2, h1]; exact hj)
  have hgen : m ≠ .shade → body c F m (st m) t =
      (getAll (reads c m) (fun _ => none) fun env =>
        putAll ((writes c m).map .smrf)
            (outOf F (F.f m (st m) t ((threadArgs c m).map (Src.eval F env))).2)
            (.ret (F.f m (st m) t ((threadArgs c m).map (Src.eval F env))).1)) →
      serialCall c F t x m =
        (let r := F.f m (x.st m) t ((serialArgs c m).map fun
          | .data d => F.row d t
          | .var s => x.attr s
          | .none => F.nil)
        { st := fun j => if j = m then r.1 else x.st j
          attr := fun q => if q ∈ writes c m then r.2 q else x.attr q }) →
      ∃ y env', runProg env (body c F m (st m) t) = some (y, env') ∧
      Rel c F t (m :: D) env' (fun j => if j = m then y else st j) (serialCall c F t x m) := by
    intro hms hb hs
    have hrd : ∀ q ∈ reads c m, ∃ v, env q = some v ∧
        (∀ d, q = .data d → v = F.row d t) ∧ (∀ s, q = .smrf s → v = x.attr s) := by
      intro q hq
      obtain ⟨⟨j, hj⟩, -⟩ := reads_ok c hc m q hq
      cases q with
      | data d =>
        exact ⟨_, R.data d, by rintro d' h; cases h; rfl, by intro s h; cases h⟩
      | smrf v =>
        rw [mem_owned_smrf] at hj
        have hv : v ∈ readVars c m := by
          unfold readVars
          split
          · exact absurd rfl hms
          · simp only [List.mem_filterMap]; exact ⟨_, hq, rfl⟩
        refine ⟨_, havail v (writes_keys c j v hj) (hdep v hv), (by intro d h; cases h),
          by rintro s h; cases h; rfl⟩
      | dead =>
        exfalso
        unfold owned at hj
        split at hj <;> simp at hj
    rw [hb, runProg_getAll _ _ _ _ (fun q hq => (hrd q hq).imp fun _ h => h.1), runProg_putAll]
    refine ⟨_, _, rfl, ?_⟩
    -- the arguments agree
    have hargs : F.f m (st m) t ((threadArgs c m).map
          (Src.eval F fun q => if q ∈ reads c m then env q else none)) =
        F.f m (x.st m) t ((serialArgs c m).map fun
          | .data d => F.row d t
          | .var s => x.attr s
          | .none => F.nil) := by
      rw [R.st m hm]
      have hev : (threadArgs c m).map
          (Src.eval F fun q => if q ∈ reads c m then env q else none) =
          (threadArgs c m).map (fun
          | .data d => F.row d t
          | .var s => x.attr s
          | .none => F.nil) := by
        apply List.map_congr_left
        intro a ha
        cases a with
        | none => rfl
        | data d =>
          have hq := threadArgs_read c hc.winstral m _ ha _ rfl
          obtain ⟨v, h1, h2, -⟩ := hrd _ hq
          simp only [Src.eval, hq, if_true, h1, Option.getD_some]
          exact h2 d rfl
        | var s =>
          have hq := threadArgs_read c hc.winstral m _ ha _ rfl
          obtain ⟨v, h1, -, h2⟩ := hrd _ hq
          simp only [Src.eval, hq, if_true, h1, Option.getD_some]
          exact h2 s rfl
      rw [hev]
      by_cases hmp : m = .precip
      · subst hmp
        apply hF
        rw [← List.map_take, ← List.map_take, args_precip]
      · rw [args_eq c m hmp]
    rw [hargs, hs]
    constructor
    · intro d
      simp only [List.mem_map, reduceCtorEq, and_false, exists_false, if_false]
      exact R.data d
    · intro j hj q hq
      simp only [List.mem_map, Var.smrf.injEq, exists_eq_right]
      by_cases hqm : q ∈ writes c m
      · simp [hqm, outOf]
      · simp only [hqm, if_false]
        simp only [List.mem_cons] at hj
        rcases hj with rfl | hj
        · exact absurd hq hqm
        · exact R.vars j hj q hq
    · intro j hj
      by_cases hjm : j = m
      · subst hjm; simp
      · simp only [hjm, if_false]; exact R.st j hj
  have hdead : ∀ e : σ, ∀ p : Prog Var V σ, (if m = .precip ∧ c.winstralPrecip = true ∧
      c.winstralWind = false then (.get .dead fun _ => .ret e : Prog Var V σ) else p) = p := by
    intro e p
    rw [if_neg]
    rintro ⟨-, h, -⟩
    rw [hp] at h; cases h
  cases m with
  | shade =>
    have hc1 := havail .cosz (by simp [keys]) (hdep .cosz (by simp [readVars]))
    have hc2 := havail .azimuth (by simp [keys]) (hdep .azimuth (by simp [readVars]))
    have hst := R.st .shade hm
    simp only [body, runProg, hc1]
    have hrel : ∀ v : V, v = (if F.up (x.attr .cosz) then
            (F.f .shade (x.st .shade) t [x.attr .azimuth, x.attr .cosz]).2 .illumAng
           else F.nil) → Rel c F t (.shade :: D)
        (fun q' => if q' = .smrf .illumAng then some v else env q')
        (fun j => if j = .shade then st .shade else st j) (serialCall c F t x .shade) := by
      intro v hv
      constructor
      · intro d; simp [R.data d]
      · intro j hj q hq
        simp only [Var.smrf.injEq, serialCall]
        by_cases hqm : q = .illumAng
        · simp [hqm, hv]
        · simp only [hqm, if_false]
          simp only [List.mem_cons] at hj
          rcases hj with rfl | hj
          · simp [writes] at hq; exact absurd hq hqm
          · exact R.vars j hj q hq
      · intro j hj
        simp only [serialCall]
        rw [← R.st j hj]
        split
        · subst_vars; rfl
        · rfl
    by_cases hup : F.up (x.attr .cosz) = true
    · simp only [hup, if_true, runProg, hc2]
      refine ⟨_, _, rfl, hrel _ ?_⟩
      rw [hst, if_pos hup]
    · simp only [hup, if_false, runProg]
      refine ⟨_, _, rfl, hrel _ ?_⟩
      rw [if_neg hup]
  | load => simp [serialOrder] at hm
  | output => simp [serialOrder] at hm
  | sun => exact hgen (by simp) (by simp [body, reads, getAll, threadArgs]) rfl
  | airTemp => exact hgen (by simp) (by simp only [body, hdead]) rfl
  | vaporPressure => exact hgen (by simp) (by simp only [body, hdead]) rfl
  | wind => exact hgen (by simp) (by simp only [body, hdead]) rfl
  | precip => exact hgen (by simp) (by simp [body, hp]) rfl
  | albedo => exact hgen (by simp) (by simp only [body, hdead]) rfl
  | cloudFactor => exact hgen (by simp) (by simp only [body, hdead]) rfl
  | solar => exact hgen (by simp) (by simp only [body, hdead]) rfl
  | thermal => exact hgen (by simp) (by simp only [body, hdead]) rfl

/-- Dependencies are met along an order. -/
def Ordered (c : Cfg) : List Mod → List Mod → Prop
  | _, [] => True
  | D, m :: ms => m ∈ serialOrder ∧ m ∉ D ∧ (∀ v ∈ readVars c m, ownerS v ∈ D) ∧
      Ordered c (m :: D) ms

theorem ordered_serial (c : Cfg) (hp : c.winstralPrecip = false) :
    Ordered c [.load] serialOrder := by
  simp [Ordered, serialOrder, readVars, reads, hp, ownerS]

theorem rel_steps (c : Cfg) (hc : Supported c) (hp : c.winstralPrecip = false) (F : Comp V σ)
    (hF : IgnoresWind F) (N : Net Mod Var V σ) (hN : N.body = body c F) (t : Nat) (ms : List Mod)
    (rest : List Mod) :
    ∀ (D : List Mod) (env : Var → Option V) (st : Mod → σ) (x : Ser V σ),
      Rel c F t D env st x → Ordered c D ms →
      ∃ env' st', serialDate N t (ms ++ rest) st env = serialDate N t rest st' env' ∧
        Rel c F t (ms.reverse ++ D) env' st' (ms.foldl (serialCall c F t) x) := by
  induction ms with
  | nil => intro D env st x R _; exact ⟨env, st, rfl, R⟩
  | cons m ms ih =>
    intro D env st x R hO
    obtain ⟨h1, h2, h3, h4⟩ := hO
    obtain ⟨y, env1, hy, R1⟩ := rel_step c hc hp F hF t D env st x R m h1 h2 h3
    obtain ⟨env2, st2, h5, R2⟩ := ih _ _ _ _ R1 h4
    refine ⟨env2, st2, ?_, ?_⟩
    · simp only [List.cons_append, serialDate, hN, hy]
      exact h5
    · simpa using R2

/-- One date: all bodies in order agree with `distribute_single_timestep`. -/
theorem rel_date (c : Cfg) (hc : Supported c) (hp : c.winstralPrecip = false) (F : Comp V σ)
    (hF : IgnoresWind F) (N : Net Mod Var V σ) (hN : N.body = body c F) (t : Nat)
    (st : Mod → σ) (x : Ser V σ) (hst : ∀ m ∈ serialOrder, st m = x.st m) :
    ∃ st' env', serialDate N t netOrder st (fun _ => none) = some (st', env') ∧
      (∀ m ∈ serialOrder, st' m = (serialStep c F t x).st m) ∧
      (∀ q ∈ keys c, q ≠ .output → env' (.smrf q) = some ((serialStep c F t x).attr q)) := by
  -- data
  have R0 : Rel c F t [.load] (fun q => if q ∈ allData.map Var.data then
      some (dataOut F t q) else none)
      (fun j => if j = .load then st .load else st j) x := by
    constructor
    · intro d
      have : Var.data d ∈ allData.map Var.data := by cases d <;> simp [allData]
      simp [this, dataOut]
    · intro m hm q hq
      simp only [List.mem_singleton] at hm
      subst hm
      simp [writes] at hq
    · intro m hm
      rw [← hst m hm]
      split
      · subst_vars; rfl
      · rfl
  obtain ⟨env1, st1, h1, R1⟩ := rel_steps c hc hp F hF N hN t serialOrder [.output] _ _ _ _ R0
    (ordered_serial c hp)
  have hall : ∀ v ∈ keys c, v ≠ .output → env1 (.smrf v) = some ((serialStep c F t x).attr v) := by
    intro v hv hne
    have hown := keys_owner c hc.solarCloud hc.solarVeg v hv
    refine R1.vars (ownerS v) ?_ v hown
    cases v <;> first | exact absurd rfl hne | simp [ownerS, serialOrder]
  simp only [netOrder, serialDate, hN]
  simp only [body, runProg_putAll]
  rw [h1]
  simp only [serialDate, hN, body, hc.freq, Nat.mod_one, if_true]
  rw [runProg_getAll]
  · simp only [runProg]
    refine ⟨_, _, rfl, ?_, ?_⟩
    · intro m hm
      have : m ≠ .output := by rintro rfl; simp [serialOrder] at hm
      simp only [this, if_false]
      exact R1.st m hm
    · intro q hq hne
      simp only [Var.smrf.injEq, hne, if_false]
      exact hall q hq hne
  · intro q hq
    simp only [List.mem_map] at hq
    obtain ⟨v, hv, rfl⟩ := hq
    exact ⟨_, hall v (hc.outVars v hv).1 (hc.outVars v hv).2⟩

theorem rel_run (c : Cfg) (hc : Supported c) (hp : c.winstralPrecip = false) (F : Comp V σ)
    (hF : IgnoresWind F) (N : Net Mod Var V σ) (hN : N.body = body c F) (attr0 : SVar → V) (n : Nat) :
    ∃ st, serialRun N netOrder n = some st ∧
      ∀ m ∈ serialOrder, st m = (serialLoop c F ⟨N.init, attr0⟩ n).st m := by
  induction n with
  | zero => exact ⟨N.init, rfl, fun m _ => rfl⟩
  | succ n ih =>
    obtain ⟨st, h1, h2⟩ := ih
    obtain ⟨st', env', h3, h4, -⟩ := rel_date c hc hp F hF N hN n st _ h2
    refine ⟨st', ?_, h4⟩
    simp only [serialRun, h1, h3]

theorem rel_value (c : Cfg) (hc : Supported c) (hp : c.winstralPrecip = false) (F : Comp V σ)
    (hF : IgnoresWind F) (N : Net Mod Var V σ) (hN : N.body = body c F) (attr0 : SVar → V) (t : Nat)
    (q : SVar) (hq : q ∈ keys c) (hne : q ≠ .output) :
    serialValue N netOrder t (.smrf q) =
      some ((serialLoop c F ⟨N.init, attr0⟩ (t + 1)).attr q) := by
  obtain ⟨st, h1, h2⟩ := rel_run c hc hp F hF N hN attr0 t
  obtain ⟨st', env', h3, -, h5⟩ := rel_date c hc hp F hF N hN t st _ h2
  simp only [serialValue, h1, h3]
  exact h5 q hq hne

end Verif.Network
