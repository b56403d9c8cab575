import Verif.Threaded
import Verif.NetworkEqProps
import Verif.RunFilesProps

/-! Helper lemmas for C132. -/

namespace Verif.Threaded
open Verif.Network Verif.Pipeline

variable {ι D : Type}

section net
variable {V σ : Type}

theorem serialDate_append {I Q : Type} [DecidableEq I] [DecidableEq Q] (N : Net I Q V σ) (t : Nat) (o1 o2 : List I) :
    ∀ (st : I → σ) (env : Q → Option V), serialDate N t (o1 ++ o2) st env =
      (serialDate N t o1 st env).bind fun r => serialDate N t o2 r.1 r.2 := by
  induction o1 with
  | nil => intro st env; rfl
  | cons i o1 ih =>
    intro st env
    simp only [List.cons_append, serialDate]
    cases runProg env (N.body i (st i) t) with
    | none => rfl
    | some r => exact ih _ _

theorem serialDate_other {I Q : Type} [DecidableEq I] [DecidableEq Q] (N : Net I Q V σ) (t : Nat) (i : I) (o : List I) (h : i ∉ o) :
    ∀ (st st' : I → σ) (env env' : Q → Option V), serialDate N t o st env = some (st', env') → st' i = st i := by
  induction o with
  | nil => intro st st' env env' e; simp only [serialDate, Option.some.injEq, Prod.mk.injEq] at e; rw [e.1]
  | cons j o ih =>
    intro st st' env env' e
    rw [List.mem_cons, not_or] at h
    simp only [serialDate] at e
    cases hp : runProg env (N.body j (st j) t) with
    | none => rw [hp] at e; cases e
    | some r =>
      rw [hp] at e
      have := ih h.2 _ _ _ _ e
      rw [this, if_neg h.1]

/-- The state of the output thread after a date of the bodies run one after the other. -/
theorem output_date (c : Network.Cfg) (hc : Supported c) (hp : c.winstralPrecip = false) (F : Comp V σ)
    (hF : IgnoresWind F) (N : Net Mod Network.Var V σ) (hN : N.body = body c F) (t : Nat)
    (st : Mod → σ) (x : Ser V σ) (hst : ∀ m ∈ serialOrder, st m = x.st m) :
    ∃ st' env', serialDate N t netOrder st (fun _ => none) = some (st', env') ∧
      (∀ m ∈ serialOrder, st' m = (serialStep c F t x).st m) ∧
      st' .output = (F.f .output (st .output) t (c.outVars.map fun v => (serialStep c F t x).attr v)).1 := by
  have R0 : Rel c F t [.load] (fun q => if q ∈ allData.map Network.Var.data then
      some (dataOut F t q) else none)
      (fun j => if j = .load then st .load else st j) x := by
    constructor
    · intro d
      have : Network.Var.data d ∈ allData.map Network.Var.data := by cases d <;> simp [allData]
      simp [this, dataOut]
    · intro m hm q hq
      simp only [List.mem_singleton] at hm
      subst hm
      simp [writes] at hq
    · intro m hm
      rw [← hst m hm]
      split
      · subst_vars; rfl
      · rfl
  obtain ⟨env1, st1, h1, R1⟩ := rel_steps c hc hp F hF N hN t serialOrder [] _ _ _ _ R0 (ordered_serial c hp)
  rw [List.append_nil] at h1
  simp only [serialDate] at h1
  have hout := serialDate_other N t .output serialOrder (by decide) _ _ _ _ h1
  have hall : ∀ v ∈ keys c, v ≠ .output → env1 (.smrf v) = some ((serialStep c F t x).attr v) := by
    intro v hv hne
    have hown := keys_owner c hc.solarCloud hc.solarVeg v hv
    refine R1.vars (ownerS v) ?_ v hown
    cases v <;> first | exact absurd rfl hne | simp [ownerS, serialOrder]
  simp only [netOrder, serialDate, hN]
  simp only [body, runProg_putAll]
  rw [serialDate_append, h1]
  simp only [Option.bind_some, serialDate, hN, body, hc.freq, Nat.mod_one, if_true]
  rw [runProg_getAll]
  · simp only [runProg]
    refine ⟨_, _, rfl, ?_, ?_⟩
    · intro m hm
      have : m ≠ .output := by rintro rfl; simp [serialOrder] at hm
      simp only [this, if_false]
      exact R1.st m hm
    · simp only [if_true]
      rw [hout]
      simp only [reduceCtorEq, if_false]
      congr 2
      apply List.map_congr_left
      intro v hv
      have hm : Network.Var.smrf v ∈ c.outVars.map Network.Var.smrf := List.mem_map_of_mem hv
      rw [if_pos hm, hall v (hc.outVars v hv).1 (hc.outVars v hv).2]
      rfl
  · intro q hq
    simp only [List.mem_map] at hq
    obtain ⟨v, hv, rfl⟩ := hq
    exact ⟨_, hall v (hc.outVars v hv).1 (hc.outVars v hv).2⟩

/-- A thread that has finished has the state of the run of the bodies one after the other. -/
theorem finished_state (c : Network.Cfg) (F : Comp V σ) (init : Mod → σ) (w : List SVar) (n : Nat) (st : Mod → σ)
    (hst : serialRun (net c F init w n) netOrder n = some st) (s : Pipeline.St Mod Network.Var V σ) (hr : Reach (net c F init w n) s)
    (hf : Finished (net c F init w n) s) (m : Mod) : s.thr m = ⟨n, .ret (st m)⟩ := by
  have W := net_single c F init w n
  obtain ⟨s2, hr2, hth, -⟩ := sim_run W netOrder netOrder_nodup netOrder_all n (le_refl n) st hst
  have hth' : s2.thr m = ⟨n, .ret (st m)⟩ := by
    rw [hth m]
    simp only [Net.start]
    rw [if_neg (by simp [net])]
  have e1 := hr.hist m
  have e2 : Hist (net c F init w n) m (s2.hist m) (s2.thr m) := by
    have := hr2.hist m
    exact this.forget
  have stuck : ∀ (th : Thr Network.Var V σ), th.t = n → (∃ y, th.p = .ret y) → ∀ a th', ¬ LStep (net c F init w n) m th a th' := by
    rintro ⟨t, p⟩ h1 ⟨y, h2⟩ a th' hl
    simp only at h1 h2
    subst h1 h2
    cases hl with
    | next _ _ h => exact absurd h (by simp [net])
  have grow : ∀ (l h : List (Act Network.Var V)) (th th' : Thr Network.Var V σ), Hist (net c F init w n) m h th →
      Hist (net c F init w n) m (l ++ h) th' → th.t = n → (∃ y, th.p = .ret y) → l = [] := by
    intro l
    induction l with
    | nil => intros; rfl
    | cons a l ih =>
      intro h th th' h1 h2 h3 h4
      rw [List.cons_append] at h2
      cases h2 with
      | cons h5 hl =>
        have := ih h th _ h1 h5 h3 h4
        subst this
        have := h1.det h5
        subst this
        exact absurd hl (stuck _ h3 h4 _ _)
  have t1 : (s.thr m).t = n := hf.1 m
  have p1 := (e1.fin).2 t1
  have heq : s.hist m = s2.hist m := by
    rcases compat W hr hr2 m with ⟨l, h⟩ | ⟨l, h⟩
    · rw [← h] at e2
      have := grow l _ _ _ e1 e2 t1 p1
      rw [← h, this]; rfl
    · rw [← h] at e1
      have := grow l _ _ _ e2 e1 (by rw [hth']) ⟨st m, by rw [hth']⟩
      rw [← h, this]; rfl
  rw [← hth']
  rw [← heq] at e2
  exact e1.det e2

end net

section calls
variable {V σ : Type}

/-- The value of an argument in the serial driver. -/
def arg (F : Comp V σ) (t : Nat) (x : Ser V σ) : Src → V
  | .data d => F.row d t
  | .var s => x.attr s
  | .none => F.nil

theorem call_eq (c : Network.Cfg) (F : Comp V σ) (t : Nat) (x : Ser V σ) (m : Mod) (hm : m ≠ .shade) :
    serialCall c F t x m = ⟨fun j => if j = m then (F.f m (x.st m) t ((serialArgs c m).map (arg F t x))).1 else x.st j,
      fun q => if q ∈ writes c m then (F.f m (x.st m) t ((serialArgs c m).map (arg F t x))).2 q else x.attr q⟩ := by
  have e : (fun a : Src => match a with
    | .data d => F.row d t
    | .var s => x.attr s
    | .none => F.nil) = arg F t x := by funext a; cases a <;> rfl
  unfold serialCall
  simp only [e]
  cases m <;> first | exact absurd rfl hm | rfl

theorem attr_other (c : Network.Cfg) (F : Comp V σ) (t : Nat) (x : Ser V σ) (m : Mod) (q : SVar) (h : ownerS q ≠ m) :
    (serialCall c F t x m).attr q = x.attr q := by
  by_cases hm : m = .shade
  · subst hm
    have : q ≠ .illumAng := by rintro rfl; exact h rfl
    simp only [serialCall, if_neg this]
  · rw [call_eq c F t x m hm]
    exact if_neg fun e => h (writes_owner c m q e)

theorem attr_own (c : Network.Cfg) (F : Comp V σ) (t : Nat) (x : Ser V σ) (m : Mod) (hm : m ≠ .shade) (q : SVar) (h : q ∈ writes c m) :
    (serialCall c F t x m).attr q = (F.f m (x.st m) t ((serialArgs c m).map (arg F t x))).2 q := by
  rw [call_eq c F t x m hm]
  exact if_pos h

theorem st_other (c : Network.Cfg) (F : Comp V σ) (t : Nat) (x : Ser V σ) (m j : Mod) (h : j ≠ m) :
    (serialCall c F t x m).st j = x.st j := by
  by_cases hm : m = .shade
  · subst hm; rfl
  · rw [call_eq c F t x m hm]
    exact if_neg h

theorem st_own (c : Network.Cfg) (F : Comp V σ) (t : Nat) (x : Ser V σ) (m : Mod) (hm : m ≠ .shade) :
    (serialCall c F t x m).st m = (F.f m (x.st m) t ((serialArgs c m).map (arg F t x))).1 := by
  rw [call_eq c F t x m hm]
  exact if_pos rfl

end calls

variable [Fintype ι]

/-- The value in the queue of an output variable, from the images of a step. -/
def value (o : Run.Out ι) : Run.Name → Val ι D
  | .airTemp => .img o.airTemp
  | .vapor => .img o.vapor
  | .dew => .img o.dew
  | .precipTemp => .img o.precipTemp
  | .windSpeed => .img o.wind
  | .precip => .img o.ppt.precip
  | .percSnow => .img o.ppt.perc
  | .snowDensity => .img o.ppt.den
  | .stormDays => .img o.ppt.days
  | .albedoVis => .img o.albedoVis
  | .albedoIr => .img o.albedoIr
  | .cloud => .img o.cloud
  | .thermal => .img o.thermal.thermal
  | .solar v => ofAttr (o.solar v)

/-- What the threads need of a job. -/
structure Runs (J : Job ι D) : Prop where
  freq : J.out.freq = 1
  cloud : J.cfg.sun.solar.correctCloud = true
  veg : J.cfg.sun.solar.correctVeg = true
  winstral : J.cfg.ppt.winstral = false

theorem svar_keys (c : Network.Cfg) (v : Run.Name) : svar v ∈ keys c ∧ svar v ≠ .output := by
  cases v with
  | solar v =>
    rcases v with ⟨b, k⟩ | ⟨b, k⟩ | ⟨b, k⟩ | _ <;> (try (cases b <;> cases k)) <;>
      simp [svar, keys, clearVars, cloudVars, vegVars]
  | _ => simp [svar, keys]

theorem supported (J : Job ι D) (h : Runs J) (ww : Bool) (cap : Int) : Supported (options J.cfg J.out ww cap) where
  freq := h.freq
  solarCloud := h.cloud
  solarVeg := h.veg
  winstral := by intro e; rw [show (options J.cfg J.out ww cap).winstralPrecip = J.cfg.ppt.winstral from rfl, h.winstral] at e; cases e
  outVars := by
    intro v hv
    obtain ⟨n, -, rfl⟩ := List.mem_map.1 hv
    exact svar_keys _ n

theorem ignores (J : Job ι D) : IgnoresWind (comp J) := by
  intro s t l l' h
  show call J .precip s t l = call J .precip s t l'
  rcases l with _ | ⟨a, _ | ⟨b, _ | ⟨d, l⟩⟩⟩ <;> rcases l' with _ | ⟨a', _ | ⟨b', _ | ⟨d', l'⟩⟩⟩ <;>
    simp only [List.take_nil, List.take_succ_cons, reduceCtorEq, List.cons.injEq, and_false] at h
  · rfl
  · rw [h.1]
  · rw [h.1, h.2.1]
  · obtain ⟨rfl, rfl, rfl, -⟩ := h
    cases s <;> cases a <;> cases b <;> cases d <;> rfl

theorem precip_wind (c : Run.Cfg ι D) (h : c.ppt.winstral = false) (x : Run.In ι D) (dew temp w w' : ι → ℝ) (s : Precip.PState ι) :
    Run.precipStep c x dew temp w s = Run.precipStep c x dew temp w' s := by
  unfold Run.precipStep
  simp only [h, Precip.pptStep, Bool.false_eq_true, false_and, if_false]

/-- One date of the serial driver over the network's modules is one step of the run. -/
theorem step_serial (J : Job ι D) (h : Runs J) (c : Network.Cfg) (hc : c.solarCloud = true) (hv : c.solarVeg = true) (t : Nat)
    (x : Ser (Val ι D) (Local ι)) (s s' : Run.State ι) (o : Run.Out ι)
    (hp : x.st .precip = .ppt s.ppt) (hs : x.st .solar = .solar s.solar)
    (hstep : Run.step J.cfg J.fuel s (J.input t) = .ok (s', o)) :
    (serialStep c (comp J) t x).st .precip = .ppt s'.ppt ∧
    (serialStep c (comp J) t x).st .solar = .solar s'.solar ∧
    ∀ v, (serialStep c (comp J) t x).attr (svar v) = value o v := by
  -- the step of the run
  unfold Run.step at hstep
  cases e1 : Run.vaporStep J.cfg J.fuel (J.input t).vapor (J.cfg.airTemp.cut (J.input t).airTemp) with
  | error e => simp only [e1, reduceCtorEq] at hstep
  | ok r1 =>
  obtain ⟨vp, dew, temp⟩ := r1
  simp only [e1] at hstep
  cases e2 : Run.precipStep J.cfg (J.input t) dew temp (J.cfg.wind.cut (J.input t).windSpeed) s.ppt with
  | error e => simp only [e2, reduceCtorEq] at hstep
  | ok ppt =>
  simp only [e2, Solar.timestep] at hstep
  cases e3 : Albedo.distribute J.cfg.sun.albedo J.cfg.sun.vegType (J.input t).time
      (Solar.illumination J.cfg.sun.shade (J.input t).cosz) ppt.days with
  | error e => simp only [e3, reduceCtorEq] at hstep
  | ok r3 =>
  obtain ⟨av, ai⟩ := r3
  simp only [e3] at hstep
  cases e4 : Solar.distribute J.cfg.sun.solar J.cfg.sun.topo J.cfg.sun.veg (J.input t).s0 (J.input t).hidden s.solar
      (J.cfg.cloud.cut (J.input t).cloud) (Solar.illumination J.cfg.sun.shade (J.input t).cosz) (J.input t).cosz
      (Solar.cells av) (Solar.cells ai) with
  | error e => simp only [e4, reduceCtorEq] at hstep
  | ok sol =>
  simp only [e4] at hstep
  cases e5 : Thermal.distribute J.cfg.thermal J.cfg.maps
      ⟨J.cfg.airTemp.cut (J.input t).airTemp, vp, dew, J.cfg.cloud.cut (J.input t).cloud⟩ with
  | error e => simp only [e5, reduceCtorEq] at hstep
  | ok th =>
  simp only [e5, Except.ok.injEq, Prod.mk.injEq] at hstep
  obtain ⟨rfl, rfl⟩ := hstep
  rw [precip_wind J.cfg h.winstral _ _ _ _ (fun _ => 0)] at e2
  -- the calls
  simp only [serialStep, serialOrder, List.foldl_cons, List.foldl_nil]
  obtain ⟨y1, hy1⟩ : ∃ y, y = serialCall c (comp J) t x .sun := ⟨_, rfl⟩
  obtain ⟨y2, hy2⟩ : ∃ y, y = serialCall c (comp J) t y1 .shade := ⟨_, rfl⟩
  obtain ⟨y3, hy3⟩ : ∃ y, y = serialCall c (comp J) t y2 .airTemp := ⟨_, rfl⟩
  obtain ⟨y4, hy4⟩ : ∃ y, y = serialCall c (comp J) t y3 .vaporPressure := ⟨_, rfl⟩
  obtain ⟨y5, hy5⟩ : ∃ y, y = serialCall c (comp J) t y4 .wind := ⟨_, rfl⟩
  obtain ⟨y6, hy6⟩ : ∃ y, y = serialCall c (comp J) t y5 .precip := ⟨_, rfl⟩
  obtain ⟨y7, hy7⟩ : ∃ y, y = serialCall c (comp J) t y6 .albedo := ⟨_, rfl⟩
  obtain ⟨y8, hy8⟩ : ∃ y, y = serialCall c (comp J) t y7 .cloudFactor := ⟨_, rfl⟩
  obtain ⟨y9, hy9⟩ : ∃ y, y = serialCall c (comp J) t y8 .solar := ⟨_, rfl⟩
  obtain ⟨y10, hy10⟩ : ∃ y, y = serialCall c (comp J) t y9 .thermal := ⟨_, rfl⟩
  simp only [← hy1, ← hy2, ← hy3, ← hy4, ← hy5, ← hy6, ← hy7, ← hy8, ← hy9, ← hy10]
  -- what carries over
  have a2 : ∀ q, ownerS q ≠ .shade → y2.attr q = y1.attr q := fun q e => by rw [hy2]; exact attr_other _ _ _ _ _ _ e
  have a3 : ∀ q, ownerS q ≠ .airTemp → y3.attr q = y2.attr q := fun q e => by rw [hy3]; exact attr_other _ _ _ _ _ _ e
  have a4 : ∀ q, ownerS q ≠ .vaporPressure → y4.attr q = y3.attr q := fun q e => by rw [hy4]; exact attr_other _ _ _ _ _ _ e
  have a5 : ∀ q, ownerS q ≠ .wind → y5.attr q = y4.attr q := fun q e => by rw [hy5]; exact attr_other _ _ _ _ _ _ e
  have a6 : ∀ q, ownerS q ≠ .precip → y6.attr q = y5.attr q := fun q e => by rw [hy6]; exact attr_other _ _ _ _ _ _ e
  have a7 : ∀ q, ownerS q ≠ .albedo → y7.attr q = y6.attr q := fun q e => by rw [hy7]; exact attr_other _ _ _ _ _ _ e
  have a8 : ∀ q, ownerS q ≠ .cloudFactor → y8.attr q = y7.attr q := fun q e => by rw [hy8]; exact attr_other _ _ _ _ _ _ e
  have a9 : ∀ q, ownerS q ≠ .solar → y9.attr q = y8.attr q := fun q e => by rw [hy9]; exact attr_other _ _ _ _ _ _ e
  have a10 : ∀ q, ownerS q ≠ .thermal → y10.attr q = y9.attr q := fun q e => by rw [hy10]; exact attr_other _ _ _ _ _ _ e
  have s5 : y5.st .precip = .ppt s.ppt := by
    rw [hy5, st_other _ _ _ _ _ _ (by decide), hy4, st_other _ _ _ _ _ _ (by decide), hy3, st_other _ _ _ _ _ _ (by decide),
      hy2, st_other _ _ _ _ _ _ (by decide), hy1, st_other _ _ _ _ _ _ (by decide), hp]
  have s8 : y8.st .solar = .solar s.solar := by
    rw [hy8, st_other _ _ _ _ _ _ (by decide), hy7, st_other _ _ _ _ _ _ (by decide), hy6, st_other _ _ _ _ _ _ (by decide),
      hy5, st_other _ _ _ _ _ _ (by decide), hy4, st_other _ _ _ _ _ _ (by decide), hy3, st_other _ _ _ _ _ _ (by decide),
      hy2, st_other _ _ _ _ _ _ (by decide), hy1, st_other _ _ _ _ _ _ (by decide), hs]
  have c1 : y1.attr .cosz = .num (J.input t).cosz := by
    rw [hy1, attr_own _ _ _ _ _ (by decide) _ (by simp [writes])]; rfl
  have c2 : ∃ v : Val ι D, y2.attr .illumAng = v ∧ v.angles = Solar.illumination J.cfg.sun.shade (J.input t).cosz := by
    rw [hy2]
    simp only [serialCall, if_true, c1]
    by_cases hz : 0 < (J.input t).cosz
    · have hu : (comp J).up (.num (J.input t).cosz) = true := decide_eq_true hz
      rw [if_pos hu]
      exact ⟨_, rfl, by rw [Solar.illumination, if_pos hz]; rfl⟩
    · have hu : ¬ (comp J).up (.num (J.input t).cosz) = true := by
        show ¬ decide _ = true
        simpa using hz
      rw [if_neg hu]
      exact ⟨_, rfl, by rw [Solar.illumination, if_neg hz]; rfl⟩
  obtain ⟨ill, c2, hill⟩ := c2
  have c3 : y3.attr .airTemp = .img (J.cfg.airTemp.cut (J.input t).airTemp) := by
    rw [hy3, attr_own _ _ _ _ _ (by decide) _ (by simp [writes])]; rfl
  have c4 : ∀ q ∈ [SVar.vaporPressure, .precipTemp, .dewPoint], y4.attr q = (call J .vaporPressure (y3.st .vaporPressure) t
      [.img (J.input t).vapor, .img (J.cfg.airTemp.cut (J.input t).airTemp)]).2 q := by
    intro q hq
    rw [hy4, attr_own _ _ _ _ _ (by decide) _ (by simpa [writes] using hq), ← c3]; rfl
  simp only [call, e1] at c4
  have c4v : y4.attr .vaporPressure = .img vp := c4 _ (by decide)
  have c4d : y4.attr .dewPoint = .img dew := c4 _ (by decide)
  have c4t : y4.attr .precipTemp = .img temp := c4 _ (by decide)
  have c5 : y5.attr .windSpeed = .img (J.cfg.wind.cut (J.input t).windSpeed) := by
    rw [hy5, attr_own _ _ _ _ _ (by decide) _ (by simp [writes])]; rfl
  have e6 : ∀ r, call J .precip (y5.st .precip) t (.row (J.input t).precip :: .img dew :: .img temp :: r) = (.ppt ppt, pptVar ppt) := by
    intro r
    rw [s5]
    simp only [call]
    rw [e2]
  have d5 : y5.attr .dewPoint = .img dew := by rw [a5 _ (by decide), c4d]
  have t5 : y5.attr .precipTemp = .img temp := by rw [a5 _ (by decide), c4t]
  have g6 : (comp J).f .precip (y5.st .precip) t ((serialArgs c .precip).map (arg (comp J) t y5)) = (.ppt ppt, pptVar ppt) := by
    simp only [serialArgs, List.map_cons, List.map_nil, arg, d5, t5]
    exact e6 _
  have c6 : ∀ q ∈ [SVar.precip, .percentSnow, .snowDensity, .stormDays], y6.attr q = pptVar ppt q := by
    intro q hq
    rw [hy6, attr_own _ _ _ _ _ (by decide) _ (by
      simp only [List.mem_cons, List.not_mem_nil, or_false] at hq
      rcases hq with rfl | rfl | rfl | rfl <;> simp [writes]), g6]
  have s6 : y6.st .precip = .ppt ppt := by rw [hy6, st_own _ _ _ _ _ (by decide), g6]
  have i6 : y6.attr .illumAng = ill := by
    rw [a6 _ (by decide), a5 _ (by decide), a4 _ (by decide), a3 _ (by decide), c2]
  have d6 : y6.attr .stormDays = .img ppt.days := c6 _ (by decide)
  have c7v : y7.attr .albedoVis = .img (Solar.cells av) := by
    rw [hy7, attr_own _ _ _ _ _ (by decide) _ (by simp [writes]), show (comp J).f = call J from rfl]
    simp only [serialArgs, List.map_cons, List.map_nil, arg, i6, d6, call]
    rw [hill, e3]
  have c7i : y7.attr .albedoIr = .img (Solar.cells ai) := by
    rw [hy7, attr_own _ _ _ _ _ (by decide) _ (by simp [writes]), show (comp J).f = call J from rfl]
    simp only [serialArgs, List.map_cons, List.map_nil, arg, i6, d6, call]
    rw [hill, e3]
  have c8 : y8.attr .cloudFactor = .img (J.cfg.cloud.cut (J.input t).cloud) := by
    rw [hy8, attr_own _ _ _ _ _ (by decide) _ (by simp [writes])]; rfl
  have i8 : y8.attr .illumAng = ill := by rw [a8 _ (by decide), a7 _ (by decide), i6]
  have z8 : y8.attr .cosz = .num (J.input t).cosz := by
    rw [a8 _ (by decide), a7 _ (by decide), a6 _ (by decide), a5 _ (by decide), a4 _ (by decide), a3 _ (by decide), a2 _ (by decide), c1]
  have v8 : y8.attr .albedoVis = .img (Solar.cells av) := by rw [a8 _ (by decide), c7v]
  have r8 : y8.attr .albedoIr = .img (Solar.cells ai) := by rw [a8 _ (by decide), c7i]
  have g9 : (comp J).f .solar (y8.st .solar) t ((serialArgs c .solar).map (arg (comp J) t y8)) = (.solar sol, solarVar sol) := by
    simp only [serialArgs, List.map_cons, List.map_nil, arg, i8, z8, v8, r8, c8, s8]
    rw [show (comp J).f = call J from rfl]
    simp only [call]
    rw [hill, e4]
  have c9 : ∀ q ∈ writes c .solar, y9.attr q = solarVar sol q := by
    intro q hq
    rw [hy9, attr_own _ _ _ _ _ (by decide) _ hq, g9]
  have s9 : y9.st .solar = .solar sol := by rw [hy9, st_own _ _ _ _ _ (by decide), g9]
  have t9 : y9.attr .airTemp = .img (J.cfg.airTemp.cut (J.input t).airTemp) := by
    rw [a9 _ (by decide), a8 _ (by decide), a7 _ (by decide), a6 _ (by decide), a5 _ (by decide), a4 _ (by decide), c3]
  have v9 : y9.attr .vaporPressure = .img vp := by
    rw [a9 _ (by decide), a8 _ (by decide), a7 _ (by decide), a6 _ (by decide), a5 _ (by decide), c4v]
  have d9 : y9.attr .dewPoint = .img dew := by
    rw [a9 _ (by decide), a8 _ (by decide), a7 _ (by decide), a6 _ (by decide), d5]
  have f9 : y9.attr .cloudFactor = .img (J.cfg.cloud.cut (J.input t).cloud) := by rw [a9 _ (by decide), c8]
  have c10 : y10.attr .thermal = .img th.thermal := by
    rw [hy10, attr_own _ _ _ _ _ (by decide) _ (by simp [writes])]
    simp only [serialArgs, List.map_cons, List.map_nil, arg, t9, v9, d9, f9]
    show (call J .thermal _ _ _).2 _ = _
    simp only [call]
    rw [e5]
  refine ⟨?_, ?_, ?_⟩
  · rw [hy10, st_other _ _ _ _ _ _ (by decide), hy9, st_other _ _ _ _ _ _ (by decide), hy8, st_other _ _ _ _ _ _ (by decide),
      hy7, st_other _ _ _ _ _ _ (by decide), s6]
  · rw [hy10, st_other _ _ _ _ _ _ (by decide), s9]
  · intro v
    cases v with
    | airTemp => exact (a10 _ (by decide)).trans t9
    | vapor => exact (a10 _ (by decide)).trans v9
    | dew => exact (a10 _ (by decide)).trans d9
    | precipTemp =>
      show y10.attr .precipTemp = _
      rw [a10 _ (by decide), a9 _ (by decide), a8 _ (by decide), a7 _ (by decide), a6 _ (by decide), t5]; rfl
    | windSpeed =>
      show y10.attr .windSpeed = _
      rw [a10 _ (by decide), a9 _ (by decide), a8 _ (by decide), a7 _ (by decide), a6 _ (by decide), c5]; rfl
    | precip =>
      show y10.attr .precip = _
      rw [a10 _ (by decide), a9 _ (by decide), a8 _ (by decide), a7 _ (by decide), c6 _ (by decide)]; rfl
    | percSnow =>
      show y10.attr .percentSnow = _
      rw [a10 _ (by decide), a9 _ (by decide), a8 _ (by decide), a7 _ (by decide), c6 _ (by decide)]; rfl
    | snowDensity =>
      show y10.attr .snowDensity = _
      rw [a10 _ (by decide), a9 _ (by decide), a8 _ (by decide), a7 _ (by decide), c6 _ (by decide)]; rfl
    | stormDays =>
      show y10.attr .stormDays = _
      rw [a10 _ (by decide), a9 _ (by decide), a8 _ (by decide), a7 _ (by decide), c6 _ (by decide)]; rfl
    | albedoVis =>
      show y10.attr .albedoVis = _
      rw [a10 _ (by decide), a9 _ (by decide), v8]; rfl
    | albedoIr =>
      show y10.attr .albedoIr = _
      rw [a10 _ (by decide), a9 _ (by decide), r8]; rfl
    | cloud => exact (a10 _ (by decide)).trans f9
    | thermal => exact c10
    | solar v =>
      rcases v with ⟨b, k⟩ | ⟨b, k⟩ | ⟨b, k⟩ | _ <;> (try (cases b <;> cases k)) <;>
        exact (a10 _ (by decide)).trans (c9 _ (by simp [writes, clearVars, vegVars, cloudVars, hc, hv, svar]))

/-- The states between the steps of a run. -/
theorem run_states (c : Run.Cfg ι D) (fuel : Nat) (xs : List (Run.In ι D)) : ∀ (s : Run.State ι) (os : List (Run.Out ι)),
    Run.run c fuel s xs = .ok os → os.length = xs.length ∧ ∃ S : Nat → Run.State ι, S 0 = s ∧
      ∀ t (h : t < xs.length) (h' : t < os.length), Run.step c fuel (S t) xs[t] = .ok (S (t + 1), os[t]) := by
  induction xs with
  | nil =>
    intro s os h
    rw [Run.run] at h
    cases h
    exact ⟨rfl, fun _ => s, rfl, fun t h => by cases h⟩
  | cons x xs ih =>
    intro s os h
    rw [Run.run] at h
    split at h
    · cases h
    · rename_i s' o hst
      split at h
      · cases h
      · rename_i os' hos
        cases h
        obtain ⟨hl, S, h0, hS⟩ := ih s' os' hos
        refine ⟨by simp [hl], fun t => match t with | 0 => s | t + 1 => S t, rfl, fun t h h' => ?_⟩
        cases t with
        | zero => simp only [List.getElem_cons_zero, h0]; exact hst
        | succ t =>
          simp only [List.getElem_cons_succ]
          exact hS t (by simpa using h) (by simpa using h')

/-- A run of a job of `n` dates. -/
structure Ran (J : Job ι D) (n : Nat) (os : List (Run.Out ι)) (S : Nat → Run.State ι) : Prop where
  length : os.length = n
  step : ∀ t (h : t < os.length), Run.step J.cfg J.fuel (S t) (J.input t) = .ok (S (t + 1), os[t])

theorem ran (J : Job ι D) (n : Nat) (s : Run.State ι) (os : List (Run.Out ι))
    (h : Run.run J.cfg J.fuel s ((List.range n).map J.input) = .ok os) : ∃ S, S 0 = s ∧ Ran J n os S := by
  obtain ⟨h1, S, h2, h3⟩ := run_states _ _ _ _ _ h
  rw [List.length_map, List.length_range] at h1
  refine ⟨S, h2, h1, fun t h => ?_⟩
  have := h3 t (by simpa using h1 ▸ h) h
  simpa using this

/-- The serial driver over the network's modules computes the run. -/
theorem loop_serial (J : Job ι D) (h : Runs J) (ww : Bool) (cap : Int) (n : Nat) (os : List (Run.Out ι)) (S : Nat → Run.State ι)
    (hr : Ran J n os S) (attr0 : SVar → Val ι D) (t : Nat) (ht : t ≤ n) :
    let y := serialLoop (options J.cfg J.out ww cap) (comp J) ⟨start (S 0), attr0⟩ t
    y.st .precip = .ppt (S t).ppt ∧ y.st .solar = .solar (S t).solar := by
  induction t with
  | zero => exact ⟨rfl, rfl⟩
  | succ t ih =>
    obtain ⟨h1, h2⟩ := ih (by omega)
    obtain ⟨h3, h4, -⟩ := step_serial J h (options J.cfg J.out ww cap) h.cloud h.veg t _ _ _ _ h1 h2 (hr.step t (by rw [hr.length]; omega))
    exact ⟨h3, h4⟩

theorem loop_value (J : Job ι D) (h : Runs J) (ww : Bool) (cap : Int) (n : Nat) (os : List (Run.Out ι)) (S : Nat → Run.State ι)
    (hr : Ran J n os S) (attr0 : SVar → Val ι D) (t : Nat) (ht : t < os.length) (v : Run.Name) :
    (serialLoop (options J.cfg J.out ww cap) (comp J) ⟨start (S 0), attr0⟩ (t + 1)).attr (svar v) = value os[t] v := by
  obtain ⟨h1, h2⟩ := loop_serial J h ww cap n os S hr attr0 t (by rw [← hr.length]; omega)
  exact (step_serial J h (options J.cfg J.out ww cap) h.cloud h.veg t _ _ _ _ h1 h2 (hr.step t ht)).2.2 v

/-- With both corrections no attribute of the solar module is unset after a step. -/
theorem solar_set (J : Job ι D) (h : Runs J) (s s' : Run.State ι) (x : Run.In ι D) (o : Run.Out ι)
    (hs : Run.step J.cfg J.fuel s x = .ok (s', o)) (v : Solar.Var) : o.solar v ≠ .unset := by
  have key : ∀ (st st' : Solar.Var → Solar.Attr ι) s0 hid cf ill z av ai,
      Solar.distribute J.cfg.sun.solar J.cfg.sun.topo J.cfg.sun.veg s0 hid st cf ill z av ai = .ok st' → st' v ≠ .unset := by
    intro st st' s0 hid cf ill z av ai e
    unfold Solar.distribute at e
    split at e
    · split at e
      · cases e
      · split at e
        · cases e
        · split at e
          · cases e
          · cases e
            cases v <;> simp [Solar.day, h.cloud, h.veg]
    · cases e
      simp
  unfold Run.step at hs
  simp only at hs
  split at hs
  · cases hs
  · split at hs
    · cases hs
    · split at hs
      · cases hs
      · rename_i e4
        split at hs
        · cases hs
        · cases hs
          unfold Solar.timestep at e4
          simp only at e4
          split at e4
          · cases e4
          · split at e4
            · cases e4
            · rename_i e5
              cases e4
              exact key _ _ _ _ _ _ _ _ _ e5

omit [Fintype ι] in
theorem write_value (mask : Option (ι → ℝ)) (m : ℤ) (o : Run.Out ι) (ho : ∀ v, o.solar v ≠ .unset) (vs : List Run.Name) :
    ∀ fs, Run.outputVars mask m o vs fs = (writeAll mask m (vs.zip (vs.map (value (D := D) o))) fs, none) := by
  induction vs with
  | nil => intro fs; rfl
  | cons v vs ih =>
    intro fs
    rw [Run.outputVars, List.map_cons, List.zip_cons_cons]
    cases v with
    | solar v =>
      have := ho v
      simp only [Run.image, value]
      cases e : o.solar v with
      | unset => exact absurd e this
      | none => simp only [Solar.written, ofAttr, writeAll]; exact ih _
      | array a => simp only [Solar.written, ofAttr, writeAll]; exact ih _
    | _ => simp only [Run.image, value, writeAll]; exact ih _

/-- The files after `t` dates. -/
noncomputable def filesAt (J : Job ι D) (os : List (Run.Out ι)) : Nat → Run.Files ι
  | 0 => fun _ => []
  | t + 1 => match os[t]? with
    | none => filesAt J os t
    | some o => (Run.outputVars J.out.mask (t * J.out.minutes) o J.out.vars (filesAt J os t)).1

theorem serial_files (J : Job ι D) (h : Runs J) (ww : Bool) (cap : Int) (n : Nat) (os : List (Run.Out ι)) (S : Nat → Run.State ι)
    (hr : Ran J n os S) (attr0 : SVar → Val ι D) (t : Nat) (ht : t ≤ n) :
    ∃ st, serialRun (threaded J ww cap (S 0) n) netOrder t = some st ∧
      (∀ m ∈ serialOrder, st m = (serialLoop (options J.cfg J.out ww cap) (comp J) ⟨start (S 0), attr0⟩ t).st m) ∧
      st .output = .files (filesAt J os t) := by
  induction t with
  | zero => exact ⟨start (S 0), rfl, fun _ _ => rfl, rfl⟩
  | succ t ih =>
    obtain ⟨st, h1, h2, h3⟩ := ih (by omega)
    obtain ⟨st', env', h4, h5, h6⟩ := output_date (options J.cfg J.out ww cap) (supported J h ww cap) h.winstral (comp J) (ignores J)
      (threaded J ww cap (S 0) n) rfl t st _ h2
    have hlt : t < os.length := by rw [hr.length]; omega
    refine ⟨st', by rw [serialRun, h1]; simp only [h4], h5, ?_⟩
    rw [h6, h3]
    have e : (options J.cfg J.out ww cap).outVars.map (fun v => (serialStep (options J.cfg J.out ww cap) (comp J) t
        (serialLoop (options J.cfg J.out ww cap) (comp J) ⟨start (S 0), attr0⟩ t)).attr v) = J.out.vars.map (value os[t]) := by
      show List.map _ (J.out.vars.map svar) = _
      rw [List.map_map]
      apply List.map_congr_left
      intro v _
      exact loop_value J h ww cap n os S hr attr0 t hlt v
    rw [e]
    show Local.files (writeAll _ _ _ _) = _
    rw [filesAt, List.getElem?_eq_getElem hlt]
    simp only
    rw [write_value (D := D) _ _ _ (solar_set J h _ _ _ _ (hr.step t hlt))]

theorem loop_files (J : Job ι D) (h : Runs J) (n : Nat) (os : List (Run.Out ι)) (S : Nat → Run.State ι) (hr : Ran J n os S)
    (m : Nat) : ∀ k, k + m = n →
    Run.loop J.cfg J.out J.fuel n k (S k) (filesAt J os k) ((List.range' k m).map J.input) = (filesAt J os n, none) := by
  induction m with
  | zero =>
    intro k e
    obtain rfl : k = n := by omega
    rfl
  | succ m ih =>
    intro k e
    have hlt : k < os.length := by rw [hr.length]; omega
    rw [List.range'_succ, List.map_cons, Run.loop, hr.step k hlt]
    simp only
    have : Run.output J.out n k os[k] (filesAt J os k) = (filesAt J os (k + 1), none) := by
      unfold Run.output
      rw [if_pos (by simp [Output.isOutput, h.freq, Nat.mod_one]), filesAt, List.getElem?_eq_getElem hlt]
      simp only
      rw [write_value (D := D) _ _ _ (solar_set J h _ _ _ _ (hr.step k hlt))]
    rw [this]
    exact ih (k + 1) (by omega)

end Verif.Threaded
