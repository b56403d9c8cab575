import Verif.ThreadedLemmas
import Verif.RunChainProps

/-!
C132: a threaded run publishes the images of the serial run, leaves its files, and can always finish.
-/

namespace Verif.Threaded
open Verif.Network Verif.Pipeline

variable {ι D : Type} [Fintype ι]

/-! ### Specification -/

/-- The image that a reader makes of a value in a queue: `None` stands for zeros. -/
def content : Val ι D → Option (ι → ℝ)
  | .none => some fun _ => 0
  | .img a => some a
  | _ => Option.none

/-- The serial run of the job over `n` dates. -/
noncomputable def serial (J : Job ι D) (s : Run.State ι) (n : Nat) : Except Run.Err (List (Run.Out ι)) :=
  Run.run J.cfg J.fuel s ((List.range n).map J.input)

/-- The serial run of the job with its files. -/
noncomputable def serialFiles (J : Job ι D) (s : Run.State ι) (n : Nat) : Run.Files ι × Option Run.Err :=
  Run.runFiles J.cfg J.out J.fuel s ((List.range n).map J.input)

/-- C132 as stated: if the serial run of a job ends without error then the threaded run can always go on to its end,
and has then left the same files. -/
def C132_full : Prop :=
  ∀ (J : Job Unit ℝ) (winstral : Bool) (cap : Int) (s : Run.State Unit) (n : Nat) (fs : Run.Files Unit),
    0 < J.out.freq → J.cfg.ppt.winstral = false → serialFiles J s n = (fs, none) →
    ∀ st, Reach (threaded J winstral cap s n) st →
      (∃ st', Steps (threaded J winstral cap s n) st st' ∧ Finished (threaded J winstral cap s n) st') ∧
      (Finished (threaded J winstral cap s n) st → (st.thr .output).p = .ret (.files fs))

/-! ### Theorems -/

omit [Fintype ι] in
theorem content_value (o : Run.Out ι) (ho : ∀ v, o.solar v ≠ .unset) (v : Run.Name) :
    ∃ a, Run.image o v = .ok a ∧ content (value (D := D) o v) = some a := by
  cases v with
  | solar v =>
    have := ho v
    simp only [Run.image, value]
    cases e : o.solar v with
    | unset => exact absurd e this
    | none => exact ⟨_, rfl, rfl⟩
    | array a => exact ⟨_, rfl, rfl⟩
  | _ => exact ⟨_, rfl, rfl⟩

/-- In every reachable state of the threads, whatever their order, the value published for an output variable and date
is the image that the serial run computes for that date; and when the threads have finished every output variable of
every date has been published. Missing: winstral redistribution of precipitation (see `C10_wind_argument_fails`), other
frequencies and corrections (see below), steps that raise. -/
theorem C132_images_partial (J : Job ι D) (h : Runs J) (winstral : Bool) (cap : Int) (s : Run.State ι) (n : Nat)
    (os : List (Run.Out ι)) (hr : serial J s n = .ok os) (st : Pipeline.St Mod Network.Var (Val ι D) (Local ι))
    (hst : Reach (threaded J winstral cap s n) st) (v : Run.Name) (t : Nat) (ht : t < n) :
    ∃ (o : Run.Out ι) (a : ι → ℝ), os[t]? = some o ∧ Run.image o v = .ok a ∧
      (∀ x, Published st (.smrf (svar v)) t x → content x = some a) ∧
      (Finished (threaded J winstral cap s n) st → ∃ x, Published st (.smrf (svar v)) t x) := by
  obtain ⟨S, rfl, hS⟩ := ran J n s os hr
  have hlt : t < os.length := by rw [hS.length]; exact ht
  obtain ⟨a, h1, h2⟩ := content_value (D := D) os[t] (solar_set J h _ _ _ _ (hS.step t hlt)) v
  obtain ⟨g1, g2⟩ := C10_threaded_equals_serial_partial (options J.cfg J.out winstral cap) (supported J h winstral cap) h.winstral
    (comp J) (ignores J) (start (S 0)) (fun _ => .missing) _ (fun _ => Iff.rfl) n st hst
  have hk := svar_keys (options J.cfg J.out winstral cap) v
  refine ⟨os[t], a, List.getElem?_eq_getElem hlt, h1, fun x hx => ?_, fun hf => ⟨_, g2 hf _ hk.1 hk.2 t ht⟩⟩
  rw [g1 _ _ _ hk.2 hx, loop_value J h winstral cap n os S hS _ t hlt v]
  exact h2

/-- When the threads have finished the files are those of the serial run, which ends without error. Missing: as in
`C132_images_partial`. -/
theorem C132_files_partial (J : Job ι D) (h : Runs J) (winstral : Bool) (cap : Int) (s : Run.State ι) (n : Nat)
    (os : List (Run.Out ι)) (hr : serial J s n = .ok os) : ∃ fs, serialFiles J s n = (fs, none) ∧
    ∀ st, Reach (threaded J winstral cap s n) st → Finished (threaded J winstral cap s n) st →
      st.thr .output = ⟨n, .ret (.files fs)⟩ := by
  obtain ⟨S, rfl, hS⟩ := ran J n s os hr
  refine ⟨filesAt J os n, ?_, fun st hst hf => ?_⟩
  · have := loop_files J h n os S hS n 0 (by omega)
    unfold serialFiles Run.runFiles
    rw [List.length_map, List.length_range, List.range_eq_range']
    exact this
  · obtain ⟨m, h1, -, h3⟩ := serial_files J h winstral cap n os S hS (fun _ => .missing) n le_rfl
    rw [finished_state _ _ _ _ n m h1 st hst hf .output, h3]

/-- Every reachable state can go on to the end, and a state in which no thread can move is the end. Missing: as in
`C132_images_partial`. -/
theorem C132_completes_partial (J : Job ι D) (h : Runs J) (winstral : Bool) (cap : Int) (s : Run.State ι) (n : Nat)
    (st : Pipeline.St Mod Network.Var (Val ι D) (Local ι)) (hst : Reach (threaded J winstral cap s n) st) :
    (∃ st', Steps (threaded J winstral cap s n) st st' ∧ Finished (threaded J winstral cap s n) st') ∧
    ((¬ ∃ st', Step (threaded J winstral cap s n) st st') → Finished (threaded J winstral cap s n) st) :=
  C09_completes_partial (options J.cfg J.out winstral cap) (supported J h winstral cap) (comp J) (start s) _ (fun _ => Iff.rfl) n st hst

omit [Fintype ι] in
theorem expected_length (oc : Run.OutCfg ι) (hf : oc.freq = 1) (v : Run.Name) (os : List (Run.Out ι)) :
    ∀ k, (Run.expectedFrom oc v k os).length = os.length := by
  induction os with
  | nil => intro k; rfl
  | cons o os ih =>
    intro k
    rw [Run.expectedFrom, if_pos (by rw [hf, Nat.mod_one]), List.length_append, ih]
    simp [Nat.add_comm]

omit [Fintype ι] in
theorem expected_get (oc : Run.OutCfg ι) (hf : oc.freq = 1) (v : Run.Name) (os : List (Run.Out ι)) (t : Nat) :
    (Run.expected oc v os)[t]? = os[t]?.map fun o => (Stamp.stored ((t : ℤ) * oc.minutes), (Run.image o v).map (Run.masked oc.mask)) := by
  have key : ∀ (os : List (Run.Out ι)) (k t : Nat), (Run.expectedFrom oc v k os)[t]? =
      os[t]?.map fun o => (Stamp.stored (((k + t : Nat) : ℤ) * oc.minutes), (Run.image o v).map (Run.masked oc.mask)) := by
    intro os
    induction os with
    | nil => intro k t; rfl
    | cons o os ih =>
      intro k t
      rw [Run.expectedFrom, if_pos (by rw [hf, Nat.mod_one])]
      cases t with
      | zero => rfl
      | succ t =>
        rw [List.singleton_append, List.getElem?_cons_succ, List.getElem?_cons_succ, ih (k + 1) t]
        have : k + 1 + t = k + (t + 1) := by omega
        rw [this]
  rw [Run.expected_from, key os 0 t, Nat.zero_add]

/-- What the files of a finished threaded run hold: for every requested variable one record per date, with the time of
the date and the masked image of the serial run. Missing: as in `C132_images_partial`; requested twice; dates that do not
fit in single precision (C126). -/
theorem C132_records_partial (J : Job ι D) (h : Runs J) (winstral : Bool) (cap : Int) (s : Run.State ι) (n : Nat)
    (os : List (Run.Out ι)) (hr : serial J s n = .ok os) (hm : 0 < J.out.minutes) (hd : J.out.vars.Nodup)
    (hn : Stamp.Near 18 (n * J.out.minutes)) (st : Pipeline.St Mod Network.Var (Val ι D) (Local ι))
    (hst : Reach (threaded J winstral cap s n) st) (hf : Finished (threaded J winstral cap s n) st) :
    ∃ fs, (st.thr .output).p = .ret (.files fs) ∧ ∀ v ∈ J.out.vars, (fs v).length = n ∧
      ∀ t, t < n → ∃ o a, os[t]? = some o ∧ Run.image o v = .ok a ∧
        (fs v)[t]? = some (Stamp.stored ((t : ℤ) * J.out.minutes), Run.masked J.out.mask a) := by
  obtain ⟨fs, h1, h2⟩ := C132_files_partial J h winstral cap s n os hr
  obtain ⟨S, rfl, hS⟩ := ran J n s os hr
  have hok : ∀ o ∈ os, ∀ v, ∃ d, Run.image o v = .ok d := by
    intro o ho v
    obtain ⟨t, ht, rfl⟩ := List.getElem_of_mem ho
    obtain ⟨a, h1, -⟩ := content_value (D := D) os[t] (solar_set J h _ _ _ _ (hS.step t ht)) v
    exact ⟨a, h1⟩
  obtain ⟨fs', h3, -, h5⟩ := Run.C129_files J.cfg J.out J.fuel hm hd (S 0) _ os hr (by simpa using hn) (fun o ho v _ => hok o ho v)
  have : fs' = fs := by
    have := h1.symm.trans (show serialFiles J (S 0) n = (fs', none) from h3)
    exact (Prod.mk.inj this).1.symm
  subst this
  refine ⟨fs', by rw [h2 st hst hf], fun v hv => ?_⟩
  have e := h5 v hv
  have hget := fun t => expected_get J.out h.freq v os t
  rw [← e] at hget
  have hlen : (fs' v).length = n := by
    have := congrArg List.length e
    rw [List.length_map, Run.expected_from, expected_length J.out h.freq v, hS.length] at this
    exact this
  refine ⟨hlen, fun t ht => ?_⟩
  have hlt : t < os.length := by rw [hS.length]; exact ht
  obtain ⟨a, ha⟩ := hok os[t] (List.getElem_mem hlt) v
  refine ⟨os[t], a, List.getElem?_eq_getElem hlt, ha, ?_⟩
  have := hget t
  rw [List.getElem?_map, List.getElem?_eq_getElem hlt, List.getElem?_eq_getElem (by rw [hlen]; exact ht)] at this
  simp only [Option.map_some, Option.some.injEq, Prod.mk.injEq, ha, Except.map, Except.ok.injEq] at this
  rw [List.getElem?_eq_getElem (by rw [hlen]; exact ht)]
  exact congrArg some (Prod.ext this.1 this.2)

/-- With an output frequency above 1 the threaded run never ends (two dates or more), whatever the serial run does. -/
theorem C132_frequency_fails (J : Job ι D) (hf : 1 < J.out.freq) (winstral : Bool) (cap : Int) (s : Run.State ι) (n : Nat)
    (hn : 2 ≤ n) (st : Pipeline.St Mod Network.Var (Val ι D) (Local ι)) (hst : Reach (threaded J winstral cap s n) st) :
    ¬ Finished (threaded J winstral cap s n) st :=
  C09_frequency_fails (options J.cfg J.out winstral cap) hf (comp J) (start s) _ (fun _ => Iff.rfl) n hn hst

/-- With one of the two solar corrections off the threaded run never ends, whatever the serial run does. -/
theorem C132_corrections_fails (J : Job ι D)
    (hf : J.cfg.sun.solar.correctCloud = false ∨ J.cfg.sun.solar.correctVeg = false) (winstral : Bool) (cap : Int)
    (s : Run.State ι) (n : Nat) (hn : 1 ≤ n) (st : Pipeline.St Mod Network.Var (Val ι D) (Local ι))
    (hst : Reach (threaded J winstral cap s n) st) : ¬ Finished (threaded J winstral cap s n) st :=
  C09_solar_flags_fails (options J.cfg J.out winstral cap) hf (comp J) (start s) _ (fun _ => Iff.rfl) n hn hst

/-- A job: snow, a day and then nights, both corrections as given. -/
noncomputable def snowJob (b : Bool) (oc : Run.OutCfg Unit) (fuel : Nat) : Job Unit ℝ where
  cfg := { Run.stillCfg 1 with sun := { Solar.sampleSetup with solar :=
    { Solar.sampleSetup.solar with correctCloud := b, correctVeg := b } } }
  out := oc
  fuel := fuel
  input := fun t => if t = 0 then Run.snowyIn (1 / 2) else Run.snowyIn 0
  azimuth := fun _ => 180

theorem snow_runs (b : Bool) (oc : Run.OutCfg Unit) (n : Nat) :
    ∃ N os, serial (snowJob b oc N) Run.snowyState n = .ok os := by
  have hs : Run.Sound (snowJob b oc 0).cfg :=
    ⟨fun h => (by cases h), Run.snowy_sound.model, Run.snowy_sound.tol, Run.snowy_sound.vapor, Run.snowy_sound.airTemp,
      Run.snowy_sound.grain, Run.snowy_sound.decay, Run.snowy_sound.albedo, Run.snowy_sound.dem, Run.snowy_sound.sky⟩
  obtain ⟨N, os, h⟩ := Run.C125_no_abort_partial (snowJob b oc 0).cfg hs Run.snowyState
    ((List.range n).map (snowJob b oc 0).input) (by
      intro x hx
      obtain ⟨t, -, rfl⟩ := List.mem_map.1 hx
      refine ⟨?_, fun h0 => by cases h0⟩
      by_cases ht : t = 0
      · rw [ht]; exact (Run.snowy_meets _ (.inr rfl)).sun
      · simp only [snowJob, if_neg ht]
        exact (Run.snowy_meets _ (.inl le_rfl)).sun)
  exact ⟨N, os, h N le_rfl⟩

/-- The hypotheses hold of the job with both corrections, for any number of dates; a finished state is reached. -/
example (n : Nat) : ∃ N os, serial (snowJob true ⟨1, 60, [.airTemp, .solar .net, .percSnow], none⟩ N) Run.snowyState n = .ok os ∧
    Runs (snowJob true ⟨1, 60, [.airTemp, .solar .net, .percSnow], none⟩ N) ∧
    ∃ st, Reach (threaded (snowJob true ⟨1, 60, [.airTemp, .solar .net, .percSnow], none⟩ N) true 1 Run.snowyState n) st ∧
      Finished (threaded (snowJob true ⟨1, 60, [.airTemp, .solar .net, .percSnow], none⟩ N) true 1 Run.snowyState n) st := by
  obtain ⟨N, os, h⟩ := snow_runs true ⟨1, 60, [.airTemp, .solar .net, .percSnow], none⟩ n
  have hr : Runs (snowJob true ⟨1, 60, [.airTemp, .solar .net, .percSnow], none⟩ N) := ⟨rfl, rfl, rfl, rfl⟩
  obtain ⟨⟨st, h1, h2⟩, -⟩ := C132_completes_partial _ hr true 1 Run.snowyState n _ .init
  exact ⟨N, os, h, hr, st, h1.reach .init, h2⟩

theorem C132_fails : ¬ C132_full := by
  intro h
  obtain ⟨N, os, hr⟩ := snow_runs false ⟨1, 60, [.airTemp], none⟩ 1
  obtain ⟨fs, h1, -⟩ := Run.C129_files (snowJob false ⟨1, 60, [.airTemp], none⟩ N).cfg ⟨1, 60, [.airTemp], none⟩ N (by norm_num) (by decide)
    Run.snowyState _ os hr (by unfold Stamp.Near; norm_num) (by
      intro o _ v hv
      simp only [List.mem_cons, List.not_mem_nil, or_false] at hv
      subst hv
      exact ⟨_, rfl⟩)
  obtain ⟨⟨st, h2, h3⟩, -⟩ := h (snowJob false ⟨1, 60, [.airTemp], none⟩ N) true 1 Run.snowyState 1 fs Nat.one_pos rfl h1 _ .init
  exact C132_corrections_fails _ (.inl rfl) true 1 _ 1 le_rfl st (h2.reach .init) h3

end Verif.Threaded
