import Verif.OutAsked
import Verif.OutputProps

/-!
C135: a run delivers the output that the configuration offers.
-/

namespace Verif.OutAsked

/-- The variables that some module has. -/
def Producible (v : String) : Prop := ∃ m vs, (m, vs) ∈ catalogue ∧ v ∈ vs

/-- What a request means: the variables it names, and for `all` every variable. -/
def Meant (requested : List String) (v : String) : Prop := v ∈ requested ∧ v ≠ "all" ∨ "all" ∈ requested ∧ Producible v

/-- The claim of C135: for every request made of offered names and every file type that the writer chooses from, the run ends
without exception, with a file for each variable meant and with all steps of the frequency written. -/
def C135_full : Prop := ∀ (s : Section) (requested : List String) (n : Nat), 0 < s.frequency →
  (∀ v ∈ requested, v ∈ offered) → (s.fileType = "netcdf".toList ∨ s.fileType = "hru".toList ∧ s.outputType = some "csv".toList ∧
    s.hruFile = some true) →
  ∃ files written, run s requested n = (files, written, none) ∧ (∀ v, v ∈ files ↔ Meant requested v) ∧
    ∀ k, k ∈ written ↔ k < n ∧ k % s.frequency = 0

theorem offered_producible : ∀ v ∈ offered, v ≠ "all" → ∃ c ∈ catalogue, v ∈ c.2 := by
  decide +kernel

theorem steps_netcdf (f n : Nat) (hf : 0 < f) (m k : Nat) (h : k + m = n) :
    (steps .netcdf f n m k).2 = none ∧ ∀ j, j ∈ (steps .netcdf f n m k).1 ↔ k ≤ j ∧ j < n ∧ j % f = 0 := by
  induction m generalizing k with
  | zero =>
    refine ⟨rfl, fun j => ?_⟩
    simp only [steps, List.not_mem_nil, false_iff]
    omega
  | succ m ih =>
    obtain ⟨h1, h2⟩ := ih (k + 1) (by omega)
    simp only [steps, outputStep]
    rw [if_neg (by omega)]
    by_cases hk : k % f = 0
    · rw [if_pos (Or.inl hk)]
      refine ⟨h1, fun j => ?_⟩
      simp only [if_true, List.mem_cons, h2]
      constructor
      · rintro (rfl | h3)
        · exact ⟨le_refl _, by omega, hk⟩
        · exact ⟨by omega, h3.2.1, h3.2.2⟩
      · rintro ⟨h3, h4, h5⟩
        by_cases e : j = k
        · exact Or.inl e
        · exact Or.inr ⟨by omega, h4, h5⟩
    · rw [if_neg (by omega)]
      refine ⟨h1, fun j => ?_⟩
      simp only [Bool.false_eq_true, if_false, h2]
      constructor
      · rintro ⟨h3, h4, h5⟩; exact ⟨by omega, h4, h5⟩
      · rintro ⟨h3, h4, h5⟩
        refine ⟨?_, h4, h5⟩
        by_contra e
        have : j = k := by omega
        exact hk (this ▸ h5)

/-- C135: with the file type netCDF, however it is written, a request without `all` gives a file for each variable asked, and every
step whose number is a multiple of the frequency is written. Missing: `all`, and the file type HRU. -/
theorem C135_netcdf_partial (s : Section) (requested : List String) (n : Nat) (hf : 0 < s.frequency)
    (ht : s.fileType.map Char.toLower = "netcdf".toList) (hr : ∀ v ∈ requested, v ∈ offered) (ha : "all" ∉ requested) :
    ∃ files written, run s requested n = (files, written, none) ∧ (∀ v, v ∈ files ↔ Meant requested v) ∧ files.Nodup ∧
      ∀ k, k ∈ written ↔ k < n ∧ k % s.frequency = 0 := by
  obtain ⟨h1, h2⟩ := steps_netcdf s.frequency n hf n 0 (by omega)
  refine ⟨(Output.variableDict catalogue "" requested).map Prod.fst, (steps .netcdf s.frequency n n 0).1, ?_, ?_,
    Output.C15_each_once _ _ _, ?_⟩
  · simp only [run, initOutput, if_pos ht, h1]
  · intro v
    rw [Output.C15_exactly_requested_known]
    constructor
    · rintro ⟨h3, -⟩
      exact Or.inl ⟨h3, fun e => ha (e ▸ h3)⟩
    · rintro (⟨h3, h4⟩ | ⟨h3, -⟩)
      · obtain ⟨c, hc, hv⟩ := offered_producible v (hr v h3) h4
        exact ⟨h3, c.1, c.2, hc, hv⟩
      · exact absurd h3 ha
  · intro k
    rw [h2]
    exact ⟨fun h => ⟨h.2.1, h.2.2⟩, fun h => ⟨Nat.zero_le _, h.1, h.2⟩⟩

/-- C135: the default request gives a file for each of its variables. -/
theorem C135_defaults (s : Section) (n : Nat) (hf : 0 < s.frequency) (ht : s.fileType.map Char.toLower = "netcdf".toList) :
    ∃ files written, run s defaults n = (files, written, none) ∧ (∀ v, v ∈ files ↔ v ∈ defaults) ∧
      ∀ k, k ∈ written ↔ k < n ∧ k % s.frequency = 0 := by
  have hd : ∀ v ∈ defaults, v ∈ offered := by decide +kernel
  have ha : "all" ∉ defaults := by decide +kernel
  obtain ⟨files, written, h1, h2, -, h3⟩ := C135_netcdf_partial s defaults n hf ht hd ha
  refine ⟨files, written, h1, fun v => (h2 v).trans ?_, h3⟩
  constructor
  · rintro (h | h)
    · exact h.1
    · exact absurd h.1 ha
  · intro h
    exact Or.inl ⟨h, fun e => ha (e ▸ h)⟩

/-- C135 fails for `all`: the word adds nothing to any request, so that a request of `all` alone gives no file. -/
theorem C135_all_fails (s : Section) (pre post : List String) (n : Nat) :
    run s (pre ++ "all" :: post) n = run s (pre ++ post) n ∧ (run s ["all"] n).1 = [] := by
  have h : ∀ pre post, Output.variableDict catalogue "" (pre ++ "all" :: post) = Output.variableDict catalogue "" (pre ++ post) := by
    intro pre post
    apply Output.C15_unknown_ignored
    have : ∀ c ∈ catalogue, "all" ∉ c.2 := by decide +kernel
    exact fun m vs hm => this (m, vs) hm
  refine ⟨by simp only [run, h], ?_⟩
  have h0 := h [] []
  simp only [List.nil_append] at h0
  unfold run
  rw [h0]
  simp only [Output.variableDict, List.foldl_nil, List.length_nil, List.map_nil]
  split <;> rfl

/-- C135 fails for the file type HRU, however it is written and whatever else the section says: a run with at least one step ends
with an exception, before any step is written. -/
theorem C135_hru_fails (s : Section) (requested : List String) (n : Nat) (hn : 0 < n)
    (ht : s.fileType.map Char.toLower = "hru".toList) :
    ∃ files e, run s requested n = (files, [], some e) ∧ (0 < s.frequency → s.outputType = some "csv".toList →
      s.hruFile = some true → e = .attributeError) := by
  have h0 : ¬ s.fileType.map Char.toLower = "netcdf".toList := by
    rw [ht]
    decide
  simp only [run, initOutput, if_neg h0, if_pos ht]
  generalize (Output.variableDict catalogue "" requested) = d
  have hs : ∀ w, newHru s d.length = .ok w → ∃ e, steps w s.frequency n n 0 = ([], some e) ∧
      (0 < s.frequency → e = .attributeError) := by
    intro w hw
    have : w = .hru := by
      unfold newHru at hw
      split at hw
      · cases hw
      · split at hw
        · split at hw
          · cases hw
          · split at hw <;> cases hw
            rfl
        · split at hw
          · split at hw
            · cases hw
            · split at hw <;> cases hw
              rfl
          · cases hw
    subst this
    obtain ⟨m, rfl⟩ : ∃ m, n = m + 1 := ⟨n - 1, by omega⟩
    by_cases hf : s.frequency = 0
    · exact ⟨.zeroDivision, by simp [steps, outputStep, hf], fun h => by omega⟩
    · refine ⟨.attributeError, ?_, fun _ => rfl⟩
      rw [steps]
      simp [outputStep, hf]
  cases he : newHru s d.length with
  | error e =>
    refine ⟨[], e, rfl, fun _ h1 h2 => ?_⟩
    unfold newHru at he
    rw [h1] at he
    simp [h2] at he
  | ok w =>
    obtain ⟨e, h1, h2⟩ := hs w he
    refine ⟨d.map Prod.fst, e, ?_, fun h _ _ => h2 h⟩
    simp only [h1]

/-- C135: any other file type is refused before anything is computed. -/
theorem C135_type (s : Section) (requested : List String) (n : Nat) (h1 : s.fileType.map Char.toLower ≠ "netcdf".toList)
    (h2 : s.fileType.map Char.toLower ≠ "hru".toList) : run s requested n = ([], [], some .fileType) := by
  simp only [run, initOutput, if_neg h1, if_neg h2]

/-- Two known variables and an unknown one, every second of five steps. -/
example : run ⟨"NetCDF".toList, none, none, 2⟩ ["precip", "foo", "air_temp"] 5 = (["precip", "air_temp"], [0, 2, 4], none) := by
  decide +kernel

example : run ⟨"netcdf".toList, none, none, 1⟩ ["all"] 3 = ([], [0, 1, 2], none) := by decide +kernel

example : run ⟨"HRU".toList, some "csv".toList, some true, 1⟩ ["precip"] 3 = (["precip"], [], some .attributeError) := by
  decide +kernel

theorem C135_fails : ¬ C135_full := by
  intro h
  obtain ⟨files, written, h1, h2, -⟩ := h ⟨"netcdf".toList, none, none, 1⟩ ["all"] 1 (by decide) (by decide +kernel) (Or.inl rfl)
  have h3 := (C135_all_fails ⟨"netcdf".toList, none, none, 1⟩ [] [] 1).2
  rw [h1] at h3
  have := (h2 "air_temp").2 (Or.inr ⟨by simp, "air_temp", ["air_temp"], by simp [catalogue], by simp⟩)
  simp only at h3
  rw [h3] at this
  simp at this

end Verif.OutAsked
