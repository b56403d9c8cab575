import Verif.Reread
import Verif.SplitProps
import Verif.DiskFloatProps
import Verif.RestartProps
import Verif.RunFilesProps

/-!
C158: a run that reads the storm clock from the files of an earlier run goes on as that run would have.
-/

namespace Verif.Reread
open Verif.Run Verif.Stamp
open Verif.RestartFloat (Precision)
open Verif.Split (Agree resume)

variable {ι D : Type} [Fintype ι]

/-- Claimed: a run that starts at step `K` of a first run and reads its clock gives, with any further data, the images of one run over the
first `K` steps and these data. -/
def C158_full (ι D : Type) [Fintype ι] : Prop := ∀ (p : Precision) (c : Cfg ι D) (oc : OutCfg ι) (fuel : Nat) (wrap : ι → ℝ) (s : State ι)
  (xs ys : List (In ι D)) (os qs : List (Out ι)) (K : Nat), c.ppt.grid = false → c.ppt.marks = true → c.ppt.timeStep = oc.minutes →
  0 < oc.minutes → 0 < oc.freq → oc.vars = [.stormDays] → Near 18 (xs.length * oc.minutes) →
  Run.run c fuel s xs = .ok os → 0 < K → K < xs.length → Run.run c fuel s (xs.take K ++ ys) = .ok qs →
  ∃ ps', second p c oc fuel wrap s xs (K * oc.minutes) ys = .ok ps' ∧ List.Forall₂ (Agree c) (qs.drop K) ps'

/-! ### Lemmas -/

theorem run_length (c : Cfg ι D) (fuel : Nat) (xs : List (In ι D)) : ∀ (s : State ι) (os : List (Out ι)), Run.run c fuel s xs = .ok os →
    os.length = xs.length := by
  induction xs with
  | nil => intro s os h; simp only [Run.run, Except.ok.injEq] at h; rw [← h]; rfl
  | cons x xs ih =>
    intro s os h
    rw [Run.run] at h
    split at h
    · cases h
    · split at h
      · cases h
      · rename_i t o _ _ ps h2
        simp only [Except.ok.injEq] at h
        rw [← h, List.length_cons, List.length_cons, ih _ _ h2]

/-- The records of the clock from step `k` on. -/
noncomputable def clocks (p : Precision) (oc : OutCfg ι) : Nat → List (Out ι) → List (ℚ × (ι → ℝ))
  | _, [] => []
  | k, o :: os => (if k % oc.freq = 0 then [(stored (k * oc.minutes), fun i => p.cast (masked oc.mask o.ppt.days i))] else []) ++
      clocks p oc (k + 1) os

omit [Fintype ι] in
theorem clocks_expected (p : Precision) (oc : OutCfg ι) (os : List (Out ι)) : ∀ k,
    (expectedFrom oc .stormDays k os).map (fun r => (r.1, r.2.map fun d i => p.cast (d i))) =
      (clocks p oc k os).map fun r => (r.1, (.ok r.2 : Except Solar.Err (ι → ℝ))) := by
  induction os with
  | nil => intro k; rfl
  | cons o os ih =>
    intro k
    rw [expectedFrom, clocks, List.map_append, List.map_append, ih]
    split <;> rfl

omit [Fintype ι] in
theorem ok_inj {l l' : List (ℚ × (ι → ℝ))}
    (h : l.map (fun r => (r.1, (.ok r.2 : Except Solar.Err (ι → ℝ)))) = l'.map fun r => (r.1, (.ok r.2 : Except Solar.Err (ι → ℝ)))) : l = l' := by
  refine List.map_injective_iff.2 ?_ h
  rintro ⟨a, b⟩ ⟨a', b'⟩ e
  simp only [Prod.mk.injEq, Except.ok.injEq] at e
  rw [e.1, e.2]

/-- The file of the clock. -/
theorem file_clocks (p : Precision) (c : Cfg ι D) (oc : OutCfg ι) (fuel : Nat) (hm : 0 < oc.minutes) (hd : oc.vars.Nodup) (s : State ι)
    (xs : List (In ι D)) (os : List (Out ι)) (h : Run.run c fuel s xs = .ok os) (hn : Near 18 (xs.length * oc.minutes))
    (ho : ∀ o ∈ os, ∀ v ∈ oc.vars, ∃ d, image o v = .ok d) (hv : .stormDays ∈ oc.vars) :
    (DiskFloat.runFiles p c oc fuel s xs).1 .stormDays = clocks p oc 0 os := by
  obtain ⟨fs, h1, -, h2⟩ := C129_files c oc fuel hm hd s xs os h hn ho
  rw [DiskFloat.C156_files, h1]
  apply ok_inj
  have h3 := h2 .stormDays hv
  rw [expected_from] at h3
  rw [← clocks_expected, ← h3]
  simp only [DiskFloat.rounded, List.map_map]
  rfl

theorem near_le {m n : ℤ} (h : Near 18 n) (h0 : 0 ≤ m) (h1 : m ≤ n) : Near 18 m := by
  unfold Near at *
  rw [abs_of_nonneg h0]
  rw [abs_of_nonneg (h0.trans h1)] at h
  exact h1.trans_lt h

/-- The record before that of step `K`, in the records from step `k` on. -/
theorem previous_clock (p : Precision) (oc : OutCfg ι) (hm : 0 < oc.minutes) (hf : 0 < oc.freq) (K : Nat) (hK : K % oc.freq = 0)
    (hq : (15 : ℤ) ∣ K * oc.minutes) (hn : Near 18 (K * oc.minutes)) (os : List (Out ι)) : ∀ (k : Nat) (prev : ι → ℝ), k ≤ K → K < k + os.length →
    (K < k + oc.freq → Restart.previous ((K * oc.minutes : ℤ) * 60000000) prev ((clocks p oc k os).map fun r => (decode r.1, r.2)) = prev) ∧
    ∀ o, k + oc.freq ≤ K → os[K - oc.freq - k]? = some o →
      Restart.previous ((K * oc.minutes : ℤ) * 60000000) prev ((clocks p oc k os).map fun r => (decode r.1, r.2)) =
        fun i => p.cast (masked oc.mask o.ppt.days i) := by
  induction os with
  | nil => intro k prev h1 h2; simp at h2; omega
  | cons o os ih =>
    intro k prev h1 h2
    rw [clocks]
    rcases Nat.lt_or_ge k K with hlt | hge
    · have h2' : K < k + 1 + os.length := by simp at h2; omega
      by_cases hk : k % oc.freq = 0
      · rw [if_pos hk, List.map_append, List.map_singleton, List.singleton_append, Restart.previous]
        have hne : decode (stored (k * oc.minutes)) ≠ (K * oc.minutes : ℤ) * 60000000 := by
          have hlt' : (k * oc.minutes : ℤ) < K * oc.minutes := by
            have : (k : ℤ) < K := by exact_mod_cast hlt
            have hm' : (0 : ℤ) < oc.minutes := by exact_mod_cast hm
            exact mul_lt_mul_of_pos_right this hm'
          exact decode_other _ _ (near_le hn (by positivity) hlt'.le) hlt'.ne
        rw [if_neg hne]
        have hle : k + oc.freq ≤ K := by
          obtain ⟨a, ha⟩ := Nat.dvd_of_mod_eq_zero hk
          obtain ⟨b, hb⟩ := Nat.dvd_of_mod_eq_zero hK
          have hab : a < b := by
            by_contra hc
            have := Nat.mul_le_mul_left oc.freq (not_lt.1 hc)
            omega
          have := Nat.mul_le_mul_left oc.freq hab
          rw [Nat.mul_succ] at this
          omega
        obtain ⟨i1, i2⟩ := ih (k + 1) (fun i => p.cast (masked oc.mask o.ppt.days i)) hlt h2'
        refine ⟨fun h => by omega, fun o' _ ho' => ?_⟩
        rcases Nat.lt_or_ge K (k + 1 + oc.freq) with h3 | h3
        · rw [i1 h3]
          have : K - oc.freq - k = 0 := by omega
          rw [this, List.getElem?_cons_zero, Option.some.injEq] at ho'
          rw [ho']
        · apply i2 o' h3
          have : K - oc.freq - k = (K - oc.freq - (k + 1)) + 1 := by omega
          rwa [this, List.getElem?_cons_succ] at ho'
      · rw [if_neg hk, List.nil_append]
        obtain ⟨i1, i2⟩ := ih (k + 1) prev hlt h2'
        refine ⟨fun h => i1 (by omega), fun o' h3 ho' => ?_⟩
        have h4 : k + oc.freq ≠ K := by
          intro e
          rw [← e, Nat.add_mod_right] at hK
          exact hk hK
        apply i2 o' (by omega)
        have : K - oc.freq - k = (K - oc.freq - (k + 1)) + 1 := by omega
        rwa [this, List.getElem?_cons_succ] at ho'
    · have hk : k = K := le_antisymm h1 hge
      subst hk
      rw [if_pos hK, List.map_append, List.map_singleton, List.singleton_append, Restart.previous, if_pos ((C126_decode _ hn).2 hq)]
      exact ⟨fun _ => rfl, fun _ h => by omega⟩

omit [Fintype ι] in
/-- No record decodes to another date. -/
theorem clocks_absent (p : Precision) (oc : OutCfg ι) (K : Nat) (hn : Near 18 (K * oc.minutes))
    (os : List (Out ι)) (hm : 0 < oc.minutes) : ∀ k, Near 18 ((k + os.length : ℕ) * oc.minutes) → (K < k ∨ k + os.length ≤ K ∨ K % oc.freq ≠ 0 ∨ ¬ (15 : ℤ) ∣ K * oc.minutes) →
    (K * oc.minutes : ℤ) * 60000000 ∉ ((clocks p oc k os).map fun r => (decode r.1, r.2)).map Prod.fst := by
  induction os with
  | nil => intro k _ _; simp [clocks]
  | cons o os ih =>
    intro k hl h
    have hm' : (0 : ℤ) < oc.minutes := by exact_mod_cast hm
    rw [clocks, List.map_append, List.map_append, List.mem_append, not_or]
    refine ⟨?_, ih (k + 1) (by simpa [Nat.add_assoc, Nat.add_comm 1] using hl) (by simp at h ⊢; omega)⟩
    split
    · rename_i hk
      simp only [List.map_singleton, List.mem_singleton]
      intro e
      have hkn : Near 18 (k * oc.minutes) := by
        apply near_le hl (by positivity)
        push_cast
        have : (0 : ℤ) ≤ (o :: os).length * oc.minutes := by positivity
        nlinarith
      by_cases hkK : k = K
      · subst hkK
        rcases h with h | h | h | h
        · exact absurd h (lt_irrefl _)
        · simp at h
        · exact h hk
        · exact h ((C126_decode _ hkn).1 e.symm)
      · refine decode_other _ _ hkn ?_ e.symm
        intro e2
        have := mul_right_cancel₀ hm'.ne' e2
        exact hkK (by exact_mod_cast this)
    · simp

/-! ### Theorems -/

/-- The clock a second run starts with, if it starts at an output step `K` of the first run after the first one, a number of whole quarters
of an hour after its start: that of the output step before, in the cells of the mask, rounded to the type of the file. -/
theorem C158_clock (p : Precision) (c : Cfg ι D) (oc : OutCfg ι) (fuel : Nat) (wrap : ι → ℝ) (s : State ι) (xs : List (In ι D)) (os : List (Out ι))
    (hm : 0 < oc.minutes) (hf : 0 < oc.freq) (hd : oc.vars.Nodup) (hv : .stormDays ∈ oc.vars) (h : Run.run c fuel s xs = .ok os)
    (ho : ∀ o ∈ os, ∀ v ∈ oc.vars, ∃ d, image o v = .ok d) (hn : Near 18 (xs.length * oc.minutes)) (K : Nat) (hK : K < xs.length)
    (hKf : K % oc.freq = 0) (hq : (15 : ℤ) ∣ K * oc.minutes) (h1 : oc.freq ≤ K) (o : Out ι) (hos : os[K - oc.freq]? = some o) :
    readClock wrap (K * oc.minutes) ((DiskFloat.runFiles p c oc fuel s xs).1 .stormDays) = fun i => p.cast (masked oc.mask o.ppt.days i) := by
  have hl := run_length c fuel xs s os h
  have hm' : (0 : ℤ) < oc.minutes := by exact_mod_cast hm
  have hnK : Near 18 (K * oc.minutes) := near_le hn (by positivity) (by
    have : (K : ℤ) ≤ xs.length := by exact_mod_cast hK.le
    exact mul_le_mul_of_nonneg_right this hm'.le)
  rw [file_clocks p c oc fuel hm hd s xs os h hn ho hv]
  exact (previous_clock p oc hm hf K hKf hq hnK os 0 wrap (Nat.zero_le _) (by omega)).2 o (by omega) (by simpa using hos)

/-- In all other cases but the first step the second run starts with zeros: a start after the last step, at a step that is not an output
step, or not a number of whole quarters of an hour after the start. -/
theorem C158_lost (p : Precision) (c : Cfg ι D) (oc : OutCfg ι) (fuel : Nat) (wrap : ι → ℝ) (s : State ι) (xs : List (In ι D)) (os : List (Out ι))
    (hm : 0 < oc.minutes) (hd : oc.vars.Nodup) (hv : .stormDays ∈ oc.vars) (h : Run.run c fuel s xs = .ok os)
    (ho : ∀ o ∈ os, ∀ v ∈ oc.vars, ∃ d, image o v = .ok d) (hn : Near 18 (xs.length * oc.minutes)) (K : Nat) (hnK : Near 18 (K * oc.minutes))
    (hK : xs.length ≤ K ∨ K % oc.freq ≠ 0 ∨ ¬ (15 : ℤ) ∣ K * oc.minutes) :
    readClock wrap (K * oc.minutes) ((DiskFloat.runFiles p c oc fuel s xs).1 .stormDays) = fun _ => 0 := by
  have hl := run_length c fuel xs s os h
  rw [file_clocks p c oc fuel hm hd s xs os h hn ho hv]
  exact Restart.previous_absent _ _ _ (clocks_absent p oc K hnK os hm 0 (by rw [Nat.zero_add, hl]; exact hn) (by rw [hl]; omega))

/-- With `mask_output` the clock outside the mask starts at 0. -/
theorem C158_mask_fails (p : Precision) (c : Cfg ι D) (oc : OutCfg ι) (fuel : Nat) (wrap : ι → ℝ) (s : State ι) (xs : List (In ι D)) (os : List (Out ι))
    (hm : 0 < oc.minutes) (hf : 0 < oc.freq) (hd : oc.vars.Nodup) (hv : .stormDays ∈ oc.vars) (h : Run.run c fuel s xs = .ok os)
    (ho : ∀ o ∈ os, ∀ v ∈ oc.vars, ∃ d, image o v = .ok d) (hn : Near 18 (xs.length * oc.minutes)) (K : Nat) (hK : K < xs.length)
    (hKf : K % oc.freq = 0) (hq : (15 : ℤ) ∣ K * oc.minutes) (h1 : oc.freq ≤ K) (M : ι → ℝ) (hM : oc.mask = some M) (i : ι) (hi : M i = 0) :
    readClock wrap (K * oc.minutes) ((DiskFloat.runFiles p c oc fuel s xs).1 .stormDays) i = 0 := by
  have hl := run_length c fuel xs s os h
  have hlt : K - oc.freq < os.length := by omega
  rw [C158_clock p c oc fuel wrap s xs os hm hf hd hv h ho hn K hK hKf hq h1 _ (List.getElem?_eq_getElem hlt), hM]
  simp only [masked, hi, mul_zero]
  cases p
  · exact DiskFloat.binary_zero 24
  · rfl

/-- With the model marks2017, an output of every step without a mask in double precision, and a start a number of whole quarters of an hour
after that of the first run, not later than its last step: the second run gives the images of a run over all the data, or fails as that
run fails. Missing: other models (C157), less frequent output (`C158_clock`: the clock is that of the output step before), masks
(`C158_mask_fails`), single precision (C154), other starts (`C158_lost`). -/
theorem C158_restart_partial (c : Cfg ι D) (hg : c.ppt.grid = false) (hmk : c.ppt.marks = true) (oc : OutCfg ι) (fuel : Nat) (wrap : ι → ℝ)
    (s : State ι) (xs : List (In ι D)) (os : List (Out ι)) (hm : 0 < oc.minutes) (hf : oc.freq = 1) (hmask : oc.mask = none)
    (hd : oc.vars.Nodup) (hv : .stormDays ∈ oc.vars) (h : Run.run c fuel s xs = .ok os) (ho : ∀ o ∈ os, ∀ v ∈ oc.vars, ∃ d, image o v = .ok d)
    (hn : Near 18 (xs.length * oc.minutes)) (K : Nat) (h0 : 0 < K) (hK : K < xs.length) (hq : (15 : ℤ) ∣ K * oc.minutes) (ys : List (In ι D)) :
    (∃ e, Run.run c fuel s (xs.take K ++ ys) = .error e ∧ second .double c oc fuel wrap s xs (K * oc.minutes) ys = .error e) ∨
    ∃ qs ps', Run.run c fuel s (xs.take K ++ ys) = .ok qs ∧ second .double c oc fuel wrap s xs (K * oc.minutes) ys = .ok ps' ∧
      List.Forall₂ (Agree c) (qs.drop K) ps' := by
  have hl := run_length c fuel xs s os h
  have hlt : K - 1 < os.length := by omega
  have hxt : xs.take K = xs.take (K - 1) ++ [xs[K - 1]] := by
    conv_lhs => rw [show K = K - 1 + 1 by omega]
    rw [List.take_succ_eq_append_getElem]
  have hot : os.take K = os.take (K - 1) ++ [os[K - 1]] := by
    conv_lhs => rw [show K = K - 1 + 1 by omega]
    rw [List.take_succ_eq_append_getElem]
  have hc : readClock wrap (K * oc.minutes) ((DiskFloat.runFiles .double c oc fuel s xs).1 .stormDays) = os[K - 1].ppt.days := by
    rw [C158_clock .double c oc fuel wrap s xs os hm (by omega) hd hv h ho hn K hK (by rw [hf]; exact Nat.mod_one _) hq (by omega) os[K - 1]
      (by rw [hf]; exact List.getElem?_eq_getElem hlt), hmask]
    rfl
  have hr : Run.run c fuel s (xs.take (K - 1) ++ [xs[K - 1]]) = .ok (os.take (K - 1) ++ [os[K - 1]]) := by
    rw [← hxt, ← hot]
    exact Causal.C137_prefix c fuel xs s os K h
  unfold second
  rw [hc, hxt, List.append_assoc, List.singleton_append]
  rcases Split.C157_split_partial c hg hmk fuel s (xs.take (K - 1)) ys xs[K - 1] (os.take (K - 1)) os[K - 1] hr with ⟨e, h1, h2⟩ | ⟨ps, ps', h1, h2, h3⟩
  · exact .inl ⟨e, h1, h2⟩
  · refine .inr ⟨_, ps', h1, h2, ?_⟩
    have : os.take (K - 1) ++ os[K - 1] :: ps = os.take K ++ ps := by rw [hot, List.append_assoc]; rfl
    rw [this, List.drop_left' (by rw [List.length_take]; omega)]
    exact h3

/-- One cell, steps of 20 minutes, model marks2017. -/
noncomputable def thirdCfg : Cfg Unit ℝ := { snowyCfg with ppt := ⟨false, true, false, false, 20, 1, 6⟩, nasde := "marks2017" }

/-- A dry night. -/
noncomputable def dryIn : In Unit ℝ := { snowyIn 0 with precip := 0, clipped := 0, storming := false }

/-- The clock in a file for every step. -/
def every (minutes : Nat) : OutCfg Unit := ⟨1, minutes, [.stormDays], none⟩

theorem third_sound : Sound thirdCfg :=
  ⟨fun h => (by cases h), .inr (.inr rfl), snowy_sound.tol, snowy_sound.vapor, snowy_sound.airTemp, snowy_sound.grain, snowy_sound.decay,
    snowy_sound.albedo, snowy_sound.dem, snowy_sound.sky⟩

theorem third_meets : Meets thirdCfg dryIn := ⟨(snowy_meets 0 (.inl le_rfl)).sun, fun h => by cases h⟩

theorem third_days (fuel : Nat) (s s' : State Unit) (o : Out Unit) (h : step thirdCfg fuel s dryIn = .ok (s', o)) :
    s'.ppt.days () = s.ppt.days () + 1 / 72 ∧ o.ppt.days () = s.ppt.days () + 1 / 72 := by
  obtain ⟨e, hl⟩ := step_linked _ _ _ _ _ _ h
  have hp := hl.precip
  simp only [precipStep, thirdCfg, snowyCfg, Precip.pptStep, Precip.marksStep, dryIn, snowyIn] at hp
  norm_num at hp
  rw [e, ← hp]
  norm_num

theorem every_ok (os : List (Out Unit)) (n : Nat) : ∀ o ∈ os, ∀ v ∈ (every n).vars, ∃ d, image o v = .ok d := by
  intro o _ v hv
  have : v = .stormDays := by simpa [every] using hv
  exact ⟨_, by rw [this]; rfl⟩

/-- C158 as stated is false: the first run has two dry steps of 20 minutes after a day without a storm. A second run from the second
step starts with 0 days. -/
theorem C158_fails : ¬ C158_full Unit ℝ := by
  intro h
  obtain ⟨N, s1, o1, h1⟩ := step_runs thirdCfg third_sound (resume fun _ => 1) _ third_meets
  obtain ⟨N', s2, o2, h2⟩ := step_runs thirdCfg third_sound s1 _ third_meets
  have g1 := h1 (max N N') (le_max_left _ _)
  have g2 := h2 (max N N') (le_max_right _ _)
  have hr : Run.run thirdCfg (max N N') (resume fun _ => 1) [dryIn, dryIn] = .ok [o1, o2] := by simp only [Run.run, g1, g2]
  obtain ⟨ps', e1, e2⟩ := h .double thirdCfg (every 20) (max N N') (fun _ => 0) (resume fun _ => 1) [dryIn, dryIn] [dryIn] [o1, o2] [o1, o2] 1
    rfl rfl (by norm_num [thirdCfg, every]) (by decide) (by decide) rfl (by decide) hr Nat.one_pos (by decide) hr
  have hz := C158_lost .double thirdCfg (every 20) (max N N') (fun _ => 0) (resume fun _ => 1) [dryIn, dryIn] [o1, o2] (by decide) (by decide)
    (by decide) hr (every_ok _ _) (by decide) 1 (by decide) (.inr (.inr (by decide)))
  unfold second at e1
  rw [hz, Run.run] at e1
  split at e1
  · cases e1
  · rename_i s3 o3 g3
    simp only [Run.run, Except.ok.injEq] at e1
    rw [← e1] at e2
    have h5 := (List.forall₂_cons.1 e2).1 .stormDays trivial
    have h9 : (Except.ok o2.ppt.days : Except Solar.Err (Unit → ℝ)) = .ok o3.ppt.days := h5
    have h8 := congrFun (Except.ok.inj h9) ()
    rw [(third_days _ _ _ _ g3).2, (third_days _ _ _ _ g2).2, (third_days _ _ _ _ g1).1] at h8
    norm_num [resume, Restart.initial] at h8

/-- With steps of a quarter of an hour (and the model's step left as it is) the same start finds the clock of the first step. -/
example : ∃ N os o, Run.run thirdCfg N (resume fun _ => 1) [dryIn, dryIn] = .ok os ∧ os[0]? = some o ∧ o.ppt.days () = 73 / 72 ∧
    readClock (fun _ => 0) 15 ((DiskFloat.runFiles .double thirdCfg (every 15) N (resume fun _ => 1) [dryIn, dryIn]).1 .stormDays) = o.ppt.days := by
  obtain ⟨N, s1, o1, h1⟩ := step_runs thirdCfg third_sound (resume fun _ => 1) _ third_meets
  obtain ⟨N', s2, o2, h2⟩ := step_runs thirdCfg third_sound s1 _ third_meets
  have g1 := h1 (max N N') (le_max_left _ _)
  have g2 := h2 (max N N') (le_max_right _ _)
  have hr : Run.run thirdCfg (max N N') (resume fun _ => 1) [dryIn, dryIn] = .ok [o1, o2] := by simp only [Run.run, g1, g2]
  refine ⟨max N N', [o1, o2], o1, hr, rfl, ?_, ?_⟩
  · rw [(third_days _ _ _ _ g1).2]
    norm_num [resume, Restart.initial]
  · have := C158_clock .double thirdCfg (every 15) _ (fun _ => 0) _ _ _ (by decide) (by decide) (by decide) (by decide) hr (every_ok _ _)
      (by decide) 1 (by decide) (by decide) (by decide) (by decide) o1 rfl
    exact this

end Verif.Reread
