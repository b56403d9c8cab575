import Verif.RunFiles
import Verif.RunProps
import Verif.SessionsProps

/-!
C129: the files of a run hold the images of its output steps.
-/

namespace Verif.Run
open Verif.Output Verif.Stamp

variable {ι D : Type} [Fintype ι]

/-! ### Specification -/

/-- The records that a file of `v` must have: one for every step whose index is a multiple of the frequency, in
order, with the time in hours (single precision) and the image of the step. -/
noncomputable def expected (oc : OutCfg ι) (v : Name) (os : List (Out ι)) : List (ℚ × Except Solar.Err (ι → ℝ)) :=
  ((List.range os.length).filter fun k => k % oc.freq = 0).filterMap fun (k : Nat) =>
    os[k]?.map fun o => (stored ((k : ℤ) * oc.minutes), (image o v).map (masked oc.mask))

/-! ### Lemmas -/

omit [Fintype ι] in
theorem vars_ok (mask : Option (ι → ℝ)) (m : ℤ) (o : Out ι) (vs : List Name) (hd : vs.Nodup)
    (ho : ∀ v ∈ vs, ∃ d, image o v = .ok d) (fs : Files ι) :
    ∃ fs', outputVars mask m o vs fs = (fs', none) ∧ (∀ v, v ∉ vs → fs' v = fs v) ∧
      ∀ v ∈ vs, ∀ d, image o v = .ok d → fs' v = writeSingle (fs v) (m, masked mask d) := by
  induction vs generalizing fs with
  | nil => exact ⟨fs, rfl, fun _ _ => rfl, fun v hv => by cases hv⟩
  | cons v vs ih =>
    obtain ⟨d, hd'⟩ := ho v (by simp)
    rw [List.nodup_cons] at hd
    obtain ⟨fs', h1, h2, h3⟩ := ih hd.2 (fun w hw => ho w (by simp [hw]))
      (fun w => if w = v then writeSingle (fs v) (m, masked mask d) else fs w)
    refine ⟨fs', ?_, fun w hw => ?_, fun w hw d' hw' => ?_⟩
    · rw [outputVars, hd']; exact h1
    · rw [List.mem_cons, not_or] at hw
      rw [h2 w hw.2, if_neg hw.1]
    · rcases List.mem_cons.1 hw with rfl | hw
      · rw [h2 w hd.1, if_pos rfl]
        rw [hd'] at hw'
        cases hw'
        rfl
      · have : w ≠ v := fun e => hd.1 (e ▸ hw)
        rw [h3 w hw d' hw', if_neg this]

theorem append_new {R : Type} (file : List (ℚ × R)) (m : ℤ) (hm : Near 18 m) (r : R)
    (hf : ∀ q ∈ file, ∃ m', Near 18 m' ∧ m' < m ∧ q.1 = stored m') : writeSingle file (m, r) = file ++ [(stored m, r)] := by
  unfold writeSingle
  have : findTime (rnd 24 (hours m)) file = none := by
    rw [Sessions.find_none]
    intro h
    obtain ⟨q, hq, e⟩ := List.mem_map.1 h
    obtain ⟨m', h1, h2, h3⟩ := hf q hq
    have : stored m' = stored m := by rw [← h3, e]; rfl
    have := (C126_order m' m h1 hm).2.1.1 this
    omega
  simp only [this]

/-- The part of `expected` from step `k`. -/
noncomputable def expectedFrom (oc : OutCfg ι) (v : Name) : Nat → List (Out ι) → List (ℚ × Except Solar.Err (ι → ℝ))
  | _, [] => []
  | k, o :: os => (if k % oc.freq = 0 then [(stored (k * oc.minutes), (image o v).map (masked oc.mask))] else []) ++
      expectedFrom oc v (k + 1) os

omit [Fintype ι] in
theorem expected_from (oc : OutCfg ι) (v : Name) (os : List (Out ι)) : expected oc v os = expectedFrom oc v 0 os := by
  have key : ∀ (os : List (Out ι)) (k : Nat),
      ((List.range' k os.length).filter fun j => j % oc.freq = 0).filterMap (fun (j : Nat) =>
        os[j - k]?.map fun o => (stored ((j : ℤ) * oc.minutes), (image o v).map (masked oc.mask))) = expectedFrom oc v k os := by
    intro os
    induction os with
    | nil => intro k; rfl
    | cons o os ih =>
      intro k
      rw [expectedFrom, ← ih (k + 1), List.length_cons, List.range'_succ, List.filter_cons]
      have e : ((List.range' (k + 1) os.length).filter fun j => j % oc.freq = 0).filterMap (fun (j : Nat) =>
          (o :: os)[j - k]?.map fun o => (stored ((j : ℤ) * oc.minutes), (image o v).map (masked oc.mask))) =
          ((List.range' (k + 1) os.length).filter fun j => j % oc.freq = 0).filterMap (fun (j : Nat) =>
            os[j - (k + 1)]?.map fun o => (stored ((j : ℤ) * oc.minutes), (image o v).map (masked oc.mask))) := by
        apply List.filterMap_congr
        intro j hj
        have hj := List.mem_of_mem_filter hj
        rw [List.mem_range'_1] at hj
        have : j - k = (j - (k + 1)) + 1 := by omega
        rw [this, List.getElem?_cons_succ]
      by_cases h : k % oc.freq = 0
      · rw [if_pos h, if_pos (by simp [h]), List.filterMap_cons]
        simp only [Nat.sub_self, List.getElem?_cons_zero, Option.map_some]
        rw [e]
        rfl
      · rw [if_neg h, if_neg (by simp [h]), e]
        rfl
  have := key os 0
  unfold expected
  rw [← this, List.range_eq_range']
  rfl

/-- What the loop does to the files, step by step. -/
theorem loop_ok (c : Cfg ι D) (oc : OutCfg ι) (fuel n : Nat) (hm : 0 < oc.minutes) (hd : oc.vars.Nodup) (xs : List (In ι D)) :
    ∀ (k : Nat) (s : State ι) (fs : Files ι) (os : List (Out ι)), run c fuel s xs = .ok os → k + xs.length ≤ n →
      Near 18 (n * oc.minutes) → (∀ o ∈ os, ∀ v ∈ oc.vars, ∃ d, image o v = .ok d) →
      (∀ v, ∀ q ∈ fs v, ∃ m', Near 18 m' ∧ m' < (k * oc.minutes : ℤ) ∧ q.1 = stored m') →
      ∃ fs', loop c oc fuel n k s fs xs = (fs', none) ∧ (∀ v, v ∉ oc.vars → fs' v = fs v) ∧
        ∀ v ∈ oc.vars, (fs' v).map (fun r => (r.1, (Except.ok r.2 : Except Solar.Err (ι → ℝ)))) =
          (fs v).map (fun r => (r.1, .ok r.2)) ++ expectedFrom oc v k os := by
  induction xs with
  | nil =>
    intro k s fs os h _ _ _ _
    rw [run] at h
    cases h
    refine ⟨fs, rfl, fun _ _ => rfl, fun v _ => ?_⟩
    rw [expectedFrom, List.append_nil]
  | cons x xs ih =>
    intro k s fs os h hk hn ho hf
    rw [run] at h
    split at h
    · cases h
    · rename_i s' o hst
      split at h
      · cases h
      · rename_i os' hos
        cases h
        rw [List.length_cons] at hk
        have hlt : (k * oc.minutes : ℤ) < ((k + 1 : ℕ) : ℤ) * oc.minutes := by
          have : (0 : ℤ) < oc.minutes := by exact_mod_cast hm
          push_cast
          linarith
        have hkn : Near 18 (k * oc.minutes : ℤ) := by
          unfold Near at *
          have h1 : (k * oc.minutes : ℤ) ≤ n * oc.minutes := by
            have : k * oc.minutes ≤ n * oc.minutes := Nat.mul_le_mul_right _ (by omega)
            exact_mod_cast this
          have h2 : (0 : ℤ) ≤ k * oc.minutes := by positivity
          rw [abs_of_nonneg h2]
          rw [abs_of_nonneg (by positivity)] at hn
          linarith
        rw [loop, hst]
        simp only
        have hout : isOutput oc.freq n k = decide (k % oc.freq = 0) := by
          unfold isOutput
          have : (k == n) = false := by
            rw [beq_eq_false_iff_ne]; omega
          rw [this, Bool.or_false]
          rfl
        by_cases hm0 : k % oc.freq = 0
        · obtain ⟨fs1, h1, h2, h3⟩ := vars_ok oc.mask (k * oc.minutes) o oc.vars hd (fun v hv => ho o (by simp) v hv) fs
          have e : output oc n k o fs = (fs1, none) := by
            unfold output
            rw [hout, if_pos (by simp [hm0])]
            exact h1
          rw [e]
          simp only
          have hfs1 : ∀ v ∈ oc.vars, ∀ d, image o v = .ok d → fs1 v = fs v ++ [(stored (k * oc.minutes), masked oc.mask d)] := by
            intro v hv d hd'
            rw [h3 v hv d hd']
            exact append_new _ _ hkn _ (hf v)
          obtain ⟨fs', g1, g2, g3⟩ := ih (k + 1) s' fs1 os' hos (by omega) hn (fun o' ho' => ho o' (by simp [ho'])) (by
            intro v q hq
            by_cases hv : v ∈ oc.vars
            · obtain ⟨d, hd'⟩ := ho o (by simp) v hv
              rw [hfs1 v hv d hd'] at hq
              rcases List.mem_append.1 hq with hq | hq
              · obtain ⟨m', a, b, e⟩ := hf v q hq
                exact ⟨m', a, b.trans hlt, e⟩
              · rw [List.mem_singleton] at hq
                exact ⟨k * oc.minutes, hkn, hlt, by rw [hq]⟩
            · rw [h2 v hv] at hq
              obtain ⟨m', a, b, e⟩ := hf v q hq
              exact ⟨m', a, b.trans hlt, e⟩)
          refine ⟨fs', g1, fun v hv => by rw [g2 v hv, h2 v hv], fun v hv => ?_⟩
          obtain ⟨d, hd'⟩ := ho o (by simp) v hv
          rw [g3 v hv, hfs1 v hv d hd', expectedFrom, if_pos hm0, hd']
          simp only [List.map_append, List.append_assoc]
          rfl
        · have e : output oc n k o fs = (fs, none) := by
            unfold output
            rw [hout, if_neg (by simp [hm0])]
          rw [e]
          simp only
          obtain ⟨fs', g1, g2, g3⟩ := ih (k + 1) s' fs os' hos (by omega) hn (fun o' ho' => ho o' (by simp [ho'])) (by
            intro v q hq
            obtain ⟨m', a, b, e⟩ := hf v q hq
            exact ⟨m', a, b.trans hlt, e⟩)
          refine ⟨fs', g1, g2, fun v hv => ?_⟩
          rw [g3 v hv, expectedFrom, if_neg hm0]
          rfl

theorem loop_append (c : Cfg ι D) (oc : OutCfg ι) (fuel n : Nat) (x : In ι D) (ys : List (In ι D)) (e : Err) (xs : List (In ι D)) :
    ∀ (k : Nat) (s : State ι) (fs fs' : Files ι) (os : List (Out ι)), run c fuel s xs = .ok os →
      run c fuel s (xs ++ [x]) = .error e → loop c oc fuel n k s fs xs = (fs', none) →
      loop c oc fuel n k s fs (xs ++ x :: ys) = (fs', some e) := by
  induction xs with
  | nil =>
    intro k s fs fs' os _ h hl
    rw [loop] at hl
    cases hl
    rw [List.nil_append, run] at h
    rw [List.nil_append, loop]
    split at h
    · rename_i e' he
      cases h
      simp only [he]
    · rename_i s' o ho
      rw [run] at h
      cases h
  | cons y xs ih =>
    intro k s fs fs' os h1 h2 hl
    rw [run] at h1
    rw [List.cons_append, run] at h2
    rw [loop] at hl
    rw [List.cons_append, loop]
    split at h1
    · cases h1
    · rename_i s' o hst
      simp only [hst] at h2 hl ⊢
      split at hl
      · cases hl
      · rename_i fs1 hout
        split at h1
        · cases h1
        · rename_i os' hos
          split at h2
          · rename_i e' he
            cases h2
            exact ih (k + 1) s' fs1 fs' os' hos he hl
          · cases h2

/-! ### What is true -/

/-- A run of any length that ends, into an empty directory, up to 2^18 hours: the file of every requested variable
has exactly the records of the steps whose index is a multiple of the frequency, in order, each with the image
that the step published (times the mask); nothing else is written. -/
theorem C129_files (c : Cfg ι D) (oc : OutCfg ι) (fuel : Nat) (hm : 0 < oc.minutes) (hd : oc.vars.Nodup) (s : State ι)
    (xs : List (In ι D)) (os : List (Out ι)) (h : run c fuel s xs = .ok os) (hn : Near 18 (xs.length * oc.minutes))
    (ho : ∀ o ∈ os, ∀ v ∈ oc.vars, ∃ d, image o v = .ok d) :
    ∃ fs, runFiles c oc fuel s xs = (fs, none) ∧ (∀ v, v ∉ oc.vars → fs v = []) ∧
      ∀ v ∈ oc.vars, (fs v).map (fun r => (r.1, .ok r.2)) = expected oc v os := by
  obtain ⟨fs, h1, h2, h3⟩ := loop_ok c oc fuel xs.length hm hd xs 0 s (fun _ => []) os h (by omega) hn ho (by simp)
  refine ⟨fs, h1, h2, fun v hv => ?_⟩
  rw [h3 v hv, expected_from]
  rfl

/-- A run that fails in some step leaves the files of the run that ends before this step. -/
theorem C129_abort (c : Cfg ι D) (oc : OutCfg ι) (fuel : Nat) (hm : 0 < oc.minutes) (hd : oc.vars.Nodup) (s : State ι)
    (xs ys : List (In ι D)) (x : In ι D) (os : List (Out ι)) (e : Err) (h : run c fuel s xs = .ok os)
    (he : run c fuel s (xs ++ [x]) = .error e) (hn : Near 18 ((xs ++ x :: ys).length * oc.minutes))
    (ho : ∀ o ∈ os, ∀ v ∈ oc.vars, ∃ d, image o v = .ok d) :
    ∃ fs, runFiles c oc fuel s (xs ++ x :: ys) = (fs, some e) ∧ (∀ v, v ∉ oc.vars → fs v = []) ∧
      ∀ v ∈ oc.vars, (fs v).map (fun r => (r.1, .ok r.2)) = expected oc v os := by
  obtain ⟨fs, h1, h2, h3⟩ := loop_ok c oc fuel (xs ++ x :: ys).length hm hd xs 0 s (fun _ => []) os h (by simp) hn ho (by simp)
  refine ⟨fs, loop_append c oc fuel _ x ys e xs 0 s _ fs os h he h1, h2, fun v hv => ?_⟩
  rw [h3 v hv, expected_from]
  rfl

/-- What a value of a variable in the files has to be: within the limits of the configuration, a fraction, not
negative; albedo and net solar may also be zero (night). Nothing is said of the other variables. -/
def Fine (c : Cfg ι D) : Name → ℝ → Prop
  | .airTemp, y => Within c.airTemp y
  | .vapor, y => Within c.vapor y
  | .windSpeed, y => Within c.wind y
  | .cloud, y => Within c.cloud y
  | .thermal, y => Within (thermalLimits c) y
  | .percSnow, y => 0 ≤ y ∧ y ≤ 1
  | .precip, y => 0 ≤ y
  | .stormDays, y => 0 ≤ y
  | .albedoVis, y => Within (albedoLimits c) y ∨ y = 0
  | .albedoIr, y => Within (albedoLimits c) y ∨ y = 0
  | .solar .net, y => Within (solarLimits c) y ∨ y = 0
  | _, _ => True

omit [Fintype ι] in
theorem expected_mem (oc : OutCfg ι) (v : Name) (os : List (Out ι)) (r : ℚ × Except Solar.Err (ι → ℝ)) (h : r ∈ expected oc v os) :
    ∃ o ∈ os, r.2 = (image o v).map (masked oc.mask) := by
  unfold expected at h
  obtain ⟨k, -, hk⟩ := List.mem_filterMap.1 h
  obtain ⟨o, ho, rfl⟩ := Option.map_eq_some_iff.1 hk
  exact ⟨o, List.mem_of_getElem? ho, rfl⟩

/-- Every value in the files of a run that ends is within the limits of its variable where the mask is one, and
zero where the mask is zero. -/
theorem C129_in_range (c : Cfg ι D) (hc : Sensible c) (oc : OutCfg ι) (fuel : Nat) (hm : 0 < oc.minutes) (hd : oc.vars.Nodup)
    (s : State ι) (hs : Physical s.ppt) (xs : List (In ι D)) (os : List (Out ι)) (h : run c fuel s xs = .ok os)
    (hn : Near 18 (xs.length * oc.minutes)) (ho : ∀ o ∈ os, ∀ v ∈ oc.vars, ∃ d, image o v = .ok d) :
    ∃ fs, runFiles c oc fuel s xs = (fs, none) ∧ ∀ v, ∀ r ∈ fs v, ∀ i,
      ((∀ m, oc.mask = some m → m i = 1) → Fine c v (r.2 i)) ∧
      ∀ m, oc.mask = some m → m i = 0 → r.2 i = 0 := by
  obtain ⟨fs, h1, h2, h3⟩ := C129_files c oc fuel hm hd s xs os h hn ho
  refine ⟨fs, h1, fun v r hr i => ?_⟩
  by_cases hv : v ∈ oc.vars
  · have hmem : ((r.1, .ok r.2) : ℚ × Except Solar.Err (ι → ℝ)) ∈ expected oc v os := by
      rw [← h3 v hv]
      exact List.mem_map.2 ⟨r, hr, rfl⟩
    obtain ⟨o, ho', e⟩ := expected_mem oc v os _ hmem
    obtain ⟨d, hd'⟩ := ho o ho' v hv
    rw [hd'] at e
    have er : r.2 = masked oc.mask d := by
      have : (Except.ok r.2 : Except Solar.Err (ι → ℝ)) = .ok (masked oc.mask d) := e
      exact Except.ok.inj this
    obtain ⟨x, hx⟩ : ∃ x, InRange c x o := by
      have := C125_in_range c hc fuel s hs xs os h
      obtain ⟨j, hj, rfl⟩ := List.getElem_of_mem ho'
      exact ⟨_, (List.forall₂_iff_get.1 this).2 j (by rw [(List.forall₂_iff_get.1 this).1]; exact hj) hj⟩
    constructor
    · intro hmask
      have e1 : r.2 i = d i := by
        rw [er]
        unfold masked
        cases hm' : oc.mask with
        | none => rfl
        | some m => simp only; rw [hmask m hm', mul_one]
      rw [e1]
      cases v with
      | airTemp => cases hd'; exact hx.airTemp i
      | vapor => cases hd'; exact hx.vapor i
      | dew => trivial
      | precipTemp => trivial
      | windSpeed => cases hd'; exact hx.wind i
      | precip => cases hd'; exact (hx.precip i).1
      | percSnow => cases hd'; exact ⟨(hx.precip i).2.1, (hx.precip i).2.2.1⟩
      | snowDensity => trivial
      | stormDays => cases hd'; exact (hx.precip i).2.2.2
      | albedoVis =>
        cases hd'
        rcases lt_or_ge 0 x.cosz with hz | hz
        · exact .inl (hx.albedo hz i).1
        · exact .inr ((hx.night hz).1 i).1
      | albedoIr =>
        cases hd'
        rcases lt_or_ge 0 x.cosz with hz | hz
        · exact .inl (hx.albedo hz i).2
        · exact .inr ((hx.night hz).1 i).2
      | cloud => cases hd'; exact hx.cloud i
      | thermal => cases hd'; exact hx.thermal i
      | solar w =>
        cases w with
        | net =>
          have hd2 : Solar.written (o.solar .net) = .ok d := hd'
          rcases lt_or_ge 0 x.cosz with hz | hz
          · obtain ⟨img, h1, h2⟩ := hx.net hz
            rw [h1] at hd2
            cases hd2
            exact .inl (h2 i)
          · have := (hx.night hz).2 .net
            rw [this] at hd2
            cases hd2
            exact .inr rfl
        | _ => trivial
    · intro m hm' h0
      rw [er]
      unfold masked
      rw [hm']
      simp only
      rw [h0, mul_zero]
  · rw [h2 v hv] at hr
    cases hr

/-- The hypotheses hold of the day and the night of `snowyCfg`: hourly steps, every second one written. -/
example : ∃ N fs, runFiles snowyCfg ⟨2, 60, [.airTemp, .solar .net], some fun _ => 1⟩ N snowyState [snowyIn (1 / 2), snowyIn 0, snowyIn 0] =
    (fs, none) ∧ (fs .airTemp).length = 2 := by
  have hmeets : ∀ x ∈ [snowyIn (1 / 2), snowyIn 0, snowyIn 0], Meets snowyCfg x := by
    intro x hx
    simp only [List.mem_cons, List.not_mem_nil, or_false] at hx
    rcases hx with rfl | rfl | rfl
    · exact snowy_meets _ (.inr rfl)
    · exact snowy_meets _ (.inl le_rfl)
    · exact snowy_meets _ (.inl le_rfl)
  obtain ⟨N, os, h⟩ := C125_no_abort_partial snowyCfg snowy_sound snowyState _ hmeets
  have hr := C125_in_range snowyCfg snowy_sensible N snowyState snowy_physical _ os (h N le_rfl)
  have hlen : os.length = 3 := by rw [← hr.length_eq]; rfl
  obtain ⟨fs, h1, -, h3⟩ := C129_files snowyCfg ⟨2, 60, [.airTemp, .solar .net], some fun _ => 1⟩ N (by norm_num) (by decide) snowyState
    _ os (h N le_rfl) (by unfold Near; norm_num) (by
      intro o ho v hv
      simp only [List.mem_cons, List.not_mem_nil, or_false] at hv
      rcases hv with rfl | rfl
      · exact ⟨_, rfl⟩
      · obtain ⟨j, hj, rfl⟩ := List.getElem_of_mem ho
        have hx := (List.forall₂_iff_get.1 hr).2 j (by rw [hr.length_eq]; exact hj) hj
        by_cases hz : 0 < ([snowyIn (1 / 2), snowyIn 0, snowyIn 0].get ⟨j, by rw [hr.length_eq]; exact hj⟩).cosz
        · obtain ⟨img, hi, -⟩ := hx.net hz
          exact ⟨img, hi⟩
        · exact ⟨_, (hx.night (not_lt.1 hz)).2 .net⟩)
  refine ⟨N, fs, h1, ?_⟩
  have := congrArg List.length (h3 .airTemp (by simp))
  rw [List.length_map, expected_from] at this
  rw [this]
  match os, hlen with
  | [a, b, d], _ => simp [expectedFrom]

end Verif.Run
