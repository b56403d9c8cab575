import Verif.RunChain
import Verif.RunProps

/-!
C127: the images of a run fit together, step by step.
-/

namespace Verif.Run
open Verif.Vapor Verif.Twostream

variable {ι D : Type} [Fintype ι]

/-- In every run that ends, all images of every step fit together and follow from those of the step before. -/
theorem C127_linked (c : Cfg ι D) (fuel : Nat) (s : State ι) (xs : List (In ι D)) (os : List (Out ι))
    (h : run c fuel s xs = .ok os) : Chain c s xs os := run_chain c fuel s xs os h

theorem dewPoint_more (n k : Nat) (e meps tol : ℝ) (r : Dewpoint.Result) (h : Dewpoint.dewPoint n e meps tol = some r) :
    Dewpoint.dewPoint (n + k) e meps tol = some r := by
  unfold Dewpoint.dewPoint at *
  cases ha : Dewpoint.lowerLoop e n freeze with
  | none => rw [ha] at h; cases h
  | some a =>
    rw [ha] at h
    rw [Dewpoint.lowerLoop_mono e n k freeze a ha]
    cases hb : Dewpoint.upperLoop e n (freeze + 15) with
    | none => rw [hb] at h; cases h
    | some b =>
      rw [hb] at h
      rw [Dewpoint.upperLoop_mono e n k (freeze + 15) b hb]
      exact h

theorem chain_mem (c : Cfg ι D) (s : State ι) (xs : List (In ι D)) (os : List (Out ι)) (h : Chain c s xs os) (o : Out ι)
    (ho : o ∈ os) : ∃ p x, x ∈ xs ∧ Linked c p x o := by
  induction h with
  | nil => cases ho
  | cons s x o' xs os hl _ ih =>
    rcases List.mem_cons.1 ho with rfl | ho
    · exact ⟨s, x, by simp, hl⟩
    · obtain ⟨p, y, h1, h2⟩ := ih ho
      exact ⟨p, y, by simp [h1], h2⟩

/-- The published dew point is the temperature at which the published vapor pressure saturates, to within the
tolerance, or 0.2 degrees below the air temperature when that temperature is not below it. Missing: vapor
pressures below 20 Pa, see C43. -/
theorem C127_dew_partial (c : Cfg ι D) (ht : 1 / 10000 ≤ c.tol) (ht2 : c.tol ≤ 10) (fuel : Nat) (s : State ι)
    (xs : List (In ι D)) (os : List (Out ι)) (h : run c fuel s xs = .ok os) (o : Out ι) (ho : o ∈ os) (i : ι)
    (T : ℝ) (hT : 0 < T) (hT2 : T ≤ 1000) (hs : sat T = o.vapor i) (h20 : 20 ≤ o.vapor i)
    (hv : o.vapor i ≤ 3 / 2 * Vapor.seaLevel) :
    (o.dew i < o.airTemp i ∧ |o.dew i + freeze - T| < 2 * (eps * |o.dew i + freeze| + c.tol)) ∨
    (o.dew i = o.airTemp i - 2 / 10 ∧ o.airTemp i + freeze < T + 2 * (eps * 1000 + c.tol)) := by
  obtain ⟨p, x, -, hl⟩ := chain_mem c s xs os (run_chain c fuel s xs os h) o ho
  obtain ⟨n, r, h1, h2⟩ := hl.dew i
  obtain ⟨N, y, h3, h4⟩ := Dewpoint.C43_range_partial T c.tol hT hT2 (hs ▸ h20) (hs ▸ hv) ht ht2
  obtain ⟨N', a, b, y', b0, b1, b2, b3, -, -, b4⟩ := Dewpoint.C43_found (o.vapor i) c.tol (by linarith) hv ht
  have ey : y' = y := by
    have e1 := (b4 (max N N') (le_max_right _ _)).2.2
    have e2 := h3 (max N N') (le_max_left _ _)
    rw [hs, e1] at e2
    simpa using e2
  have er : r = y - freeze := by
    unfold dewCelsius at h1
    cases hd : Dewpoint.dewPoint n (o.vapor i) eps c.tol with
    | none => rw [hd] at h1; cases h1
    | some q =>
      rw [hd] at h1
      have e1 := dewPoint_more n N _ _ _ _ hd
      have e2 := h3 (n + N) (by omega)
      unfold eps at e1
      rw [hs, e1] at e2
      simp only [Option.some.injEq] at e2
      rw [e2] at h1
      simp only [Option.map_some, Option.some.injEq] at h1
      exact h1.symm
  rw [ey] at b1 b2
  by_cases hc : o.airTemp i ≤ r
  · right
    rw [if_pos hc] at h2
    refine ⟨h2, ?_⟩
    have h5 : |y| ≤ 1000 := by rw [abs_of_pos (by linarith)]; linarith
    rw [abs_lt] at h4
    have h6 : 22204460492503131 / 10 ^ 32 * |y| ≤ eps * 1000 := by
      unfold eps
      exact mul_le_mul_of_nonneg_left h5 (by norm_num)
    rw [er] at hc
    linarith [h4.2]
  · left
    rw [if_neg hc] at h2
    rw [h2, er]
    refine ⟨by rw [← er]; exact not_le.1 hc, ?_⟩
    rw [sub_add_cancel]
    exact h4

/-- With the wet-bulb method the published precipitation temperature solves the psychrometric equation of the
published air temperature and dew point, at the pressure of the standard atmosphere, to within the tolerance or
the last correction, whichever is larger, and lies between dew point and air temperature up to the same
distance. Missing: as in `C44_returns_partial`. -/
theorem C127_wet_partial (c : Cfg ι D) (hw : c.wet = true) (ht : 7 / 1000 ≤ c.tol) (ht2 : c.tol < 1) (fuel : Nat) (s : State ι)
    (xs : List (In ι D)) (os : List (Out ι)) (h : run c fuel s xs = .ok os) (o : Out ι) (ho : o ∈ os) (i : ι)
    (hdew : 199 ≤ o.dew i + freeze) (hair : o.airTemp i ≤ 47) (hz : c.maps.dem i ≤ 5500) :
    ∃ last, last ≤ c.tol ∧
      WetBulb.Solves (o.airTemp i + freeze) (o.dew i + freeze)
        (hysat Vapor.seaLevel stdAirtmp stdLapse (c.maps.dem i / 1000) gravity molAir) (o.precipTemp i + freeze)
        (max c.tol |last|) ∧
      o.dew i - max c.tol |last| < o.precipTemp i ∧ o.precipTemp i < o.airTemp i + max c.tol |last| := by
  obtain ⟨p, x, -, hl⟩ := chain_mem c s xs os (run_chain c fuel s xs os h) o ho
  obtain ⟨last, k, e⟩ := hl.wet hw i
  obtain ⟨n, r, -, h2⟩ := hl.dew i
  have hlt : o.dew i < o.airTemp i := by
    rw [h2]
    split
    · linarith
    · rename_i hh; exact not_le.1 hh
  obtain ⟨ti, last', n', q1, -, -, q2, q3, q4, q5⟩ := WetBulb.C44_returns_partial (o.airTemp i + freeze) (o.dew i + freeze) _
    c.tol hdew (by linarith) (by unfold freeze; linarith) (pressure_ge _ hz) ht ht2
  rw [e] at q1
  cases q1
  exact ⟨last, q2, q3, by linarith, by linarith⟩

/-- In a run without precipitation the days since the last storm are those at the start plus the time passed,
in every cell and step, and nothing falls. -/
theorem C127_dry_spell (c : Cfg ι D) (hr : Precip.Refreshing c.ppt) (hw : c.ppt.winstral = false) (hd : ∀ d, c.sum d ≤ 0)
    (fuel : Nat) (s : State ι) (xs : List (In ι D)) (os : List (Out ι)) (h : run c fuel s xs = .ok os) (k : Nat)
    (hk : k < os.length) (i : ι) :
    os[k].ppt.days i = s.ppt.days i + (k + 1) * (c.ppt.timeStep / 60 / 24) ∧ os[k].ppt.precip i = 0 ∧ os[k].ppt.perc i = 0 := by
  have hc := run_chain c fuel s xs os h
  clear h
  induction hc generalizing k with
  | nil => cases hk
  | cons s x o xs os hl _ ih =>
    have h1 : o.ppt.precip i = 0 ∧ o.ppt.perc i = 0 ∧ o.ppt.den i = 0 ∧
        o.ppt.days i = s.ppt.days i + c.ppt.timeStep / 60 / 24 := by
      have := hl.precip
      unfold precipStep at this
      split at this
      · cases this
      · split at this
        · cases this
        · simp only [Except.ok.injEq] at this
          rw [← this]
          exact Precip.C35_dry_step_partial c.ppt hr hw _ _ s.ppt hd i
    cases k with
    | zero =>
      simp only [List.getElem_cons_zero, Nat.cast_zero, zero_add, one_mul]
      exact ⟨h1.2.2.2, h1.1, h1.2.1⟩
    | succ k =>
      obtain ⟨h2, h3, h4⟩ := ih k (by simpa using hk)
      simp only [List.getElem_cons_succ]
      refine ⟨?_, h3, h4⟩
      rw [h2]
      simp only
      rw [h1.2.2.2]
      push_cast
      ring

/-- When something falls in each step of a run with gridded data and no redistribution, the snow fraction and the
density are those of the configured snow model at the published precipitation temperature, for the precipitation
within its limits. -/
theorem C127_phase (c : Cfg ι D) (hg : c.ppt.grid = true) (hw : c.ppt.winstral = false) (fuel : Nat) (s : State ι)
    (xs : List (In ι D)) (os : List (Out ι)) (h : run c fuel s xs = .ok os) (hsum : ∀ x ∈ xs, 0 < c.sum x.precip)
    (o : Out ι) (ho : o ∈ os) : Nasde.phaseAndDensity o.precipTemp o.ppt.precip c.nasde = .ok (o.ppt.den, o.ppt.perc) ∧
      ∃ x ∈ xs, o.ppt.precip = c.precip.cut (c.interp x.precip) := by
  obtain ⟨p, x, hx, hl⟩ := chain_mem c s xs os (run_chain c fuel s xs os h) o ho
  have := hl.precip
  unfold precipStep at this
  split at this
  · cases this
  · rename_i hm
    split at this
    · cases this
    · simp only [Except.ok.injEq] at this
      have key : ∀ (env : Precip.PEnv ι D) (inp : Precip.PIn ι D), env.sum = c.sum →
          env.dist = (fun d => c.precip.cut (c.interp d)) → inp.data = x.precip → inp.temp = o.precipTemp →
          (∀ t p r, Nasde.phaseAndDensity t p c.nasde = .ok r → env.phase t p = r) →
          Precip.pptStep c.ppt env inp p.ppt = o.ppt →
          Nasde.phaseAndDensity o.precipTemp o.ppt.precip c.nasde = .ok (o.ppt.den, o.ppt.perc) ∧
            o.ppt.precip = c.precip.cut (c.interp x.precip) := by
        intro env inp h1 h2 h3 h4 h5 h6
        have hd : Precip.stepData c.ppt env inp = x.precip := by
          unfold Precip.stepData
          rw [hg]
          exact h3
        obtain ⟨e1, e2, -⟩ := Precip.C35_wet_step_partial c.ppt (.inl hg) hw env inp p.ppt
          (by rw [hd, h1]; exact hsum x hx)
        obtain ⟨e3, e4⟩ := e2 (.inl hg)
        rw [h6, hd, h2] at e1 e3 e4
        rw [h4] at e3 e4
        refine ⟨?_, e1⟩
        have hk : Nasde.KnownModel c.nasde := by
          unfold Nasde.KnownModel
          by_contra hn
          exact hm ⟨fun e => hn (.inl e), fun e => hn (.inr (.inl e)), fun e => hn (.inr (.inr e))⟩
        obtain ⟨r, hr⟩ := (Nasde.C81_known o.precipTemp (c.precip.cut (c.interp x.precip)) c.nasde).1 hk
        rw [e3, e4, e1, hr, h5 _ _ r hr]
      obtain ⟨k1, k2⟩ := key _ _ rfl rfl rfl rfl (fun t p r hr => by simp only [hr]) this
      exact ⟨k1, x, hx, k2⟩

/-- The hypotheses of `C127_phase` hold of a run of a night with snow and no redistribution, and those of
`C127_dry_spell` of one with no precipitation. -/
noncomputable def stillCfg (total : ℝ) : Cfg Unit ℝ :=
  { snowyCfg with ppt := { snowyCfg.ppt with winstral := false }, sum := fun _ => total }

theorem still_sound (t : ℝ) : Sound (stillCfg t) :=
  ⟨fun h => (by cases h), snowy_sound.model, snowy_sound.tol, snowy_sound.vapor, snowy_sound.airTemp, snowy_sound.grain,
    snowy_sound.decay, snowy_sound.albedo, snowy_sound.dem, snowy_sound.sky⟩

example (t : ℝ) : ∃ N os, run (stillCfg t) N snowyState [snowyIn (1 / 2), snowyIn 0] = .ok os ∧
    (0 < t → ∀ o ∈ os, Nasde.phaseAndDensity o.precipTemp o.ppt.precip "susong1999" = .ok (o.ppt.den, o.ppt.perc)) ∧
    (t ≤ 0 → ∀ h : 1 < os.length, (os[1]'h).ppt.days () = 2 * (60 / 60 / 24)) := by
  obtain ⟨N, os, h⟩ := C125_no_abort_partial (stillCfg t) (still_sound t) snowyState [snowyIn (1 / 2), snowyIn 0] (by
    intro x hx
    simp only [List.mem_cons, List.not_mem_nil, or_false] at hx
    refine ⟨?_, fun h0 => by cases h0⟩
    rcases hx with rfl | rfl
    · exact (snowy_meets _ (.inr rfl)).sun
    · exact (snowy_meets _ (.inl le_rfl)).sun)
  refine ⟨N, os, h N le_rfl, fun ht o ho => ?_, fun ht hl => ?_⟩
  · exact (C127_phase (stillCfg t) rfl rfl N _ _ os (h N le_rfl) (fun _ _ => ht) o ho).1
  · rw [(C127_dry_spell (stillCfg t) (.inl rfl) rfl (fun _ => ht) N _ _ os (h N le_rfl) 1 hl ()).1]
    simp [snowyState, stillCfg, snowyCfg]
    norm_num

end Verif.Run
