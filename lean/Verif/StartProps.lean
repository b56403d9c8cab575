import Verif.Start

/-
C143: how a run starts and what its exit status says (scripts/run_smrf, smrf/framework/model_framework.py 87-181 and 774-820,
smrf/data/input_data.py 70-114, smrf/utils/utils.py 82-112).
-/

namespace Verif.Start

/-! ### Specification, independent of the functions of the code -/

/-- The one configuration file a call of the script names: the path itself, or the only `.ini` file in the directory. -/
inductive Names (dir : Option (List (List Char))) (isFile : List Char → Bool) : List Char → Prop
  | path : dir = none → isFile [] = true → Names dir isFile []
  | only (l : List (List Char)) (f : List Char) : dir = some l → Setup.findConfigs l = [f] → isFile f = true → Names dir isFile f

/-- The data a configuration asks for: exactly one of stations and a known kind of gridded data. -/
inductive Asks (c : Config) : Loader → Prop
  | csv : c.csv = true → c.gridded = none → Asks c .csv
  | hrrr (m : String) : c.csv = false → c.gridded = some ⟨"hrrr_grib", some m⟩ → Asks c .hrrr
  | netcdf (m : Option String) : c.csv = false → c.gridded = some ⟨"netcdf", m⟩ → Asks c .netcdf
  | wrf (m : Option String) : c.csv = false → c.gridded = some ⟨"wrf", m⟩ → Asks c .wrf

/-- A configuration without errors, complete dates of the albedo, and no station data of the future. -/
structure Acceptable (c : Config) (now : Int) : Prop where
  errors : c.errors = 0
  decay : c.decayStart.isSome = true → c.decayEnd.isSome = true
  past : c.gridded = none → c.start ≤ now ∧ c.stop ≤ now

/-- One data section at most, as the recipes leave it (recipes.ini 211-219, 236-244), and the way to load HRRR data is set (it
has a default). -/
structure Checked (c : Config) : Prop where
  one : c.csv = true → c.gridded = none
  method : ∀ g, c.gridded = some g → g.dataType = "hrrr_grib" → g.loadMethod.isSome = true

/-! ### The constructor -/

theorem init_ok {c : Config} {now : Int} {s : State} (h : (init c now).2 = .ok s) :
    Acceptable c now ∧ s.config = c ∧ (s.gridded = true ↔ c.gridded.isSome = true) ∧
    (s.timestep = true ↔ ∃ g, c.gridded = some g ∧ g.dataType = "hrrr_grib" ∧ g.loadMethod = some "timestep") := by
  unfold init at h
  split at h
  · cases h
  · rename_i he
    simp only [bind, Except.bind] at h
    cases hd : decayDates c with
    | error e => rw [hd] at h; cases h
    | ok u =>
      rw [hd] at h
      simp only at h
      cases hf : flags c with
      | error e => rw [hf] at h; cases h
      | ok p =>
        obtain ⟨g, t⟩ := p
        rw [hf] at h
        simp only at h
        cases hfu : future c g now with
        | error e => rw [hfu] at h; cases h
        | ok u =>
          rw [hfu] at h
          simp only at h
          injection h with h
          subst h
          have hdec : c.decayStart.isSome = true → c.decayEnd.isSome = true := by
            intro h1
            unfold decayDates at hd
            cases hs : c.decayStart with
            | none => rw [hs] at h1; cases h1
            | some a =>
              cases hs2 : c.decayEnd with
              | none => rw [hs, hs2] at hd; cases hd
              | some b => rfl
          have hfl : (g = true ↔ c.gridded.isSome = true) ∧
              (t = true ↔ ∃ g, c.gridded = some g ∧ g.dataType = "hrrr_grib" ∧ g.loadMethod = some "timestep") := by
            unfold flags at hf
            cases hg : c.gridded with
            | none =>
              rw [hg] at hf
              injection hf with hf
              injection hf with h1 h2
              subst h1 h2
              simp
            | some gr =>
              rw [hg] at hf
              simp only at hf
              by_cases hh : gr.dataType = "hrrr_grib"
              · rw [if_pos hh] at hf
                cases hm : gr.loadMethod with
                | none => rw [hm] at hf; cases hf
                | some m =>
                  rw [hm] at hf
                  injection hf with hf
                  injection hf with h1 h2
                  subst h1
                  refine ⟨by simp, ?_⟩
                  rw [← h2, decide_eq_true_iff]
                  constructor
                  · intro e; exact ⟨gr, rfl, hh, by rw [hm, e]⟩
                  · rintro ⟨g', e1, -, e3⟩
                    injection e1 with e1
                    subst e1
                    rw [hm] at e3
                    injection e3
              · rw [if_neg hh] at hf
                injection hf with hf
                injection hf with h1 h2
                subst h1 h2
                refine ⟨by simp, ?_⟩
                constructor
                · intro e; cases e
                · rintro ⟨g', e1, e2, -⟩
                  injection e1 with e1
                  subst e1
                  exact absurd e2 hh
          refine ⟨⟨by omega, hdec, fun hn => ?_⟩, rfl, hfl.1, hfl.2⟩
          have hgf : g = false := by
            cases g with
            | false => rfl
            | true => have := hfl.1.1 rfl; rw [hn] at this; cases this
          unfold future at hfu
          split at hfu
          · cases hfu
          · rename_i hc
            subst hgf
            simp only [and_true, not_or, not_lt] at hc
            exact hc

theorem init_acceptable {c : Config} {now : Int} (ha : Acceptable c now) (hk : Checked c) : ∃ s, (init c now).2 = .ok s := by
  unfold init
  rw [if_neg (by rw [ha.errors]; omega)]
  simp only [bind, Except.bind]
  have hd : decayDates c = .ok () := by
    unfold decayDates
    cases hs : c.decayStart with
    | none => rfl
    | some a =>
      have := ha.decay (by rw [hs]; rfl)
      cases hs2 : c.decayEnd with
      | none => rw [hs2] at this; cases this
      | some b => rfl
  rw [hd]
  simp only
  cases hg : c.gridded with
  | none =>
    have hf : flags c = .ok (false, false) := by unfold flags; rw [hg]
    rw [hf]
    simp only
    have hfu : future c false now = .ok () := by
      unfold future
      have := ha.past hg
      rw [if_neg (by omega)]
    rw [hfu]
    exact ⟨_, rfl⟩
  | some gr =>
    have hf : ∃ t, flags c = .ok (true, t) := by
      unfold flags
      rw [hg]
      simp only
      by_cases hh : gr.dataType = "hrrr_grib"
      · rw [if_pos hh]
        have := hk.method gr hg hh
        cases hm : gr.loadMethod with
        | none => rw [hm] at this; cases this
        | some m => exact ⟨_, rfl⟩
      · rw [if_neg hh]; exact ⟨_, rfl⟩
    obtain ⟨t, hf⟩ := hf
    rw [hf]
    simp only
    have hfu : future c true now = .ok () := by unfold future; simp
    rw [hfu]
    exact ⟨_, rfl⟩

/-- The constructor of a checked configuration succeeds exactly if the configuration is acceptable; what it notes of the data is
what the configuration asks for: gridded data or not, HRRR step by step or not. -/
theorem C143_constructor (c : Config) (now : Int) (hk : Checked c) :
    ((∃ s, (init c now).2 = .ok s) ↔ Acceptable c now) ∧
    ∀ s, (init c now).2 = .ok s → ∀ l, Asks c l →
      (s.gridded = true ↔ l ≠ .csv) ∧ (s.timestep = true → l = .hrrr) := by
  refine ⟨⟨fun ⟨s, h⟩ => (init_ok h).1, fun h => init_acceptable h hk⟩, fun s h l hl => ?_⟩
  obtain ⟨-, -, h1, h2⟩ := init_ok h
  rw [h1, h2]
  cases hl with
  | csv a b => rw [b]; simp
  | hrrr m a b => rw [b]; simp
  | netcdf m a b => rw [b]; simp
  | wrf m a b => rw [b]; simp

/-- Station data of the future are refused with an error, gridded data of the future are not. -/
theorem C143_future (c : Config) (now : Int) (hk : Checked c) (he : c.errors = 0)
    (hd : c.decayStart.isSome = true → c.decayEnd.isSome = true) (hf : now < c.start ∨ now < c.stop) :
    (c.gridded = none → (init c now).2 = .error (.raised .valueError)) ∧
    (c.gridded ≠ none → ∃ s, (init c now).2 = .ok s) := by
  constructor
  · intro hg
    unfold init
    rw [if_neg (by omega)]
    simp only [bind, Except.bind]
    have h1 : decayDates c = .ok () := by
      unfold decayDates
      cases hs : c.decayStart with
      | none => rfl
      | some a =>
        have := hd (by rw [hs]; rfl)
        cases hs2 : c.decayEnd with
        | none => rw [hs2] at this; cases this
        | some b => rfl
    have h2 : flags c = .ok (false, false) := by unfold flags; rw [hg]
    have h3 : future c false now = .error (.raised .valueError) := by
      unfold future
      rw [if_pos (by rcases hf with h | h; exacts [.inl ⟨h, rfl⟩, .inr ⟨h, rfl⟩])]
    rw [h1]; simp only; rw [h2]; simp only; rw [h3]
  · intro hg
    exact init_acceptable ⟨he, hd, fun h => absurd h hg⟩ hk

/-- The full configuration is in the output directory afterwards exactly if it had no errors. -/
theorem C143_written (c : Config) (now : Int) : .writeConfig ∈ (init c now).1 ↔ c.errors = 0 := by
  unfold init
  split
  · simp; omega
  · simp; omega

/-! ### The loader -/

theorem determine_ok {c : Config} {l : Loader} (hk : Checked c) : determine c = .ok l ↔ Asks c l := by
  unfold determine
  constructor
  · intro h
    by_cases hc : c.csv = true
    · rw [if_pos hc] at h
      injection h with h
      subst h
      exact .csv hc (hk.one hc)
    · rw [if_neg hc] at h
      have hc' : c.csv = false := by simpa using hc
      cases hg : c.gridded with
      | none => rw [hg] at h; cases h
      | some g =>
        rw [hg] at h
        simp only at h
        obtain ⟨dt, lm⟩ := g
        simp only at h
        split_ifs at h with h1 h2 h3
        · injection h with h
          subst h h1
          have := hk.method _ hg rfl
          cases lm with
          | none => cases this
          | some m => exact .hrrr m hc' hg
        · injection h with h
          subst h h2
          exact .netcdf lm hc' hg
        · injection h with h
          subst h h3
          exact .wrf lm hc' hg
  · intro h
    cases h with
    | csv a b => rw [if_pos a]
    | hrrr m a b => rw [a, b]; rfl
    | netcdf m a b => rw [a, b]; rfl
    | wrf m a b => rw [a, b]; rfl

/-! ### The whole program -/

/-- The instance of a configuration: the configuration, whether the data are gridded, whether they are loaded step by step. -/
structure Fits (c : Config) (s : State) : Prop where
  config : s.config = c
  gridded : s.gridded = true ↔ c.gridded.isSome = true
  timestep : s.timestep = true ↔ ∃ g, c.gridded = some g ∧ g.dataType = "hrrr_grib" ∧ g.loadMethod = some "timestep"

/-- The run was carried out: all six phases ended for the instance of the configuration, with the data it asks for. -/
def Done (w : World) (c : Config) : Prop :=
  Acceptable c w.now ∧ ∃ l, Asks c l ∧ ∃ s, Fits c s ∧ (∀ n < 3, w.fine n s none = true) ∧ ∀ n, 3 ≤ n → n < 6 → w.fine n s (some l) = true

/-- What the exit status should say: 0 exactly if the run of the configuration that is meant was carried out. -/
def C143_full : Prop :=
  ∀ (w : World) (dir : Option (List (List Char))) (isFile : List Char → Bool) (read : List Char → Config),
    (∀ f, Checked (read f)) →
    (status (script w dir isFile read).2 = 0 ↔ ∃ f, Names dir isFile f ∧ Done w (read f))

private theorem phase_ok {w : World} {s : State} {l : Option Loader} {n : Nat} {u : Unit} : phase w s l n = .ok u ↔ w.fine n s l = true := by
  unfold phase
  split <;> simp_all

private theorem runSmrf_ok {w : World} {c : Config} {r : State × Loader} (hk : Checked c) :
    (runSmrf w (.path true c)).2 = .ok r ↔
      (init c w.now).2 = .ok r.1 ∧ Asks c r.2 ∧ (∀ n < 3, w.fine n r.1 none = true) ∧ ∀ n, 3 ≤ n → n < 6 → w.fine n r.1 (some r.2) = true := by
  obtain ⟨rs, rl⟩ := r
  unfold runSmrf smrf
  simp only [bind, Except.bind]
  constructor
  · intro h
    cases hi : (init c w.now).2 with
    | error e => rw [hi] at h; cases h
    | ok s =>
      rw [hi] at h
      simp only at h
      have hc := (init_ok hi).2.1
      cases h0 : phase w s none 0 with
      | error e => rw [h0] at h; cases h
      | ok u0 =>
      rw [h0] at h; simp only at h
      cases h1 : phase w s none 1 with
      | error e => rw [h1] at h; cases h
      | ok u1 =>
      rw [h1] at h; simp only at h
      cases h2 : phase w s none 2 with
      | error e => rw [h2] at h; cases h
      | ok u2 =>
      rw [h2] at h; simp only at h
      cases hd : determine s.config with
      | error e => rw [hd] at h; cases h
      | ok l =>
      rw [hd] at h; simp only at h
      cases h3 : phase w s (some l) 3 with
      | error e => rw [h3] at h; cases h
      | ok u3 =>
      rw [h3] at h; simp only at h
      cases h4 : phase w s (some l) 4 with
      | error e => rw [h4] at h; cases h
      | ok u4 =>
      rw [h4] at h; simp only at h
      cases h5 : phase w s (some l) 5 with
      | error e => rw [h5] at h; cases h
      | ok u5 =>
      rw [h5] at h; simp only at h
      injection h with h
      injection h with e1 e2
      subst e1 e2
      rw [hc] at hd
      refine ⟨rfl, (determine_ok hk).1 hd, fun n hn => ?_, fun n h6 h7 => ?_⟩
      · obtain rfl | rfl | rfl : n = 0 ∨ n = 1 ∨ n = 2 := by omega
        exacts [phase_ok.1 h0, phase_ok.1 h1, phase_ok.1 h2]
      · obtain rfl | rfl | rfl : n = 3 ∨ n = 4 ∨ n = 5 := by omega
        exacts [phase_ok.1 h3, phase_ok.1 h4, phase_ok.1 h5]
  · rintro ⟨hi, ha, hn, hm⟩
    have hc := (init_ok hi).2.1
    have p0 : phase w rs none 0 = .ok () := phase_ok.2 (hn 0 (by omega))
    have p1 : phase w rs none 1 = .ok () := phase_ok.2 (hn 1 (by omega))
    have p2 : phase w rs none 2 = .ok () := phase_ok.2 (hn 2 (by omega))
    have p3 : phase w rs (some rl) 3 = .ok () := phase_ok.2 (hm 3 (by omega) (by omega))
    have p4 : phase w rs (some rl) 4 = .ok () := phase_ok.2 (hm 4 (by omega) (by omega))
    have p5 : phase w rs (some rl) 5 = .ok () := phase_ok.2 (hm 5 (by omega) (by omega))
    have hd : determine rs.config = .ok rl := by rw [hc]; exact (determine_ok hk).2 ha
    rw [hi]; simp only
    rw [p0]; simp only
    rw [p1]; simp only
    rw [p2]; simp only
    rw [hd]; simp only
    rw [p3]; simp only
    rw [p4]; simp only
    rw [p5]

/-- A run that is carried out used the loader of the data the configuration asks for, all phases ended, and the flags of the
instance fit the loader. -/
theorem C143_carried_out {w : World} {c : Config} (hk : Checked c) {s : State} {l : Loader}
    (h : (runSmrf w (.path true c)).2 = .ok (s, l)) :
    Done w c ∧ Asks c l ∧ (s.gridded = true ↔ l ≠ .csv) ∧ (s.timestep = true → l = .hrrr) := by
  obtain ⟨h1, h2, h3, h4⟩ := (runSmrf_ok hk).1 h
  obtain ⟨a, b, b2, b3⟩ := init_ok h1
  exact ⟨⟨a, l, h2, s, ⟨b, b2, b3⟩, h3, h4⟩, h2, (C143_constructor c w.now hk).2 s h1 l h2⟩

/-- Where the script starts. -/
private theorem script_names {w : World} {dir : Option (List (List Char))} {isFile : List Char → Bool} {read : List Char → Config} {f : List Char}
    (h : Names dir isFile f) : script w dir isFile read = runSmrf w (.path true (read f)) := by
  cases h with
  | path a b => unfold script; rw [a]; simp [Setup.choose, b]
  | only l f a b c => unfold script; rw [a]; simp [Setup.choose, b, c]

/-- For a call that names one configuration file, and this without errors: the exit status is 0 exactly if the run was carried
out, in any other case it is 1. Missing: configurations with errors, and calls that name none or several
(`C143_refused_fails`, `C143_several_fails`, `C143_missing_fails`). -/
theorem C143_status_partial (w : World) (dir : Option (List (List Char))) (isFile : List Char → Bool) (read : List Char → Config)
    (f : List Char) (hf : Names dir isFile f) (hk : Checked (read f)) (he : (read f).errors = 0) :
    (status (script w dir isFile read).2 = 0 ↔ Done w (read f)) ∧ (status (script w dir isFile read).2 = 1 ↔ ¬ Done w (read f)) := by
  have hne : (script w dir isFile read).2 ≠ .error .exit := by
    rw [script_names hf]
    unfold runSmrf smrf
    simp only [bind, Except.bind]
    intro h
    cases hi : (init (read f) w.now).2 with
    | error e =>
      rw [hi] at h
      simp only at h
      injection h with h
      subst h
      unfold init at hi
      rw [if_neg (by omega)] at hi
      simp only [bind, Except.bind] at hi
      cases hd : decayDates (read f) with
      | error e =>
        rw [hd] at hi
        injection hi with hi
        subst hi
        unfold decayDates at hd
        split at hd <;> cases hd
      | ok u =>
        rw [hd] at hi
        simp only at hi
        cases hfl : flags (read f) with
        | error e =>
          rw [hfl] at hi
          injection hi with hi
          subst hi
          unfold flags at hfl
          split at hfl
          · cases hfl
          · split at hfl
            · split at hfl <;> cases hfl
            · cases hfl
        | ok p =>
          rw [hfl] at hi
          simp only at hi
          cases hfu : future (read f) p.1 w.now with
          | error e =>
            rw [hfu] at hi
            injection hi with hi
            subst hi
            unfold future at hfu
            split at hfu <;> cases hfu
          | ok u => rw [hfu] at hi; cases hi
    | ok s =>
      rw [hi] at h
      simp only at h
      have hp : ∀ l n, phase w s l n ≠ .error .exit := by
        intro l n hh
        unfold phase at hh
        split at hh <;> cases hh
      have hde : determine s.config ≠ .error .exit := by
        intro hh
        unfold determine at hh
        split at hh
        · cases hh
        · split at hh
          · split_ifs at hh
            cases hh
          · cases hh
      cases h0 : phase w s none 0 with
      | error e => rw [h0] at h; simp only at h; injection h with h; subst h; exact hp _ _ h0
      | ok u0 =>
      rw [h0] at h; simp only at h
      cases h1 : phase w s none 1 with
      | error e => rw [h1] at h; simp only at h; injection h with h; subst h; exact hp _ _ h1
      | ok u1 =>
      rw [h1] at h; simp only at h
      cases h2 : phase w s none 2 with
      | error e => rw [h2] at h; simp only at h; injection h with h; subst h; exact hp _ _ h2
      | ok u2 =>
      rw [h2] at h; simp only at h
      cases hd : determine s.config with
      | error e => rw [hd] at h; simp only at h; injection h with h; subst h; exact hde hd
      | ok l =>
      rw [hd] at h; simp only at h
      cases h3 : phase w s (some l) 3 with
      | error e => rw [h3] at h; simp only at h; injection h with h; subst h; exact hp _ _ h3
      | ok u3 =>
      rw [h3] at h; simp only at h
      cases h4 : phase w s (some l) 4 with
      | error e => rw [h4] at h; simp only at h; injection h with h; subst h; exact hp _ _ h4
      | ok u4 =>
      rw [h4] at h; simp only at h
      cases h5 : phase w s (some l) 5 with
      | error e => rw [h5] at h; simp only at h; injection h with h; subst h; exact hp _ _ h5
      | ok u5 => rw [h5] at h; cases h
  have key : status (script w dir isFile read).2 = 0 ↔ ∃ s l, (script w dir isFile read).2 = .ok (s, l) := by
    cases hs : (script w dir isFile read).2 with
    | ok r => exact ⟨fun _ => ⟨r.1, r.2, rfl⟩, fun _ => rfl⟩
    | error e =>
      cases e with
      | exit => exact absurd hs hne
      | raised e =>
        constructor
        · intro h; cases h
        · rintro ⟨s, l, h⟩; cases h
  have hdone : status (script w dir isFile read).2 = 0 ↔ Done w (read f) := by
    rw [key, script_names hf]
    constructor
    · rintro ⟨s, l, h⟩
      exact (C143_carried_out hk h).1
    · rintro ⟨ha, l, hl, s, hs, h3, h4⟩
      obtain ⟨s', hs'⟩ := init_acceptable ha hk
      obtain ⟨-, e1, e2, e3⟩ := init_ok hs'
      have e : s' = s := by
        obtain ⟨c1, g1, t1⟩ := s
        obtain ⟨c2, g2, t2⟩ := s'
        obtain ⟨k1, k2, k3⟩ := hs
        simp only at e1 e2 e3 k1 k2 k3
        subst e1 k1
        have hg : g2 = g1 := Bool.eq_iff_iff.2 (e2.trans k2.symm)
        have ht : t2 = t1 := Bool.eq_iff_iff.2 (e3.trans k3.symm)
        rw [hg, ht]
      subst e
      exact ⟨s', l, (runSmrf_ok hk).2 ⟨hs', hl, h3, h4⟩⟩
  refine ⟨hdone, ?_⟩
  rw [← hdone]
  cases hs : (script w dir isFile read).2 with
  | ok r => simp [status]
  | error e =>
    cases e with
    | exit => exact absurd hs hne
    | raised e => simp [status]

/-- A configuration with errors: nothing is computed, and the exit status is 0; the same call from python (`can_i_run_smrf`) neither
returns nor raises an `Exception`. -/
theorem C143_refused_fails (w : World) (dir : Option (List (List Char))) (isFile : List Char → Bool) (read : List Char → Config)
    (f : List Char) (hf : Names dir isFile f) (he : 0 < (read f).errors) :
    status (script w dir isFile read).2 = 0 ∧ ¬ Done w (read f) ∧ canRun w (.path true (read f)) = .error .exit := by
  have h : (runSmrf w (.path true (read f))).2 = .error .exit := by
    unfold runSmrf smrf init
    simp only [bind, Except.bind]
    rw [if_pos he]
  refine ⟨by rw [script_names hf, h]; rfl, fun hd => ?_, by unfold canRun; rw [h]⟩
  have := hd.1.errors
  omega

/-- Several configuration files in the directory: nothing is computed, and the exit status is 0. -/
theorem C143_several_fails (w : World) (names : List (List Char)) (isFile : List Char → Bool) (read : List Char → Config)
    (h : 1 < (Setup.findConfigs names).length) :
    status (script w (some names) isFile read).2 = 0 ∧ ∀ f, ¬ Names (some names) isFile f := by
  constructor
  · unfold script Setup.choose
    match hc : Setup.findConfigs names, h with
    | _ :: _ :: _, _ => simp only [hc]; rfl
  · intro f hf
    cases hf with
    | path a b => cases a
    | only l f a b c =>
      injection a with a
      subst a
      rw [b] at h
      simp at h

/-- No file of this name: nothing is computed, and the exit status is 0. -/
theorem C143_missing_fails (w : World) (isFile : List Char → Bool) (read : List Char → Config) (h : isFile [] = false) :
    status (script w none isFile read).2 = 0 ∧ ∀ f, ¬ Names none isFile f := by
  constructor
  · unfold script Setup.choose
    simp only [h]
    rfl
  · intro f hf
    cases hf with
    | path a b => rw [h] at b; cases b
    | only l f a b c => cases a

/-- An empty directory, on the other hand, ends with an error. -/
theorem C143_empty (w : World) (names : List (List Char)) (isFile : List Char → Bool) (read : List Char → Config)
    (h : Setup.findConfigs names = []) : status (script w (some names) isFile read).2 = 1 := by
  unfold script Setup.choose
  simp only [h]
  rfl

/-- From python: a path without a file, or something that is neither a path nor a configuration, is refused before anything is
written or computed; a configuration object is treated as its file. -/
theorem C143_argument (w : World) (c : Config) :
    smrf (.path false c) w.now = ([], .error (.raised .exception)) ∧ smrf .other w.now = ([], .error (.raised .exception)) ∧
    smrf (.user c) w.now = smrf (.path true c) w.now ∧ runSmrf w (.path false c) = ([], .error (.raised .exception)) ∧
    runSmrf w .other = ([], .error (.raised .exception)) ∧ canRun w (.path false c) = .error (.raised .exception) := by
  exact ⟨rfl, rfl, rfl, rfl, rfl, rfl⟩

/-- `can_i_run_smrf` never says no. -/
theorem C143_can_run (w : World) (a : Arg) : canRun w a ≠ .ok false := by
  unfold canRun
  split <;> simp

theorem C143_fails : ¬ C143_full := by
  intro h
  have h1 := C143_missing_fails ⟨0, fun _ _ _ => true⟩ (fun _ => false) (fun _ => ⟨0, true, none, none, none, 0, 0⟩) rfl
  obtain ⟨f, hf, -⟩ := (h ⟨0, fun _ _ _ => true⟩ none (fun _ => false) (fun _ => ⟨0, true, none, none, none, 0, 0⟩)
    (fun _ => ⟨fun _ => rfl, fun g hg => by cases hg⟩)).1 h1.1
  exact h1.2 f hf

/-- With both data sections (a `UserConfig` to which the recipes were not applied) the two choices differ: the stations are read, but
the dates are checked as for gridded data, and with HRRR step by step the flag is set for a loader that cannot do it. -/
theorem C143_both_fails :
    ∃ (c : Config) (now : Int) (s : State), (init c now).2 = .ok s ∧ now < c.start ∧ s.timestep = true ∧ determine s.config = .ok .csv :=
  ⟨⟨0, true, some ⟨"hrrr_grib", some "timestep"⟩, none, none, 5, 9⟩, 0, _, rfl, by decide, rfl, rfl⟩

/-! ### Examples -/

/-- A run with stations that is carried out. -/
example : (runSmrf ⟨10, fun _ _ _ => true⟩ (.path true ⟨0, true, none, none, none, 5, 9⟩)).2 = .ok (⟨⟨0, true, none, none, none, 5, 9⟩, false, false⟩, .csv) := rfl

example : Checked ⟨0, true, none, none, none, 5, 9⟩ := ⟨fun _ => rfl, fun g hg => by cases hg⟩

/-- HRRR data of the future, step by step. -/
example : ∃ s, (init ⟨0, false, some ⟨"hrrr_grib", some "timestep"⟩, none, none, 5, 9⟩ 0).2 = .ok s ∧ s.timestep = true := ⟨_, rfl, rfl⟩

/-- The same dates with stations. -/
example : (init ⟨0, true, none, none, none, 5, 9⟩ 0).2 = .error (.raised .valueError) :=
  (C143_future ⟨0, true, none, none, none, 5, 9⟩ 0 ⟨fun _ => rfl, fun g hg => by cases hg⟩ rfl (by simp) (.inl (by decide))).1 rfl

/-- A directory with one configuration among other files. -/
example : Names (some ["run.ini".toList, "notes.txt".toList]) (fun _ => true) "run.ini".toList := .only _ _ rfl (by decide) rfl

/-- A directory with two. -/
example (w : World) (read : List Char → Config) : status (script w (some ["a.ini".toList, "b.ini".toList]) (fun _ => true) read).2 = 0 :=
  (C143_several_fails w _ _ _ (by decide)).1

end Verif.Start
