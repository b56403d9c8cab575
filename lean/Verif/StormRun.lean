import Verif.Precip

/-!
The storms during a run with the marks2017 model: the search in the storm table, the storm total and the run over the corrected
data. `smrf/distribute/precipitation.py` 177-210, 272-291, 327-406.
-/

namespace Verif.StormRun
open Verif.Precip Verif.Storms

/-- The exceptions. `unbound` is `UnboundLocalError` for `storm_start` or `storm`, `keyError` a time that is not in the table. -/
inductive Err where
  | unbound
  | keyError
  deriving DecidableEq

/-- The result of the search: `self.storming`, `self.storm_id`, the local `storm_start` and the local `storm` (`none`: not
assigned). -/
structure Found where
  storming : Bool
  id : Option Nat
  start : Option Nat
  storm : Option (Storm Nat ℝ)

/-- The loop over the rows of the storm table, `k` is the index of the first; times are row numbers. precipitation.py 337-348. -/
def search (time : Nat) : Nat → Found → List (Storm Nat ℝ) → Found
  | _, f, [] => f
  | k, f, s :: r =>
    if s.start ≤ time ∧ time ≤ s.stop then ⟨true, some k, some s.start, some s⟩
    else search time (k + 1) { f with storming := false, start := some s.start } r

/-- `data.sum()`: NaN is skipped. -/
noncomputable def rowSum (row : List (Option ℝ)) : ℝ := (row.filterMap id).sum

section
variable {ι : Type} [Fintype ι]

/-- The state of the class that concerns storms. `id = none`: `storm_id` is NaN or not assigned. -/
structure SState (ι : Type) where
  base : PState ι
  storming : Bool
  id : Option Nat

/-- The functions called by a step: `dist` is `_distribute` followed by `set_min_max`, `phase` is `phase_and_density`. -/
structure SEnv (ι : Type) where
  dist : List (Option ℝ) → ι → ℝ
  phase : (ι → ℝ) → (ι → ℝ) → (ι → ℝ) × (ι → ℝ)

/-- The environment of `Precip.marksStep`. -/
noncomputable def SEnv.toP (env : SEnv ι) : PEnv ι (List (Option ℝ)) := ⟨rowSum, env.dist, env.phase, id⟩

/-- `distribute_for_marks2017` with the search; images and clock are those of `Precip.marksStep`. Without storms `storm_start` is
not assigned; `storm` is only used when `time == storm_start`. precipitation.py 327-406. -/
noncomputable def stormStep (cfg : PCfg) (env : SEnv ι) (storms : List (Storm Nat ℝ)) (time : Nat) (data : List (Option ℝ))
    (temp : ι → ℝ) (s : SState ι) : Except Err (SState ι) :=
  if 0 < rowSum data then
    let f := search time 0 ⟨s.storming, s.id, none, none⟩ storms
    match f.start with
    | none => .error .unbound
    | some st =>
      if time = st then
        match f.storm with
        | none => .error .unbound
        | some w => .ok ⟨marksStep cfg env.toP data f.storming (some (env.dist w.mass)) temp s.base, f.storming, f.id⟩
      else .ok ⟨marksStep cfg env.toP data f.storming none temp s.base, f.storming, f.id⟩
  else .ok ⟨marksStep cfg env.toP data s.storming none temp s.base, s.storming, s.id⟩

/-- The state before step `i` of a run over the corrected table `rows`; `adjust i` is the correction for undercatch of step `i`
(or nothing). precipitation.py 272-291. -/
noncomputable def before (cfg : PCfg) (env : SEnv ι) (storms : List (Storm Nat ℝ)) (rows : List (List (Option ℝ)))
    (adjust : Nat → List (Option ℝ) → List (Option ℝ)) (temp : Nat → ι → ℝ) (s : SState ι) : Nat → Except Err (SState ι)
  | 0 => .ok s
  | i + 1 =>
    match before cfg env storms rows adjust temp s i with
    | .error e => .error e
    | .ok s =>
      match rows[i]? with
      | none => .error .keyError
      | some row => stormStep cfg env storms i (adjust i row) (temp i) s
end

end Verif.StormRun
