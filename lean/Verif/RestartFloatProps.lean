import Verif.RestartFloat
import Verif.ClockFloatProps

/-!
C154: a restart from a file in double precision does not change the storm clock; one from a file in single precision, the default,
makes the clock run in single precision from then on, and it drifts.
-/

namespace Verif.RestartFloat
open Verif.ClockFloat (Step Resets stepDays Error)

variable {ι : Type} [Fintype ι]

/-- Claimed: the clock of a run that was interrupted and restarted is that of the uninterrupted run, up to the precision of the file. -/
def C154_full : Prop :=
  ∀ (p : Precision) (ts mass thresh : ℝ) (days : Unit → ℝ) (before after : List (Step Unit)), 1 ≤ ts → (∀ i, 0 ≤ days i) →
    ∀ i, |resumed p ts mass thresh (run .double ts mass thresh days before) after i - run .double ts mass thresh days (before ++ after) i| ≤
      (1 / 2) ^ 23 * run .double ts mass thresh days (before ++ after) i

/-- The clock in double precision is that of C149. -/
theorem run_double (ts mass thresh : ℝ) (days : ι → ℝ) (h : List (Step ι)) :
    run .double ts mass thresh days h = ClockFloat.run (IdwFloat.binary 53) ts mass thresh days h := by
  unfold run ClockFloat.run
  have : tick (ι := ι) .double ts mass thresh = ClockFloat.tick (IdwFloat.binary 53) ts mass thresh := by
    funext d s
    cases s <;> rfl
  rw [this]

/-- With a file in double precision the restart leaves no trace. -/
theorem C154_double_partial (ts mass thresh : ℝ) (days : ι → ℝ) (before after : List (Step ι)) :
    resumed .double ts mass thresh (run .double ts mass thresh days before) after =
      run .double ts mass thresh days (before ++ after) := by
  unfold resumed run
  rw [List.foldl_append]
  rfl

theorem tick_cases (p : Precision) (ts mass thresh : ℝ) (days : ι → ℝ) (s : Step ι) (i : ι) :
    (Resets mass thresh i s → tick p ts mass thresh days s i = 0) ∧
    (¬ Resets mass thresh i s → tick p ts mass thresh days s i = p.rnd (days i + step p ts)) := by
  cases s with
  | dry => exact ⟨fun h => h.elim, fun _ => rfl⟩
  | wet precip dpt perc storming =>
    unfold Resets tick ClockFloat.pixel
    simp only
    constructor
    · rintro ⟨h1, h2, h3, h4⟩
      rw [if_pos ⟨h1, h2⟩, if_pos ⟨h3, h4⟩]
    · intro hn
      split
      · next hc => exact if_neg fun h' => hn ⟨hc.1, hc.2, h'.1, h'.2⟩
      · rfl

theorem error_single : Error ((1 / 2) ^ 24) (IdwFloat.binary 24) := ⟨by positivity, by norm_num, IdwFloat.C144_nearest 23⟩

theorem error_double : Error ((1 / 2) ^ 53) (IdwFloat.binary 53) := ⟨by positivity, by norm_num, IdwFloat.C144_nearest 52⟩

/-- The clock of a pixel depends on its own value only. -/
theorem run_congr (p : Precision) (ts mass thresh : ℝ) (i : ι) (h : List (Step ι)) (d d' : ι → ℝ) (e : d i = d' i) :
    run p ts mass thresh d h i = run p ts mass thresh d' h i := by
  induction h generalizing d d' with
  | nil => exact e
  | cons s h ih =>
    refine ih _ _ ?_
    have a := tick_cases p ts mass thresh d s i
    have b := tick_cases p ts mass thresh d' s i
    by_cases hs : Resets mass thresh i s
    · rw [a.1 hs, b.1 hs]
    · rw [a.2 hs, b.2 hs, e]

/-- The next storm makes the value read from the file irrelevant: the clock is that of a run in the precision of the file that starts
with the storm. -/
theorem C154_forgets (p : Precision) (ts mass thresh : ℝ) (days : ι → ℝ) (i : ι) (pre suf : List (Step ι)) (s : Step ι)
    (hs : Resets mass thresh i s) :
    resumed p ts mass thresh days (pre ++ s :: suf) i = run p ts mass thresh (fun _ => 0) suf i := by
  unfold resumed
  have : run p ts mass thresh (fun i => p.cast (days i)) (pre ++ s :: suf) =
      run p ts mass thresh (tick p ts mass thresh (run p ts mass thresh (fun i => p.cast (days i)) pre) s) suf := by
    unfold run
    rw [List.foldl_append, List.foldl_cons]
  rw [this]
  exact run_congr p ts mass thresh i suf _ _ ((tick_cases p ts mass thresh _ s i).1 hs)

/-- Adding the same number `k` times with rounding. -/
theorem running {u : ℝ} {p : Precision} (hr : Error u p.rnd) (ts mass thresh : ℝ) (hq : 0 ≤ step p ts) (i : ι) (h : List (Step ι))
    (hn : ∀ s ∈ h, ¬ Resets mass thresh i s) (days : ι → ℝ) (hd : 0 ≤ days i) :
    (1 - u) ^ h.length * (days i + h.length * step p ts) ≤ run p ts mass thresh days h i ∧
    run p ts mass thresh days h i ≤ (1 + u) ^ h.length * (days i + h.length * step p ts) := by
  have h1 := hr.1
  have h2 := hr.2.1
  induction h generalizing days with
  | nil => simp [run]
  | cons s h ih =>
    have ht := (tick_cases p ts mass thresh days s i).2 (hn s (by simp))
    have hb := hr.bounds (add_nonneg hd hq)
    rw [← ht] at hb
    have h0 : 0 ≤ tick p ts mass thresh days s i := le_trans (mul_nonneg (by linarith) (add_nonneg hd hq)) hb.1
    obtain ⟨l, r⟩ := ih (fun s hs => hn s (by simp [hs])) (tick p ts mass thresh days s) h0
    have e : run p ts mass thresh days (s :: h) = run p ts mass thresh (tick p ts mass thresh days s) h := rfl
    rw [e]
    have hk : (0 : ℝ) ≤ h.length * step p ts := by positivity
    have pl : 0 ≤ (1 - u) ^ h.length := pow_nonneg (by linarith) _
    have pr : 0 ≤ (1 + u) ^ h.length := by positivity
    have ul : (1 - u) * (h.length * step p ts) ≤ h.length * step p ts := by nlinarith
    have ur : h.length * step p ts ≤ (1 + u) * (h.length * step p ts) := by nlinarith
    constructor
    · refine le_trans ?_ l
      have : (1 - u) * (days i + (h.length + 1) * step p ts) ≤ tick p ts mass thresh days s i + h.length * step p ts := by linarith [hb.1]
      have := mul_le_mul_of_nonneg_left this pl
      refine le_trans (le_of_eq ?_) this
      rw [List.length_cons, pow_succ]
      push_cast
      ring
    · refine le_trans r ?_
      have : tick p ts mass thresh days s i + h.length * step p ts ≤ (1 + u) * (days i + (h.length + 1) * step p ts) := by linarith [hb.2]
      have := mul_le_mul_of_nonneg_left this pr
      refine le_trans this (le_of_eq ?_)
      rw [List.length_cons, pow_succ]
      push_cast
      ring

/-- The number added in single precision. -/
theorem step_single {ts : ℝ} (hts : 0 ≤ ts) :
    (1 - (1 / 2) ^ 24) ^ 2 * (ts / 1440) ≤ step .single ts ∧ step .single ts ≤ (1 + (1 / 2) ^ 24) ^ 2 * (ts / 1440) := by
  have a := ClockFloat.step_bounds error_double hts
  have a0 := ClockFloat.step_nonneg error_double hts
  have b := error_single.bounds a0
  have x0 : 0 ≤ ts / 1440 := by positivity
  show _ ≤ IdwFloat.binary 24 (stepDays (IdwFloat.binary 53) ts) ∧ IdwFloat.binary 24 (stepDays (IdwFloat.binary 53) ts) ≤ _
  generalize IdwFloat.binary 24 (stepDays (IdwFloat.binary 53) ts) = y at *
  generalize stepDays (IdwFloat.binary 53) ts = z at *
  generalize ts / 1440 = x at *
  constructor <;> nlinarith [b.1, b.2, a.1, a.2]

/-- The restarted clock in single precision shows the time elapsed up to the factors `(1 - u) ^ (k + 2)` and `(1 + u) ^ (k + 2)`,
`u = 2 ^ (-24)`, after `k` steps without a storm. -/
theorem C154_drift_bound (ts mass thresh : ℝ) (hts : 0 ≤ ts) (days : ι → ℝ) (i : ι) (hd : 0 ≤ days i) (h : List (Step ι))
    (hn : ∀ s ∈ h, ¬ Resets mass thresh i s) :
    (1 - (1 / 2) ^ 24) ^ (h.length + 2) * (days i + h.length * (ts / 1440)) ≤ resumed .single ts mass thresh days h i ∧
    resumed .single ts mass thresh days h i ≤ (1 + (1 / 2) ^ 24) ^ (h.length + 2) * (days i + h.length * (ts / 1440)) := by
  have hs := step_single hts
  have x0 : 0 ≤ ts / 1440 := by positivity
  have s0 : 0 ≤ step .single ts := le_trans (by positivity) hs.1
  have c := error_single.bounds hd
  have c0 : 0 ≤ IdwFloat.binary 24 (days i) := le_trans (mul_nonneg (by norm_num) hd) c.1
  obtain ⟨l, r⟩ := running (p := .single) error_single ts mass thresh s0 i h hn (fun i => IdwFloat.binary 24 (days i)) c0
  have k0 : (0 : ℝ) ≤ h.length := Nat.cast_nonneg _
  change _ ≤ resumed .single ts mass thresh days h i at l
  change resumed .single ts mass thresh days h i ≤ _ at r
  have e1 := mul_le_mul_of_nonneg_left hs.1 k0
  have e2 := mul_le_mul_of_nonneg_left hs.2 k0
  constructor
  · refine le_trans ?_ l
    rw [pow_add, mul_assoc]
    refine mul_le_mul_of_nonneg_left ?_ (by norm_num)
    have : (1 - (1 / 2) ^ 24) ^ 2 * days i ≤ (1 - (1 / 2) ^ 24) * days i := mul_le_mul_of_nonneg_right (by norm_num) hd
    have e := c.1
    linarith
  · refine le_trans r ?_
    rw [pow_add, mul_assoc]
    refine mul_le_mul_of_nonneg_left ?_ (by positivity)
    have : (1 + (1 / 2) ^ 24) * days i ≤ (1 + (1 / 2) ^ 24 : ℝ) ^ 2 * days i := mul_le_mul_of_nonneg_right (by norm_num) hd
    have e := c.2
    linarith

/-- With steps of an hour or longer, the restarted clock is right within five hours as long as it shows at most a year. -/
theorem C154_year (ts mass thresh : ℝ) (hts : 60 ≤ ts) (days : ι → ℝ) (i : ι) (hd : 0 ≤ days i) (h : List (Step ι))
    (hn : ∀ s ∈ h, ¬ Resets mass thresh i s) (hy : days i + h.length * (ts / 1440) ≤ 366) :
    |resumed .single ts mass thresh days h i - (days i + h.length * (ts / 1440))| ≤ 5 / 24 := by
  obtain ⟨l, r⟩ := C154_drift_bound ts mass thresh (by linarith) days i hd h hn
  have k0 : (0 : ℝ) ≤ h.length := Nat.cast_nonneg _
  have hk : (h.length : ℝ) ≤ 8784 := by nlinarith
  have hx : 0 ≤ days i + h.length * (ts / 1440) := add_nonneg hd (by positivity)
  generalize days i + (h.length : ℝ) * (ts / 1440) = x at *
  have b : 1 - ((h.length + 2 : ℕ) : ℝ) * (1 / 2) ^ 24 ≤ (1 - (1 / 2) ^ 24) ^ (h.length + 2) := by
    have := one_add_mul_le_pow (a := -((1 : ℝ) / 2) ^ 24) (by norm_num) (h.length + 2)
    refine le_trans (le_of_eq ?_) (le_trans this (le_of_eq ?_))
    · ring
    · ring
  have ku : ((h.length + 2 : ℕ) : ℝ) * (1 / 2) ^ 24 ≤ 8786 / 2 ^ 24 := by
    push_cast
    norm_num
    linarith
  have m : (1 + (1 / 2) ^ 24 : ℝ) ^ (h.length + 2) * (1 - (1 / 2) ^ 24) ^ (h.length + 2) ≤ 1 := by
    rw [← mul_pow]
    exact pow_le_one₀ (by norm_num) (by norm_num)
  have q : (1 + (1 / 2) ^ 24 : ℝ) ^ (h.length + 2) ≤ 1 + 8796 / 2 ^ 24 := by
    have p0 : 0 ≤ (1 + (1 / 2) ^ 24 : ℝ) ^ (h.length + 2) := by positivity
    have : (1 + (1 / 2) ^ 24 : ℝ) ^ (h.length + 2) * (1 - 8786 / 2 ^ 24) ≤ 1 :=
      le_trans (mul_le_mul_of_nonneg_left (by linarith) p0) m
    generalize (1 + (1 / 2) ^ 24 : ℝ) ^ (h.length + 2) = y at *
    norm_num at this ⊢
    linarith
  have l' : (1 - 8786 / 2 ^ 24) * x ≤ resumed .single ts mass thresh days h i :=
    le_trans (mul_le_mul_of_nonneg_right (by linarith) hx) l
  have r' : resumed .single ts mass thresh days h i ≤ (1 + 8796 / 2 ^ 24) * x :=
    le_trans r (mul_le_mul_of_nonneg_right q hx)
  generalize resumed .single ts mass thresh days h i = y at *
  rw [abs_le]
  constructor
  · norm_num at l' ⊢
    linarith
  · norm_num at r' ⊢
    linarith

/-- Rounding a number between two powers of two. -/
theorem binary_eval (n : ℕ) {x : ℝ} (hx : 0 < x) (e : ℤ) (h1 : (2 : ℝ) ^ e ≤ x) (h2 : x < (2 : ℝ) ^ (e + 1)) (z : ℤ)
    (h3 : (z : ℝ) - 1 / 2 ≤ x * (2 : ℝ) ^ ((n : ℤ) - 1 - e)) (h4 : x * (2 : ℝ) ^ ((n : ℤ) - 1 - e) < z + 1 / 2) :
    IdwFloat.binary n x = z * (2 : ℝ) ^ (e - (n - 1)) := by
  have he : Int.log 2 |x| = e := by
    rw [abs_of_pos hx]
    refine le_antisymm ?_ ?_
    · have := (Int.lt_zpow_iff_log_lt (b := 2) (by norm_num) hx (x := e + 1)).1 (by exact_mod_cast h2)
      omega
    · exact (Int.zpow_le_iff_le_log (b := 2) (by norm_num) hx).1 (by exact_mod_cast h1)
  unfold IdwFloat.binary
  rw [he]
  have : round (x * (2 : ℝ) ^ ((n : ℤ) - 1 - e)) = z := by
    rw [round_eq, Int.floor_eq_iff]
    exact ⟨by linarith, by linarith⟩
  rw [this]

/-- An hour in days, in double and in single precision. -/
theorem hour_double : stepDays (IdwFloat.binary 53) 60 = 6004799503160661 / 2 ^ 57 := by
  have h1 : IdwFloat.binary 53 (60 / 60) = 1 := by
    rw [binary_eval 53 (by norm_num) 0 (by norm_num) (by norm_num) (2 ^ 52) (by norm_num) (by norm_num)]
    norm_num
  unfold ClockFloat.stepDays
  rw [h1, binary_eval 53 (by norm_num) (-5) (by norm_num) (by norm_num) 6004799503160661 (by norm_num) (by norm_num)]
  norm_num

theorem hour_single : step .single 60 = 11184811 / 2 ^ 28 := by
  show IdwFloat.binary 24 (stepDays (IdwFloat.binary 53) 60) = _
  rw [hour_double, binary_eval 24 (by norm_num) (-5) (by norm_num) (by norm_num) 11184811 (by norm_num) (by norm_num)]
  norm_num

/-- Between 128 and 256 days an hour counts `2731 / 65536` days. -/
theorem hour_counts (m : ℤ) (h1 : 2 ^ 23 ≤ m) (h2 : m + 2731 < 2 ^ 24) :
    IdwFloat.binary 24 (m / 65536 + step .single 60) = (m + 2731 : ℤ) / 65536 := by
  have h1' : (2 : ℝ) ^ 23 ≤ m := by exact_mod_cast h1
  have h2' : (m : ℝ) + 2731 < 2 ^ 24 := by exact_mod_cast h2
  rw [hour_single]
  rw [binary_eval 24 (by norm_num at h1' ⊢; linarith) 7 (by norm_num at h1' ⊢; linarith) (by norm_num at h2' ⊢; linarith) (m + 2731)
    (by push_cast; norm_num; linarith) (by push_cast; norm_num; linarith)]
  push_cast
  norm_num
  ring

theorem hours (mass thresh : ℝ) (n : ℕ) (m : ℤ) (h1 : 2 ^ 23 ≤ m) (h2 : m + 2731 * n < 2 ^ 24) (days : ι → ℝ) (i : ι) (hd : days i = m / 65536) :
    run .single 60 mass thresh days (List.replicate n .dry) i = (m + 2731 * n : ℤ) / 65536 := by
  induction n generalizing m days with
  | zero => simp [run, hd]
  | succ n ih =>
    have e : run .single 60 mass thresh days (List.replicate (n + 1) .dry) =
        run .single 60 mass thresh (tick .single 60 mass thresh days .dry) (List.replicate n .dry) := rfl
    rw [e, ih (m + 2731) (by linarith) (by push_cast at h2; linarith) _ ?_]
    · push_cast; ring
    · show IdwFloat.binary 24 (days i + step .single 60) = _
      rw [hd, hour_counts m h1 (by push_cast at h2; nlinarith [Int.natCast_nonneg n])]

/-- The clock drifts. A run restarted in a dry spell, 128 to 130 days after the last storm, is 20 minutes ahead of the uninterrupted one
after another 125 days without precipitation. -/
theorem C154_drift_fails (mass thresh : ℝ) (days : ι → ℝ) (i : ι) (h1 : 128 ≤ days i) (h2 : days i ≤ 130) :
    run .double 60 mass thresh days (List.replicate 3000 .dry) i + 1 / 72 <
      resumed .single 60 mass thresh days (List.replicate 3000 .dry) i := by
  obtain ⟨m, hm⟩ : ∃ m : ℤ, IdwFloat.binary 24 (days i) = m / 65536 ∧ 2 ^ 23 ≤ m ∧ m ≤ 130 * 65536 ∧ |(m : ℝ) / 65536 - days i| ≤ 1 / 131072 := by
    refine ⟨round (days i * 65536), ?_, ?_, ?_, ?_⟩
    · have hr := abs_sub_round (days i * 65536)
      rw [abs_le] at hr
      have he : Int.log 2 |days i| = 7 := by
        have hx : 0 < days i := by linarith
        rw [abs_of_pos hx]
        refine le_antisymm ?_ ?_
        · have := (Int.lt_zpow_iff_log_lt (b := 2) (by norm_num) hx (x := 8)).1 (by norm_num; linarith)
          omega
        · exact (Int.zpow_le_iff_le_log (b := 2) (by norm_num) hx).1 (by norm_num; linarith)
      unfold IdwFloat.binary
      rw [he]
      norm_num
      ring
    · rw [round_eq, Int.le_floor]
      push_cast
      linarith
    · have : round (days i * 65536) < 130 * 65536 + 1 := by
        rw [round_eq, Int.floor_lt]
        push_cast
        linarith
      linarith
    · have hr := abs_sub_round (days i * 65536)
      rw [abs_le] at hr ⊢
      constructor <;> linarith [hr.1, hr.2]
  obtain ⟨e, m1, m2, m3⟩ := hm
  have hs := hours mass thresh 3000 m m1 (by norm_num; linarith) (fun i => IdwFloat.binary 24 (days i)) i e
  have hd := (ClockFloat.C149_running _ _ error_double 60 mass thresh (by norm_num) days i (by linarith) (List.replicate 3000 .dry)
    (fun s hs => by rw [List.eq_of_mem_replicate hs]; exact id)).2
  rw [← run_double] at hd
  have f := (ClockFloat.factor_bound (u := (1 / 2) ^ 53) (by positivity) ((List.replicate 3000 (Step.dry : Step ι)).length + 2)
    (by rw [List.length_replicate]; norm_num)).2
  rw [List.length_replicate] at f hd
  have g : run .double 60 mass thresh days (List.replicate 3000 .dry) i ≤ (days i + 125) + 1 / 10 ^ 6 := by
    refine le_trans hd (le_trans (mul_le_mul_of_nonneg_right f (by norm_num; linarith)) ?_)
    norm_num
    linarith
  have : resumed .single 60 mass thresh days (List.replicate 3000 .dry) i = ((m + 2731 * (3000 : ℕ) : ℤ) : ℝ) / 65536 := hs
  rw [this]
  generalize run .double 60 mass thresh days (List.replicate 3000 .dry) i = y at *
  push_cast
  rw [abs_le] at m3
  linarith [m3.1]

/-- Also after the next storm the clock stays in single precision: an hour after it, it shows another number than that of a run which was not
restarted. -/
theorem C154_after_storm_fails (mass thresh : ℝ) (days : ι → ℝ) (i : ι) (pre : List (Step ι)) (s : Step ι) (hs : Resets mass thresh i s) :
    resumed .single 60 mass thresh days (pre ++ [s, .dry]) i = 11184811 / 2 ^ 28 ∧
    run .double 60 mass thresh days (pre ++ [s, .dry]) i = 6004799503160661 / 2 ^ 57 := by
  have hd : run .double 60 mass thresh days (pre ++ [s, .dry]) i = run .double 60 mass thresh (fun _ => 0) [.dry] i :=
    C154_forgets .double 60 mass thresh days i pre [.dry] s hs
  rw [C154_forgets .single 60 mass thresh days i pre [.dry] s hs, hd]
  constructor
  · show IdwFloat.binary 24 (0 + step .single 60) = _
    rw [hour_single, zero_add, binary_eval 24 (by norm_num) (-5) (by norm_num) (by norm_num) 11184811 (by norm_num) (by norm_num)]
    norm_num
  · show IdwFloat.binary 53 (0 + step .double 60) = _
    rw [show step .double 60 = stepDays (IdwFloat.binary 53) 60 from rfl, hour_double, zero_add,
      binary_eval 53 (by norm_num) (-5) (by norm_num) (by norm_num) 6004799503160661 (by norm_num) (by norm_num)]
    norm_num

theorem C154_fails : ¬ C154_full := by
  intro h
  have h1 := h .single 60 0 0 (fun _ => 128) [] (List.replicate 3000 .dry) (by norm_num) (fun _ => by norm_num) ()
  have h2 := C154_drift_fails (ι := Unit) 0 0 (fun _ => 128) () le_rfl (by norm_num)
  have hd := (ClockFloat.C149_running _ _ error_double 60 0 0 (by norm_num) (fun _ : Unit => 128) () (by norm_num) (List.replicate 3000 .dry)
    (fun s hs => by rw [List.eq_of_mem_replicate hs]; exact id)).2
  rw [← run_double] at hd
  have f := (ClockFloat.factor_bound (u := (1 / 2) ^ 53) (by positivity) ((List.replicate 3000 (Step.dry : Step Unit)).length + 2)
    (by rw [List.length_replicate]; norm_num)).2
  rw [List.length_replicate] at f hd
  have g : run .double 60 0 0 (fun _ : Unit => 128) (List.replicate 3000 .dry) () ≤ 254 := by
    refine le_trans hd (le_trans (mul_le_mul_of_nonneg_right f (by norm_num)) ?_)
    norm_num
  rw [List.nil_append] at h1
  have : run .double 60 0 0 (fun _ : Unit => (128 : ℝ)) [] = fun _ => 128 := rfl
  rw [this] at h1
  generalize resumed .single 60 0 0 (fun _ : Unit => (128 : ℝ)) (List.replicate 3000 .dry) () = x at *
  generalize run .double 60 0 0 (fun _ : Unit => (128 : ℝ)) (List.replicate 3000 .dry) () = y at *
  have := (abs_le.1 h1).2
  norm_num at this
  linarith

/-- The hypotheses of `C154_year` can be met: a day after a storm, then ten hours. -/
example (mass thresh : ℝ) : |resumed .single 60 mass thresh (fun _ : Unit => 1) (List.replicate 10 .dry) () - (1 + 10 * (60 / 1440))| ≤ 5 / 24 := by
  have := C154_year (ι := Unit) 60 mass thresh le_rfl (fun _ => 1) () (by norm_num) (List.replicate 10 .dry)
    (fun s hs => by rw [List.eq_of_mem_replicate hs]; exact id) (by norm_num)
  simpa using this

/-- A storm that resets the clock. -/
example : Resets (ι := Unit) 1 (1 / 2) () (.wet (fun _ => 2) (fun _ => -1) (fun _ => 1) true) := ⟨rfl, ⟨(), by norm_num⟩, by norm_num, by norm_num⟩

end Verif.RestartFloat
