import Verif.StampLemmas

/-!
C126: single-precision times keep the steps of a run apart, and a restart finds its record.
-/

namespace Verif.Stamp
open Verif.Output

/-- Dates within `2^n` hours of the start date of the file. -/
def Near (n : ℕ) (m : ℤ) : Prop := |m| < 60 * 2 ^ n

instance (n : ℕ) (m : ℤ) : Decidable (Near n m) := inferInstanceAs (Decidable (|m| < 60 * 2 ^ n))

theorem find_congr {α : Type} (p q : α → Bool) (l : List α) (h : ∀ a ∈ l, p a = q a) : l.find? p = l.find? q := by
  induction l with
  | nil => rfl
  | cons a l ih =>
    rw [List.find?_cons, List.find?_cons, h a (by simp), ih fun b hb => h b (by simp [hb])]

theorem near_hours (n : ℕ) (m : ℤ) (h : Near n m) : |(m : ℚ) / 60| ≤ 2 ^ n - 1 / 60 := by
  unfold Near at h
  have h1 : |m| + 1 ≤ 60 * 2 ^ n := h
  have h2 : (|m| : ℚ) + 1 ≤ 60 * 2 ^ n := by exact_mod_cast h1
  rw [abs_div, abs_of_pos (show (0 : ℚ) < 60 by norm_num)]
  linarith

theorem hours_err (n : ℕ) (hn : n ≤ 40) (m : ℤ) (h : Near n m) :
    |hours m - m / 60| ≤ 2 ^ ((n : ℤ) - 53) / 2 ∧ |hours m| < 2 ^ (n : ℤ) := by
  have h0 := near_hours n m h
  have h1 := rnd_err 53 ((m : ℚ) / 60) n (by rw [zpow_natCast]; linarith)
  refine ⟨h1, ?_⟩
  have h2 : (2 : ℚ) ^ ((n : ℤ) - 53) ≤ 2 ^ (-13 : ℤ) := zpow_le_zpow_right₀ (by norm_num) (by omega)
  have h3 : (2 : ℚ) ^ (-13 : ℤ) = 1 / 8192 := by norm_num
  have h4 : |hours m| ≤ |hours m - m / 60| + |(m : ℚ) / 60| := by
    have := abs_add_le (hours m - m / 60) ((m : ℚ) / 60)
    rwa [sub_add_cancel] at this
  rw [zpow_natCast]
  have h5 : |hours m - m / 60| ≤ 2 ^ ((n : ℤ) - 53) / 2 := h1
  rw [h3] at h2
  linarith

theorem stored_err (n : ℕ) (hn : n ≤ 40) (m : ℤ) (h : Near n m) :
    |stored m - m / 60| ≤ 2 ^ ((n : ℤ) - 24) / 2 + 2 ^ ((n : ℤ) - 53) / 2 := by
  obtain ⟨h1, h2⟩ := hours_err n hn m h
  have h3 := rnd_err 24 (hours m) n h2
  have h4 := abs_add_le (rnd 24 (hours m) - hours m) (hours m - m / 60)
  rw [sub_add_sub_cancel] at h4
  unfold stored
  exact h4.trans (add_le_add h3 h1)

/-- The rounding is that of IEEE 754: with the exponent at which the number has `p` digits before the point, the
result is a multiple of the last place, at most half of it away, and an even multiple in case of a tie. -/
theorem C126_rounding (p : ℕ) (q : ℚ) (hq : q ≠ 0) : ∃ k e : ℤ, rnd p q = k * 2 ^ e ∧
    2 ^ (e + p - 1) ≤ |q| ∧ |q| < 2 ^ (e + p) ∧ |rnd p q - q| ≤ 2 ^ e / 2 ∧ (|rnd p q - q| = 2 ^ e / 2 → 2 ∣ k) := by
  have hu := ulp_pos p q
  have hq' : 0 < |q| := abs_pos.2 hq
  have hlo := Int.zpow_log_le_self (b := 2) (by norm_num) hq'
  have hhi := Int.lt_zpow_succ_log_self (b := 2) (by norm_num) |q|
  have tie : ∀ x : ℚ, |nearest (x / ulp p q) * ulp p q - x| = ulp p q / 2 → 2 ∣ nearest (x / ulp p q) := by
    intro x h
    apply nearest_tie
    have e : nearest (x / ulp p q) * ulp p q - x = (nearest (x / ulp p q) - x / ulp p q) * ulp p q := by field_simp
    rw [e, abs_mul, abs_of_pos hu] at h
    have := mul_right_cancel₀ hu.ne' (h.trans (by ring : ulp p q / 2 = 1 / 2 * ulp p q))
    exact this
  have hnear := rnd_near p q
  have e1 : Int.log 2 |q| - p + 1 + p - 1 = Int.log 2 |q| := by ring
  have e2 : Int.log 2 |q| - p + 1 + p = Int.log 2 |q| + 1 := by ring
  rcases lt_or_gt_of_ne hq with h | h
  · have e : rnd p q = -(nearest (-q / ulp p q) * ulp p q) := by
      unfold rnd; rw [if_neg hq, if_neg (by linarith)]
    refine ⟨-nearest (-q / ulp p q), Int.log 2 |q| - p + 1, ?_, ?_, ?_, hnear, fun ht => ?_⟩
    · rw [e]; push_cast; rw [neg_mul]; rfl
    · rw [e1]; exact_mod_cast hlo
    · rw [e2]; exact_mod_cast hhi
    · rw [dvd_neg]
      apply tie
      rw [e, show -(nearest (-q / ulp p q) * ulp p q) - q = -(nearest (-q / ulp p q) * ulp p q - -q) by ring, abs_neg] at ht
      exact ht
  · have e : rnd p q = nearest (q / ulp p q) * ulp p q := by
      unfold rnd; rw [if_neg hq, if_pos h]
    refine ⟨nearest (q / ulp p q), Int.log 2 |q| - p + 1, ?_, ?_, ?_, hnear, fun ht => ?_⟩
    · rw [e]; rfl
    · rw [e1]; exact_mod_cast hlo
    · rw [e2]; exact_mod_cast hhi
    · apply tie
      rw [e] at ht
      exact ht

/-- Three quarters of a last place between 2^23 and 2^24, and a tie. -/
example : rnd 24 (2 ^ 23 + 3 / 4) = 2 ^ 23 + 1 ∧ rnd 24 (2 ^ 23 + 3 / 2) = 2 ^ 23 + 2 ∧ rnd 24 (2 ^ 23 + 1 / 2) = 2 ^ 23 := by
  decide +kernel

/-- Two dates that are further apart than the spacing of single precision at `2^n` hours keep their order. -/
theorem C126_apart (n : ℕ) (hn : n ≤ 40) (m m' : ℤ) (h : Near n m) (h' : Near n m')
    (hd : (2 : ℚ) ^ ((n : ℤ) - 24) + 2 ^ ((n : ℤ) - 53) < ((m' : ℚ) - m) / 60) : stored m < stored m' := by
  have h1 := stored_err n hn m h
  have h2 := stored_err n hn m' h'
  rw [abs_le] at h1 h2
  linarith [h1.1, h1.2, h2.1, h2.2]

/-- Up to 2^18 hours (almost 30 years) from the start date of the file, the times stored for different
minutes are different and in order, and less than half a minute off. -/
theorem C126_order (m m' : ℤ) (h : Near 18 m) (h' : Near 18 m') :
    (m < m' ↔ stored m < stored m') ∧ (stored m = stored m' ↔ m = m') ∧ |stored m * 60 - m| < 1 / 2 := by
  have key : ∀ m m' : ℤ, Near 18 m → Near 18 m' → m < m' → stored m < stored m' := by
    intro m m' h h' hlt
    apply C126_apart 18 (by norm_num) m m' h h'
    have h1 : (m : ℚ) + 1 ≤ m' := by exact_mod_cast hlt
    have e : (2 : ℚ) ^ (((18 : ℕ) : ℤ) - 24) + 2 ^ (((18 : ℕ) : ℤ) - 53) < 1 / 60 := by norm_num
    have : (1 : ℚ) / 60 ≤ ((m' : ℚ) - m) / 60 := by
      apply div_le_div_of_nonneg_right _ (by norm_num)
      linarith
    linarith
  refine ⟨⟨key m m' h h', fun hs => ?_⟩, ⟨fun hs => ?_, fun e => by rw [e]⟩, ?_⟩
  · rcases lt_trichotomy m m' with g | g | g
    · exact g
    · rw [g] at hs; exact absurd hs (lt_irrefl _)
    · exact absurd hs (not_lt.2 (key m' m h' h g).le)
  · rcases lt_trichotomy m m' with g | g | g
    · exact absurd hs (key m m' h h' g).ne
    · exact g
    · exact absurd hs (key m' m h' h g).ne'
  · have h1 := stored_err 18 (by norm_num) m h
    have e : (2 : ℚ) ^ (((18 : ℕ) : ℤ) - 24) / 2 + 2 ^ (((18 : ℕ) : ℤ) - 53) / 2 < 1 / 120 := by norm_num
    rw [show stored m * 60 - m = (stored m - m / 60) * 60 by ring, abs_mul, abs_of_pos (show (0 : ℚ) < 60 by norm_num)]
    linarith

/-- The time is stored exactly for whole quarters of an hour, and for nothing else. -/
theorem C126_exact (m : ℤ) (h : |m| ≤ 15 * 2 ^ 24) : stored m = m / 60 ↔ 15 ∣ m := by
  constructor
  · intro e
    by_contra hm
    obtain ⟨k, hk⟩ := rnd_multiple 24 (hours m)
    have := far m k (Int.log 2 |hours m| - 24 + 1) hm
    have e2 : (k : ℚ) * 2 ^ (Int.log 2 |hours m| - 24 + 1) = m / 60 := by
      have : rnd 24 (hours m) = m / 60 := e
      rw [← this, hk]
      rfl
    rw [e2, sub_self, abs_zero] at this
    have h2 : (0 : ℚ) < 2 ^ (Int.log 2 |hours m| - 24 + 1) := zpow_pos (by norm_num) _
    exact absurd this (not_le.2 (lt_min (by linarith) (by norm_num)))
  · rintro ⟨k, rfl⟩
    have hk : |k| ≤ 2 ^ 24 := by
      rw [abs_mul, abs_of_pos (by norm_num : (0 : ℤ) < 15)] at h
      linarith
    have e : (((15 * k : ℤ) : ℚ)) / 60 = k * 2 ^ (-2 : ℤ) := by
      push_cast
      norm_num
      ring
    unfold stored hours
    rw [e, rnd_exact 53 (by norm_num) k (-2) (hk.trans (by norm_num)), rnd_exact 24 (by norm_num) k (-2) hk]

/-- The value of the newest write for a date. -/
def newestAt {R : Type} (m : ℤ) (ws : List (ℤ × R)) : Option R := (ws.reverse.find? (fun w => w.1 = m)).map Prod.snd

/-- Compared in single precision, whatever was written to the file in any number of runs: each date has one
record, with the value written last, and dates never written have none. -/
theorem C126_records {R : Type} (ws : List (ℤ × R)) (hw : ∀ w ∈ ws, Near 18 w.1) :
    ((ws.foldl writeSingle []).map Prod.fst).Nodup ∧
    ∀ m, Near 18 m → recordOf (ws.foldl writeSingle []) (stored m) = newestAt m ws := by
  have e : ∀ (ws : List (ℤ × R)) (f : List (ℚ × R)),
      ws.foldl writeSingle f = writes id f (ws.map fun w => (stored w.1, w.2)) := by
    intro ws
    induction ws with
    | nil => intro f; rfl
    | cons w ws ih => intro f; rw [List.foldl_cons, ih]; rfl
  rw [e]
  obtain ⟨h1, h2⟩ := C13_latest_record_partial id ([] : List (ℚ × R)) (ws.map fun w => (stored w.1, w.2)) (fun _ _ => rfl) (by simp)
  refine ⟨h1, fun m hm => ?_⟩
  rw [h2]
  have h3 : newest (stored m) (ws.map fun w => (stored w.1, w.2)) = newestAt m ws := by
    unfold newest newestAt
    rw [← List.map_reverse, List.find?_map]
    have : List.find? ((fun w : ℚ × R => decide (w.1 = stored m)) ∘ fun w : ℤ × R => (stored w.1, w.2)) ws.reverse =
        List.find? (fun w => decide (w.1 = m)) ws.reverse := by
      apply find_congr
      intro w hwm
      have := (C126_order w.1 m (hw w (by simpa using hwm)) hm).2.1
      simp only [Function.comp, decide_eq_decide]
      exact this
    rw [this]
    cases List.find? (fun w => decide (w.1 = m)) ws.reverse <;> rfl
  rw [h3]
  have : recordOf ([] : List (ℚ × R)) (stored m) = none := rfl
  rw [this, Option.or_none]

/-- Runs of ten-minute steps over the same dates: the second run replaces the first. -/
example : [((0 : ℤ), 'a'), (10, 'b'), (20, 'c'), (10, 'd')].foldl writeSingle [] =
    [(stored 0, 'a'), (stored 10, 'd'), (stored 20, 'c')] := by decide +kernel

/-! ### Restart -/

theorem stored_far (m : ℤ) (h : Near 18 m) (hm : ¬ 15 ∣ m) : 1 / 2 < |stored m - m / 60| * 3600000000 := by
  have h0 : m ≠ 0 := fun e => hm (e ▸ dvd_zero _)
  by_cases h1 : m = 1
  · subst h1; decide +kernel
  by_cases h2 : m = -1
  · subst h2; decide +kernel
  have hm2 : 2 ≤ |m| := by
    rcases abs_cases m with ⟨e, _⟩ | ⟨e, _⟩ <;> omega
  have hm3 : (2 : ℚ) ≤ |(m : ℚ)| := by exact_mod_cast hm2
  obtain ⟨e1, -⟩ := hours_err 18 (by norm_num) m h
  have e2 : (2 : ℚ) ^ (-5 : ℤ) ≤ |hours m| := by
    have h4 := abs_sub_abs_le_abs_sub ((m : ℚ) / 60) (hours m)
    rw [abs_sub_comm ((m : ℚ) / 60), abs_div, abs_of_pos (show (0 : ℚ) < 60 by norm_num)] at h4
    norm_num at e1 ⊢
    linarith
  have e3 := ulp_ge 24 (hours m) (-5) e2
  obtain ⟨k, hk⟩ := rnd_multiple 24 (hours m)
  have h5 := far m k (Int.log 2 |hours m| - 24 + 1) hm
  have h6 : stored m = k * 2 ^ (Int.log 2 |hours m| - 24 + 1) := hk
  rw [← h6] at h5
  have h7 : (2 : ℚ) ^ (-5 - ((24 : ℕ) : ℤ) + 1) ≤ 2 ^ (Int.log 2 |hours m| - 24 + 1) := e3
  have h8 : 1 / 4026531840 ≤ |stored m - m / 60| := by
    refine le_trans (le_min ?_ (by norm_num)) h5
    norm_num at h7 ⊢
    linarith
  linarith

/-- The date read from the file is the date of the step for whole quarters of an hour, and for no other. -/
theorem C126_decode (m : ℤ) (h : Near 18 m) : decode (stored m) = m * 60000000 ↔ 15 ∣ m := by
  constructor
  · intro e
    by_contra hm
    have h1 := stored_far m h hm
    have h2 := nearest_near (stored m * 3600000000)
    unfold decode at e
    rw [e] at h2
    push_cast at h2
    rw [show (m : ℚ) * 60000000 - stored m * 3600000000 = -((stored m - m / 60) * 3600000000) by ring, abs_neg, abs_mul,
      abs_of_pos (show (0 : ℚ) < 3600000000 by norm_num)] at h2
    linarith
  · intro hm
    unfold Near at h
    have := (C126_exact m (by omega)).2 hm
    unfold decode
    rw [this, show (m : ℚ) / 60 * 3600000000 = ((m * 60000000 : ℤ) : ℚ) by push_cast; ring, nearest_int]

theorem decode_other (m m' : ℤ) (h : Near 18 m') (hne : m' ≠ m) : decode (stored m') ≠ m * 60000000 := by
  intro e
  have h1 := nearest_near (stored m' * 3600000000)
  have h2 := (C126_order m' m' h h).2.2
  unfold decode at e
  rw [e] at h1
  push_cast at h1
  have h3 : (1 : ℚ) ≤ |(m' : ℚ) - m| := by
    rw [← Int.cast_sub, ← Int.cast_abs]
    exact_mod_cast Int.one_le_abs (sub_ne_zero.2 hne)
  have h4 : |(m : ℚ) - stored m' * 60| * 60000000 ≤ 1 / 2 := by
    rw [show (m : ℚ) * 60000000 - stored m' * 3600000000 = (m - stored m' * 60) * 60000000 by ring, abs_mul,
      abs_of_pos (show (0 : ℚ) < 60000000 by norm_num)] at h1
    exact h1
  have h5 := abs_add_le ((m : ℚ) - stored m' * 60) (stored m' * 60 - m')
  rw [sub_add_sub_cancel, abs_sub_comm] at h5
  linarith

/-- A restart from a file of any steps finds the record of its start date when the two dates are whole quarters
of an hour apart. Missing: other starts, see `C126_restart_fails`. -/
theorem C126_restart_partial (ms : List ℤ) (hms : ∀ m ∈ ms, Near 18 m) (hd : ms.Nodup) (i : Nat) (hi : i < ms.length)
    (hq : 15 ∣ ms[i]) : findStart ms[i] (ms.map stored) = some i := by
  unfold findStart
  rw [List.findIdx?_map, List.findIdx?_eq_some_iff_getElem]
  refine ⟨hi, ?_, fun j hj => ?_⟩
  · simp only [Function.comp, decide_eq_true_eq]
    exact (C126_decode _ (hms _ (List.getElem_mem hi))).2 hq
  · simp only [Function.comp, decide_eq_true_eq]
    apply decode_other _ _ (hms _ (List.getElem_mem (hj.trans hi)))
    intro e
    exact absurd ((hd.getElem_inj_iff).1 e) (by omega)

/-- Any other start date is not found, though its record is in the file; the restart goes on with zeros. -/
theorem C126_restart_fails (ms : List ℤ) (hms : ∀ m ∈ ms, Near 18 m) (m : ℤ) (hm : ¬ 15 ∣ m) :
    findStart m (ms.map stored) = none := by
  unfold findStart
  rw [List.findIdx?_eq_none_iff]
  intro q hq
  obtain ⟨m', hm', rfl⟩ := List.mem_map.1 hq
  simp only [decide_eq_false_iff_not]
  by_cases e : m' = m
  · subst e
    exact fun h => hm ((C126_decode _ (hms _ hm')).1 h)
  · exact decode_other m m' (hms _ hm') e

/-- A restart at 00:30 finds the second record of a file of half hours; at 00:20 it finds none of a file of
twenty minutes. -/
example : findStart 30 ([0, 30, 60].map stored) = some 1 ∧ findStart 20 ([0, 20, 40, 60].map stored) = none :=
  ⟨C126_restart_partial [0, 30, 60] (by decide) (by decide) 1 (by decide) (by decide),
    C126_restart_fails _ (by decide) _ (by decide)⟩

/-! ### What is not true -/

/-- Compared in double precision, a step that is not at a whole quarter of an hour is never found again: each
run adds a further record of it. -/
theorem C126_double_fails {R : Type} (m : ℤ) (h : Near 18 m) (hm : ¬ 15 ∣ m) (ms : List ℤ) (hms : ∀ m' ∈ ms, Near 18 m')
    (file : List (ℚ × R)) (hf : ∀ r ∈ file, ∃ m' ∈ ms, r.1 = stored m') (r : R) :
    writeDouble file (m, r) = file ++ [(stored m, r)] := by
  have hne : ∀ m', Near 18 m' → stored m' ≠ hours m := by
    intro m' hm' e
    obtain ⟨e1, -⟩ := hours_err 18 (by norm_num) m h
    norm_num at e1
    by_cases g : m' = m
    · subst g
      have := stored_far m' h hm
      rw [e] at this
      linarith
    · have h2 := (C126_order m' m' hm' hm').2.2
      have h3 : (1 : ℚ) ≤ |(m' : ℚ) - m| := by
        rw [← Int.cast_sub, ← Int.cast_abs]
        exact_mod_cast Int.one_le_abs (sub_ne_zero.2 g)
      have h4 : |stored m' * 60 - m| ≤ 1 / 2 := by
        rw [e, show hours m * 60 - m = (hours m - m / 60) * 60 by ring, abs_mul, abs_of_pos (show (0 : ℚ) < 60 by norm_num)]
        linarith
      have h5 := abs_add_le ((m' : ℚ) - stored m' * 60) (stored m' * 60 - m)
      rw [sub_add_sub_cancel, abs_sub_comm (m' : ℚ) (stored m' * 60)] at h5
      linarith
  have hnone : ∀ f : List (ℚ × R), (∀ r ∈ f, r.1 ≠ hours m) → findTime (hours m) f = none := by
    intro f
    induction f with
    | nil => intro _; rfl
    | cons a f ih =>
      intro hf
      rw [findTime, if_neg (hf a (by simp)), ih fun r hr => hf r (by simp [hr])]
      rfl
  unfold writeDouble
  rw [hnone file fun r hr => by obtain ⟨m', h1, h2⟩ := hf r hr; rw [h2]; exact hne m' (hms m' h1)]

/-- Beyond 2^18 hours two steps of a minute share a time; the second replaces the first. -/
theorem C126_collision_fails : stored (60 * 2 ^ 18 + 1) = stored (60 * 2 ^ 18 + 2) ∧
    [((60 * 2 ^ 18 + 1 : ℤ), 'a'), (60 * 2 ^ 18 + 2, 'b')].foldl writeSingle [] = [(stored (60 * 2 ^ 18 + 1), 'b')] := by
  decide +kernel

/-- The full claim. -/
def C126_full : Prop := ∀ m m' : ℤ, (stored m = stored m' → m = m') ∧ decode (stored m) = m * 60000000

theorem C126_fails : ¬ C126_full := by
  intro h
  exact absurd ((h (60 * 2 ^ 18 + 1) (60 * 2 ^ 18 + 2)).1 C126_collision_fails.1) (by decide)

/-- Writing ten past midnight twice. -/
example : writeDouble (writeDouble [] ((10 : ℤ), 'a')) (10, 'b') = [(stored 10, 'a'), (stored 10, 'b')] := by
  decide +kernel

end Verif.Stamp
