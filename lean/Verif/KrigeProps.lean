import Verif.KrigeLemmas
import Verif.KrigeDistance
import Mathlib.Tactic.IntervalCases
import Mathlib.Tactic.FinCases

/-!
Properties of kriging: the cached weights (C55) and the station elimination (C56).
-/

namespace Verif.Krige
open Verif.Lu Finset

/-! ### C56 -/

section
variable {K : Type} [Field K] [LinearOrder K] [IsStrictOrderedRing K]

/-- The full claim: with at least one station and distances that are not negative, weights come back,
which are not negative and sum to one. -/
def C56_full : Prop :=
  ∀ (mem : Mem ℚ) (nsta : Nat) (ad : Nat → Nat → ℚ) (dgrid elev : Nat → ℚ), 0 < nsta → (∀ m < nsta, 0 ≤ dgrid m) →
    (∀ m n, ad m n = ad n m) → (∀ m, ad m m = 0) → (∀ m n, m ≠ n → 0 < ad m n) →
    ∃ w, krige mem nsta ad dgrid elev = .weights w ∧ (∀ n < nsta, 0 ≤ w n) ∧ ∑ n ∈ range nsta, w n = 1

theorem krige_spec (mem : Mem K) (nsta : Nat) (ad : Nat → Nat → K) (dgrid elev : Nat → K)
    (hd : ∀ m < nsta, 0 ≤ dgrid m) :
    match krige mem nsta ad dgrid elev with
    | .weights w => Elim nsta ad dgrid elev (useFlags nsta dgrid mem.flags) w
    | .exit => 0 < nsta → ∃ flag : Nat → Bool, (∃ m < nsta, flag m = true) ∧ Degenerate nsta ad flag
    | .stuck => False := by
  have hall := cnt_all _ nsta fun n hn => useFlags_all nsta dgrid mem.flags n hn
  have := loop_spec mem nsta ad dgrid elev hd (nsta + 1) (useFlags nsta dgrid mem.flags) (by omega)
  rw [hall] at this
  unfold krige
  cases h : loop mem nsta ad dgrid elev (nsta + 1) nsta (useFlags nsta dgrid mem.flags) with
  | weights w => rw [h] at this; exact this
  | exit =>
    rw [h] at this
    intro hpos
    obtain ⟨f, -, h1, h2⟩ := this ⟨0, hpos, useFlags_all nsta dgrid mem.flags 0 hpos⟩
    exact ⟨f, h1, h2⟩
  | stuck => rw [h] at this; exact this

/-- The elimination loop ends, for all distances, elevations and values left in memory. -/
theorem C56_terminates (mem : Mem K) (nsta : Nat) (ad : Nat → Nat → K) (dgrid elev : Nat → K) :
    krige mem nsta ad dgrid elev ≠ .stuck := by
  have hall := cnt_all _ nsta fun n hn => useFlags_all nsta dgrid mem.flags n hn
  have := loop_ends mem nsta ad dgrid elev (nsta + 1) (useFlags nsta dgrid mem.flags) (by omega)
  rw [hall] at this
  exact this

/-- The weights satisfy the kriging equations of some of the stations, the others have weight zero, all
sum to one, and these equations have no other solution. -/
theorem C56_equations (mem : Mem K) (nsta : Nat) (ad : Nat → Nat → K) (dgrid elev w : Nat → K)
    (hd : ∀ m < nsta, 0 ≤ dgrid m) (h : krige mem nsta ad dgrid elev = .weights w) :
    ∃ used : Nat → Prop, ∃ mu : K,
      (∀ m < nsta, used m → ∑ n ∈ range nsta, ad m n * w n + mu = dgrid m) ∧
      (∀ n < nsta, ¬ used n → w n = 0) ∧ ∑ n ∈ range nsta, w n = 1 ∧
      ∀ (w' : Nat → K) (mu' : K), (∀ m < nsta, used m → ∑ n ∈ range nsta, ad m n * w' n + mu' = dgrid m) →
        (∀ n < nsta, ¬ used n → w' n = 0) → ∑ n ∈ range nsta, w' n = 1 → ∀ n < nsta, w' n = w n := by
  have := krige_spec mem nsta ad dgrid elev hd
  rw [h] at this
  obtain ⟨f, -, mu, sys, reg, -⟩ := this.subset
  refine ⟨fun m => f m = true, mu, sys.1, fun n hn hf => sys.2.2 n hn (by simpa using hf), sys.2.1,
    fun w' mu' h1 h2 h3 => ?_⟩
  exact system_unique nsta ad dgrid f w w' mu mu' sys ⟨h1, h3, fun n hn hf => h2 n hn (by simp [hf])⟩ reg

theorem C56_sum (mem : Mem K) (nsta : Nat) (ad : Nat → Nat → K) (dgrid elev w : Nat → K)
    (hd : ∀ m < nsta, 0 ≤ dgrid m) (h : krige mem nsta ad dgrid elev = .weights w) :
    ∑ n ∈ range nsta, w n = 1 := by
  obtain ⟨_, _, _, _, h, _⟩ := C56_equations mem nsta ad dgrid elev w hd h
  exact h

/-- A negative weight only stays at stations that are not above sea level. -/
theorem C56_nonneg_partial (mem : Mem K) (nsta : Nat) (ad : Nat → Nat → K) (dgrid elev w : Nat → K)
    (hd : ∀ m < nsta, 0 ≤ dgrid m) (h : krige mem nsta ad dgrid elev = .weights w) (n : Nat) (hn : n < nsta)
    (he : 0 < elev n) : 0 ≤ w n := by
  have := krige_spec mem nsta ad dgrid elev hd
  rw [h] at this
  obtain ⟨_, _, _, _, _, hs⟩ := this.subset
  by_contra hc
  exact absurd (hs n hn (not_le.1 hc)) (not_le.2 he)

/-- Stations are eliminated one at a time, the highest of those with negative weight first, from all
stations. -/
theorem C56_order (mem : Mem K) (nsta : Nat) (ad : Nat → Nat → K) (dgrid elev w : Nat → K)
    (hd : ∀ m < nsta, 0 ≤ dgrid m) (h : krige mem nsta ad dgrid elev = .weights w) :
    ∃ flag : Nat → Bool, (∀ m < nsta, flag m = true) ∧ Elim nsta ad dgrid elev flag w := by
  have := krige_spec mem nsta ad dgrid elev hd
  rw [h] at this
  exact ⟨_, fun m hm => useFlags_all nsta dgrid mem.flags m hm, this⟩

/-- With all equations of all station subsets solvable, weights come back. -/
theorem C56_regular (mem : Mem K) (nsta : Nat) (ad : Nat → Nat → K) (dgrid elev : Nat → K) (hpos : 0 < nsta)
    (hd : ∀ m < nsta, 0 ≤ dgrid m)
    (hreg : ∀ used : Nat → Prop, (∃ m < nsta, used m) → ∀ (v : Nat → K) (nu : K),
      (∀ m < nsta, used m → ∑ n ∈ range nsta, ad m n * v n + nu = 0) → ∑ n ∈ range nsta, v n = 0 →
      (∀ n < nsta, ¬ used n → v n = 0) → nu = 0 ∧ ∀ n < nsta, v n = 0) :
    ∃ w, krige mem nsta ad dgrid elev = .weights w := by
  have := krige_spec mem nsta ad dgrid elev hd
  cases h : krige mem nsta ad dgrid elev with
  | weights w => exact ⟨w, rfl⟩
  | exit =>
    rw [h] at this
    obtain ⟨f, h1, v, nu, hne, e1, e2, e3⟩ := this hpos
    obtain ⟨q1, q2⟩ := hreg (fun m => f m = true) h1 v nu e1 e2 fun n hn hf => e3 n hn (by simpa using hf)
    rcases hne with h | ⟨n, hn, h⟩
    · exact absurd q1 h
    · exact absurd (q2 n hn) h
  | stuck => exact absurd h (C56_terminates _ _ _ _ _)

/-- At the location of a station that station has weight one. -/
theorem C56_own_cell (mem : Mem K) (nsta : Nat) (ad : Nat → Nat → K) (dgrid elev w : Nat → K) (s : Nat) (hs : s < nsta)
    (hd : ∀ m < nsta, 0 ≤ dgrid m) (hown : ∀ m < nsta, dgrid m = ad m s)
    (h : krige mem nsta ad dgrid elev = .weights w) (n : Nat) (hn : n < nsta) : w n = if n = s then 1 else 0 := by
  obtain ⟨flag, hall, hel⟩ := C56_order mem nsta ad dgrid elev w hd h
  have hsys : System nsta ad dgrid flag (fun n => if n = s then 1 else 0) 0 := by
    refine ⟨fun m hm hf => ?_, ?_, fun n hn hf => by rw [hall n hn] at hf; cases hf⟩
    · simp [hown m hm, hs]
    · simp [hs]
  cases hel with
  | done sys reg stop => exact (system_unique nsta ad dgrid flag _ _ _ _ hsys sys reg n hn)
  | drop m sys reg hm hf neg pos top rest =>
    have := system_unique nsta ad dgrid flag _ _ _ _ hsys sys reg m hm
    rw [this] at neg
    split at neg
    · exact absurd neg (not_lt.2 zero_le_one)
    · exact absurd neg (lt_irrefl _)

/-- Two stations at one place (equal rows of distances): the process ends with `exit(0)`. -/
theorem C56_colocated_fails (mem : Mem K) (nsta : Nat) (ad : Nat → Nat → K) (dgrid elev : Nat → K) (s t : Nat)
    (hs : s < nsta) (ht : t < nsta) (hst : s ≠ t) (hcol : ∀ m < nsta, ad m s = ad m t)
    (hd : ∀ m < nsta, 0 ≤ dgrid m) : krige mem nsta ad dgrid elev = .exit := by
  have := krige_spec mem nsta ad dgrid elev hd
  cases h : krige mem nsta ad dgrid elev with
  | exit => rfl
  | stuck => exact absurd h (C56_terminates _ _ _ _ _)
  | weights w =>
    exfalso
    obtain ⟨flag, hall, hel⟩ := C56_order mem nsta ad dgrid elev w hd h
    have hdeg : Degenerate nsta ad flag := by
      refine ⟨fun n => (if n = s then 1 else 0) - (if n = t then 1 else 0), 0, Or.inr ⟨s, hs, by simp [hst]⟩,
        fun m hm _ => ?_, ?_, fun n hn hf => by rw [hall n hn] at hf; cases hf⟩
      · simp [mul_sub, sum_sub_distrib, hs, ht, hcol m hm]
      · simp [sum_sub_distrib, hs, ht]
    cases hel with
    | done _ reg _ => exact reg hdeg
    | drop _ _ reg => exact reg hdeg

end

/-! Three stations at (0,3), (0,-3), (-4,0) and a cell at (4,0). -/

def triDist (m n : Nat) : ℚ :=
  match m, n with
  | 0, 1 => 6 | 1, 0 => 6
  | 0, 0 => 0 | 1, 1 => 0 | 2, 2 => 0
  | _, _ => 5

def triSol (n : Nat) : ℚ := if n = 2 then -1 / 7 else 4 / 7

def triGrid (m : Nat) : ℚ := if m = 2 then 8 else 5

/-- The equations of every nonempty subset have one solution. -/
theorem tri_regular (flag : Nat → Bool) (hf : ∃ m < 3, flag m = true) : ¬ Degenerate 3 triDist flag := by
  rintro ⟨v, nu, hne, e1, e2, e3⟩
  have r0 := e1 0 (by norm_num)
  have r1 := e1 1 (by norm_num)
  have r2 := e1 2 (by norm_num)
  have z0 := e3 0 (by norm_num)
  have z1 := e3 1 (by norm_num)
  have z2 := e3 2 (by norm_num)
  have hne' : nu ≠ 0 ∨ v 0 ≠ 0 ∨ v 1 ≠ 0 ∨ v 2 ≠ 0 := by
    rcases hne with h | ⟨n, hn, h⟩
    · exact Or.inl h
    · interval_cases n <;> simp [h]
  have hf' : flag 0 = true ∨ flag 1 = true ∨ flag 2 = true := by
    obtain ⟨m, hm, h⟩ := hf
    interval_cases m <;> simp [h]
  simp only [sum_range_succ, sum_range_zero, triDist, zero_add, zero_mul, add_zero] at r0 r1 r2 e2
  cases h0 : flag 0 <;> cases h1 : flag 1 <;> cases h2 : flag 2 <;> simp only [h0, h1, h2, Bool.false_eq_true,
    forall_const, or_false, or_true, false_or, true_or, reduceCtorEq, IsEmpty.forall_iff] at r0 r1 r2 z0 z1 z2 hf' <;>
    · have a0 : v 0 = 0 := by linarith
      have a1 : v 1 = 0 := by linarith
      have a2 : v 2 = 0 := by linarith
      have an : nu = 0 := by rw [a0, a1, a2] at *; linarith
      rcases hne' with h | h | h | h <;> contradiction

theorem tri_grid (m : Nat) : 0 ≤ triGrid m := by unfold triGrid; split <;> norm_num

theorem tri_weights (mem : Mem ℚ) (elev : Nat → ℚ) : ∃ w, krige mem 3 triDist triGrid elev = .weights w := by
  refine C56_regular mem 3 triDist triGrid _ (by norm_num) (fun m _ => tri_grid m) ?_
  intro used hu v nu e1 e2 e3
  classical
  have := tri_regular (fun m => decide (used m)) (by simpa using hu)
  by_contra hc
  refine this ⟨v, nu, ?_, fun m hm hf => e1 m hm (by simpa using hf), e2, fun n hn hf => e3 n hn (by simpa using hf)⟩
  by_contra hn
  apply hc
  refine ⟨by by_contra h; exact hn (Or.inl h), fun n hlt => by by_contra h; exact hn (Or.inr ⟨n, hlt, h⟩)⟩

/-- With the third station at sea level its negative weight is returned. -/
theorem C56_negative_fails (mem : Mem ℚ) (elev : Nat → ℚ) (he : elev 2 ≤ 0) :
    ∃ w, krige mem 3 triDist triGrid elev = .weights w ∧ w 0 = 4 / 7 ∧ w 1 = 4 / 7 ∧ w 2 = -1 / 7 := by
  have hd : ∀ m < 3, 0 ≤ triGrid m := fun m _ => tri_grid m
  obtain ⟨w, h⟩ := tri_weights mem elev
  obtain ⟨flag, hall, hel⟩ := C56_order mem 3 triDist triGrid elev w hd h
  have hsys : System 3 triDist triGrid flag triSol (16 / 7) := by
    refine ⟨fun m hm _ => ?_, ?_, fun n hn hf => by rw [hall n hn] at hf; cases hf⟩
    · interval_cases m <;> norm_num [sum_range_succ, triDist, triGrid, triSol]
    · norm_num [sum_range_succ, triSol]
  cases hel with
  | done sys reg stop =>
    have u := system_unique 3 triDist triGrid flag _ _ _ _ hsys sys reg
    exact ⟨w, h, by rw [u 0 (by norm_num)]; norm_num [triSol], by rw [u 1 (by norm_num)]; norm_num [triSol],
      by rw [u 2 (by norm_num)]; norm_num [triSol]⟩
  | drop m sys reg hm hf neg pos top rest =>
    have u := system_unique 3 triDist triGrid flag _ _ _ _ hsys sys reg m hm
    rw [u] at neg
    exfalso
    have hm2 : m = 2 := by
      by_contra hne
      unfold triSol at neg
      rw [if_neg hne] at neg
      norm_num at neg
    rw [hm2] at pos
    exact absurd pos (not_lt.2 he)

theorem C56_fails : ¬ C56_full := by
  intro h
  let mem : Mem ℚ := ⟨fun _ _ _ => 0, fun _ => ⟨fun _ => 0, fun _ => 0, 0⟩, fun _ => false, fun _ => 0⟩
  -- distances of the stations of the witness, one apart from all further ones
  let ad : Nat → Nat → ℚ := fun m n => if m = n then 0 else triDist m n
  have had : ∀ m n, m < 3 → n < 3 → ad m n = triDist m n := by
    intro m n hm hn
    interval_cases m <;> interval_cases n <;> simp [ad, triDist]
  have hpos : ∀ m n, 0 ≤ triDist m n ∧ (m ≠ n → 0 < triDist m n) := by
    intro m n
    unfold triDist
    split <;> simp
  have hsym : ∀ m n, triDist m n = triDist n m := by
    intro m n
    rcases m with _ | _ | _ | m <;> rcases n with _ | _ | _ | n <;> simp [triDist]
  obtain ⟨w', hw', hn, hsum⟩ := h mem 3 ad triGrid (fun _ => 0) (by norm_num)
    (fun m _ => tri_grid m)
    (fun m n => by
      by_cases e : m = n
      · rw [e]
      · simp only [ad, if_neg e, if_neg (Ne.symm e)]; exact hsym m n)
    (fun m => by simp [ad]) (fun m n e => by simp only [ad, if_neg e]; exact (hpos m n).2 e)
  have hd : ∀ m < 3, 0 ≤ triGrid m := fun m _ => tri_grid m
  obtain ⟨flag, hall, hel⟩ := C56_order mem 3 ad triGrid (fun _ => 0) w' hd hw'
  have hsys : System 3 ad triGrid flag triSol (16 / 7) := by
    refine ⟨fun m hm _ => ?_, ?_, fun n hn hf => by rw [hall n hn] at hf; cases hf⟩
    · interval_cases m <;> norm_num [sum_range_succ, triDist, triGrid, triSol, ad]
    · norm_num [sum_range_succ, triSol]
  cases hel with
  | done sys reg stop =>
    have u := system_unique 3 ad triGrid flag _ _ _ _ hsys sys reg 2 (by norm_num)
    have := hn 2 (by norm_num)
    rw [u] at this
    norm_num [triSol] at this
  | drop m sys reg hm hf neg pos top rest => exact absurd pos (lt_irrefl _)

open Verif.Idw

/-- Stations at pairwise different places: kriging never stops the process. For every cell weights come
back; they sum to one and are not negative at stations above sea level. -/
theorem C56_distinct_partial (mem : Mem ℝ) (sta : List Station) (g : Cell) (hne : sta ≠ [])
    (hd : ∀ i j (hi : i < sta.length) (hj : j < sta.length), sta[i].x = sta[j].x → sta[i].y = sta[j].y → i = j) :
    ∃ w, krige mem sta.length (adMatrix sta) (gridDist sta g) (elevations sta) = .weights w ∧
      ∑ n ∈ range sta.length, w n = 1 ∧ ∀ n (hn : n < sta.length), 0 < sta[n].z → 0 ≤ w n := by
  have hg : ∀ m < sta.length, 0 ≤ gridDist sta g m := fun m _ => gridDist_nonneg sta g m
  obtain ⟨w, hw⟩ := C56_regular mem sta.length (adMatrix sta) (gridDist sta g) (elevations sta)
    (List.length_pos_iff.2 hne) hg (stations_regular sta hd)
  refine ⟨w, hw, C56_sum _ _ _ _ _ _ hg hw, fun n hn hz => C56_nonneg_partial _ _ _ _ _ _ hg hw n hn ?_⟩
  unfold elevations
  rw [List.getElem?_eq_getElem hn]
  exact hz

/-- At the cell of a station the weights of stations at different places select that station. -/
theorem C56_exact_at_station (mem : Mem ℝ) (sta : List Station) (g : Cell) (s : Nat) (hs : s < sta.length)
    (hd : ∀ i j (hi : i < sta.length) (hj : j < sta.length), sta[i].x = sta[j].x → sta[i].y = sta[j].y → i = j)
    (hx : g.x = sta[s].x) (hy : g.y = sta[s].y) :
    ∃ w, krige mem sta.length (adMatrix sta) (gridDist sta g) (elevations sta) = .weights w ∧
      ∀ n < sta.length, w n = if n = s then 1 else 0 := by
  obtain ⟨w, hw, -⟩ := C56_distinct_partial mem sta g (fun e => by rw [e] at hs; simp at hs) hd
  refine ⟨w, hw, fun n hn => C56_own_cell mem _ _ _ _ w s hs (fun m _ => gridDist_nonneg sta g m) ?_ hw n hn⟩
  intro m hm
  rw [adMatrix_eq sta m s hm hs]
  unfold gridDist Idw.dist
  rw [List.getElem?_eq_getElem hm]
  simp only
  rw [hx, hy]
  congr 1
  ring

/-- Three stations not on a line, and two stations of the same place, for the hypotheses above. -/
example : ∀ i j (hi : i < [(⟨0, 3, 100, none⟩ : Station), ⟨0, -3, 50, none⟩, ⟨-4, 0, 20, none⟩].length)
    (hj : j < [(⟨0, 3, 100, none⟩ : Station), ⟨0, -3, 50, none⟩, ⟨-4, 0, 20, none⟩].length),
    [(⟨0, 3, 100, none⟩ : Station), ⟨0, -3, 50, none⟩, ⟨-4, 0, 20, none⟩][i].x =
      [(⟨0, 3, 100, none⟩ : Station), ⟨0, -3, 50, none⟩, ⟨-4, 0, 20, none⟩][j].x →
    [(⟨0, 3, 100, none⟩ : Station), ⟨0, -3, 50, none⟩, ⟨-4, 0, 20, none⟩][i].y =
      [(⟨0, 3, 100, none⟩ : Station), ⟨0, -3, 50, none⟩, ⟨-4, 0, 20, none⟩][j].y → i = j := by
  intro i j hi hj
  simp only [List.length_cons, List.length_nil] at hi hj
  interval_cases i <;> interval_cases j <;> norm_num

example (mem : Mem ℝ) : krige mem 2 (adMatrix [⟨1, 2, 3, none⟩, ⟨1, 2, 4, none⟩]) (fun _ => 7) (fun _ => 5) = .exit :=
  C56_colocated_fails mem 2 _ _ _ 0 1 (by norm_num) (by norm_num) (by norm_num)
    (fun m hm => by
      interval_cases m
      · rw [adMatrix_eq _ 0 0 (by simp) (by simp), adMatrix_eq _ 0 1 (by simp) (by simp)]; simp
      · rw [adMatrix_eq _ 1 0 (by simp) (by simp), adMatrix_eq _ 1 1 (by simp) (by simp)]; simp)
    (fun _ _ => by norm_num)

/-! ### C55 -/

/-- The stations that have a value. -/
def withValue (sta : List Station) (data : List (Option ℝ)) : List Station :=
  ((sta.zip data).filter fun p => p.2.isSome).map Prod.fst

theorem selected_eq (sta : List Station) (data : List (Option ℝ)) :
    selected sta (data.map Option.isNone) = withValue sta data := by
  unfold selected withValue
  induction sta generalizing data with
  | nil => rfl
  | cons s sta ih =>
    cases data with
    | nil => rfl
    | cons v data =>
      cases v with
      | none => simpa using ih data
      | some x => simpa using ih data

/-- Kriging weights for a list of stations at every cell. -/
noncomputable def weightsFor (mem : Mem ℝ) (sta : List Station) (grid : List Cell) : Option (List (List ℝ)) :=
  grid.mapM fun g =>
    match krige mem sta.length (adMatrix sta) (gridDist sta g) (elevations sta) with
    | .weights w => some ((List.range sta.length).map w)
    | _ => none

/-- What one step gives on its own: weights of the stations that have data, applied. -/
noncomputable def freshImage (mem : Mem ℝ) (fit : List (ℝ × ℝ) → ℝ × ℝ) (flag : Int) (sta : List Station)
    (grid : List Cell) (data : List (Option ℝ)) : Option (List ℝ) :=
  (weightsFor mem (withValue sta data) grid).map fun ws =>
    List.zipWith (krigedCell fit flag (withData sta data)) ws grid

theorem fresh_eq (mem : Mem ℝ) (fit : List (ℝ × ℝ) → ℝ × ℝ) (flag : Int) (sta : List Station)
    (grid : List Cell) (data : List (Option ℝ)) :
    freshImage mem fit flag sta grid data = (calculateWeights mem sta grid (data.map Option.isNone)).map fun ws =>
      List.zipWith (krigedCell fit flag (withData sta data)) ws grid := by
  unfold freshImage weightsFor calculateWeights
  simp only [selected_eq]
  rfl

/-- The images of any sequence of steps with changing gaps are those of weights computed anew each time. -/
theorem C55_cache (mem : Mem ℝ) (fit : List (ℝ × ℝ) → ℝ × ℝ) (flag : Int) (sta : List Station) (grid : List Cell)
    (steps : List (List (Option ℝ))) (hne : ∀ d ∈ steps, d ≠ []) :
    runDK mem fit flag sta grid Cache.new steps = steps.mapM (freshImage mem fit flag sta grid) := by
  have key : ∀ c : Cache, (c = Cache.new ∨ calculateWeights mem sta grid c.nan = some c.weights) →
      ∀ steps : List (List (Option ℝ)), (∀ d ∈ steps, d ≠ []) →
      runDK mem fit flag sta grid c steps = steps.mapM (freshImage mem fit flag sta grid) := by
    intro c hc steps
    induction steps generalizing c with
    | nil => intro _; simp [runDK]
    | cons d ds ih =>
      intro hne
      rw [runDK, List.mapM_cons]
      unfold calculate
      simp only
      have hd : d ≠ [] := hne d List.mem_cons_self
      have hds : ∀ d ∈ ds, d ≠ [] := fun e he => hne e (List.mem_cons_of_mem _ he)
      by_cases e : d.map Option.isNone = c.nan
      · have hcw : calculateWeights mem sta grid c.nan = some c.weights := by
          rcases hc with rfl | h
          · exact absurd (by simpa [Cache.new] using e) hd
          · exact h
        rw [if_neg (not_not.2 e)]
        have hf : freshImage mem fit flag sta grid d =
            some (List.zipWith (krigedCell fit flag (withData sta d)) c.weights grid) := by
          rw [fresh_eq, e, hcw]
          rfl
        rw [hf]
        simp only [Option.map_some, Option.bind_eq_bind, Option.bind_some]
        rw [ih c (Or.inr hcw) hds]
        cases ds.mapM (freshImage mem fit flag sta grid) <;> rfl
      · rw [if_pos e]
        cases hw : calculateWeights mem sta grid (d.map Option.isNone) with
        | none =>
          have hf : freshImage mem fit flag sta grid d = none := by
            rw [fresh_eq, hw]
            rfl
          rw [hf]
          rfl
        | some ws =>
          have hf : freshImage mem fit flag sta grid d =
              some (List.zipWith (krigedCell fit flag (withData sta d)) ws grid) := by
            rw [fresh_eq, hw]
            rfl
          rw [hf]
          simp only [Option.map_some, Option.bind_eq_bind, Option.bind_some]
          rw [ih ⟨d.map Option.isNone, ws⟩ (Or.inr hw) hds]
          cases ds.mapM (freshImage mem fit flag sta grid) <;> rfl
  exact key Cache.new (Or.inl rfl) steps hne

example : ∀ d ∈ [[some (1 : ℝ), none], [some 2, some 3], [none, some 4]], d ≠ [] := by
  intro d hd e
  subst e
  simp at hd

end Verif.Krige
