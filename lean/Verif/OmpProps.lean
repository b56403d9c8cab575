import Verif.OmpLemmas
import Mathlib.Tactic.FinCases

/-!
C111: the parallel loops give the value of the sequential function in every cell, for every number of threads, every division of
the iterations and every order in which the threads run.
-/

namespace Verif.Omp
set_option linter.unusedSimpArgs false
open Verif.Vapor

section
variable {X V O : Type} [DecidableEq X]

/-- Every run of the loop over `n` iterations gives `value i` in the cells of iteration `i` when all threads are ready, does not
touch the cells behind, and ends the process only if some `value i` does. -/
def Correct (L : Loop X V O) (value : Nat → Option (Nat → O)) : Prop :=
  ∀ (n : Nat) (share : Nat → List Nat), Shares n share → ∀ (shared : X → V) (own : Nat → X → V) (out0 : Nat → O) (k : Nat)
    (s : State X V O), Reach L (start L share shared own out0) k s →
    (s.exited = true → ∃ i < n, value i = none) ∧
    (s.exited = false → (∀ t, s.todo t = []) →
      ∀ i < n, ∃ v, value i = some v ∧ ∀ off < L.width, s.out (i * L.width + off) = v off) ∧
    ∀ c, n * L.width ≤ c → s.out c = out0 c

/-- The iteration in a memory of its own gives `value`. -/
def Alone (L : Loop X V O) (value : Nat → Option (Nat → O)) : Prop :=
  ∀ i (m0 : X → V), (value i = none → alone i L.body (m0, fun _ => none) = none) ∧
    ∀ v, value i = some v → ∃ m w, alone i L.body (m0, fun _ => none) = some (m, w) ∧ ∀ off < L.width, w off = some (v off)

/-- A loop whose body writes only private variables, and reads only what it has written, is correct. -/
theorem C111_loop (L : Loop X V O) (hf : Fine L [] L.body) (value : Nat → Option (Nat → O)) (ha : Alone L value) :
    Correct L value := by
  intro n share hs shared own out0 k s hr
  have hinv := inv_reach L hf n share hs shared shared own out0 k s hr
  obtain ⟨h1, h2, h3⟩ := hinv
  refine ⟨fun he => ?_, fun he hd i hi => ?_, h3⟩
  · obtain ⟨i, hi, hn⟩ := h1 he
    refine ⟨i, hi, ?_⟩
    cases hv : value i with
    | none => rfl
    | some v =>
      obtain ⟨m, w, g, -⟩ := (ha i shared).2 v hv
      rw [g] at hn
      cases hn
  · obtain ⟨t, ht⟩ := (hs.cover i).2 hi
    obtain ⟨pre, g1, g2, -⟩ := h2 t
    rw [hd t, List.append_nil] at g1
    obtain ⟨mw, g3, g4⟩ := g2 i (g1 ▸ ht)
    cases hv : value i with
    | none => rw [(ha i shared).1 hv] at g3; cases g3
    | some v =>
      refine ⟨v, rfl, fun off ho => ?_⟩
      obtain ⟨m, w, e1, e2⟩ := (ha i shared).2 v hv
      rw [e1] at g3
      cases g3
      rw [g4 off ho]
      show (w off).getD _ = v off
      rw [e2 off ho]
      rfl

/-- Some thread can go on until all are ready or the process has ended. -/
theorem C111_progress (L : Loop X V O) (s : State X V O) (he : s.exited = false) (t : Nat) (ht : s.todo t ≠ []) :
    ∃ s', step L t s = some s' := by
  unfold step
  rw [if_neg (by simp [he])]
  cases hd : s.todo t with
  | nil => exact absurd hd ht
  | cons i r =>
    cases s.cur t with
    | nil => exact ⟨_, rfl⟩
    | cons c cs =>
      simp only
      cases exec L t i s c with
      | none => exact ⟨_, rfl⟩
      | some s1 => exact ⟨_, rfl⟩

open Finset in
/-- Every run ends: with `T` threads it has at most as many steps as the iterations have statements, and one for each iteration. -/
theorem C111_ends (L : Loop X V O) (share : Nat → List Nat) (T : Nat) (hT : ∀ t, T ≤ t → share t = []) (shared : X → V)
    (own : Nat → X → V) (out0 : Nat → O) (k : Nat) (s : State X V O) (h : Reach L (start L share shared own out0) k s) :
    k ≤ (∑ t ∈ range T, (share t).length) * (L.body.length + 1) + 1 := by
  have := (steps_bounded L share T hT shared own out0 k s h).2
  omega

/-- Every run with finitely many threads can be continued until all threads are ready or the process has ended. -/
theorem C111_complete (L : Loop X V O) (share : Nat → List Nat) (T : Nat) (hT : ∀ t, T ≤ t → share t = []) (shared : X → V)
    (own : Nat → X → V) (out0 : Nat → O) (k : Nat) (s : State X V O) (h : Reach L (start L share shared own out0) k s) :
    ∃ k' s', Reach L (start L share shared own out0) k' s' ∧ (s'.exited = true ∨ ∀ t, s'.todo t = []) := by
  generalize hb : (∑ t ∈ Finset.range T, (share t).length) * (L.body.length + 1) + 1 - k = b
  induction b using Nat.strongRecOn generalizing k s with
  | _ b ih =>
    by_cases hx : s.exited = true
    · exact ⟨k, s, h, .inl hx⟩
    by_cases hd : ∀ t, s.todo t = []
    · exact ⟨k, s, h, .inr hd⟩
    · obtain ⟨t, ht⟩ := not_forall.1 hd
      obtain ⟨s', hs'⟩ := C111_progress L s (by simpa using hx) t ht
      have h' := Reach.step t h hs'
      have hle := C111_ends L share T hT shared own out0 (k + 1) s' h'
      exact ih _ (by omega) (k + 1) s' h' rfl

/-- Two runs over the same arrays, with other threads and in another order, give the same array. -/
theorem C111_deterministic (L : Loop X V O) (hw : 0 < L.width) (value : Nat → Option (Nat → O)) (h : Correct L value) (n : Nat)
    (share share' : Nat → List Nat) (hs : Shares n share) (hs' : Shares n share') (m m' : X → V) (own own' : Nat → X → V)
    (out0 : Nat → O) (k k' : Nat) (s s' : State X V O) (hr : Reach L (start L share m own out0) k s)
    (hr' : Reach L (start L share' m' own' out0) k' s') (he : s.exited = false) (he' : s'.exited = false)
    (hd : ∀ t, s.todo t = []) (hd' : ∀ t, s'.todo t = []) : s.out = s'.out := by
  obtain ⟨-, h1, h2⟩ := h n share hs m own out0 k s hr
  obtain ⟨-, g1, g2⟩ := h n share' hs' m' own' out0 k' s' hr'
  funext c
  by_cases hc : n * L.width ≤ c
  · rw [h2 c hc, g2 c hc]
  · have hi : c / L.width < n := by rw [Nat.div_lt_iff_lt_mul hw]; omega
    obtain ⟨v, e1, e2⟩ := h1 he hd _ hi
    obtain ⟨v', e1', e2'⟩ := g1 he' hd' _ hi
    rw [e1] at e1'
    cases e1'
    have h3 := e2 (c % L.width) (Nat.mod_lt _ hw)
    have h4 := e2' (c % L.width) (Nat.mod_lt _ hw)
    rw [Nat.div_add_mod' c L.width] at h3 h4
    rw [h3, h4]

end

/-! ### The loops of the code -/

/-- `topotherm`. -/
theorem C111_topotherm (ta tw z skvfac : Nat → ℝ) :
    Correct (topotherm ta tw z skvfac) fun i => (Thermal.topothermC (ta i) (tw i) (z i) (skvfac i)).map fun v _ => v := by
  apply C111_loop
  · simp only [topotherm, Fine]
    simp [Fin.forall_fin_succ]
  · intro i m0
    simp only [topotherm, alone, run1, Thermal.topothermC, Option.map_some, Option.bind_some]
    simp only [upd, Matrix.cons_val_zero, Matrix.cons_val_one, Matrix.cons_val, reduceCtorEq, if_true, if_false]
    by_cases h1 : ta i + freeze < 0 ∨ tw i + freeze < 0
    · simp [h1]
    · simp only [if_neg h1, Option.map_some, Option.bind_some, upd, Matrix.cons_val_zero, Matrix.cons_val_one, Matrix.cons_val, reduceCtorEq, if_true, if_false]
      cases satiC (if ta i + freeze < tw i + freeze then ta i + freeze else tw i + freeze) with
      | none => simp
      | some ea =>
        simp only [Option.map_some, Option.bind_some, upd, Matrix.cons_val_zero, Matrix.cons_val_one, Matrix.cons_val, reduceCtorEq, if_true, if_false]
        cases Thermal.brutsaertC (ta i + freeze) Thermal.lapseM ea (z i) seaLevel with
        | none => simp
        | some em =>
          simp only [Option.map_some, Option.bind_some, upd, Matrix.cons_val_zero, Matrix.cons_val_one, Matrix.cons_val, reduceCtorEq, if_true, if_false]
          refine ⟨fun h => (by cases h), fun v h => ?_⟩
          cases h
          refine ⟨_, _, rfl, fun off ho => ?_⟩
          have : off = 0 := by omega
          subst this
          rfl

/-- `iwbt`. -/
theorem C111_iwbt (ta td z : Nat → ℝ) (tol : ℝ) :
    Correct (iwbt ta td z tol) fun i =>
      if ta i + freeze < 0 ∨ td i + freeze < 0 then none
      else (wetbulbValue (ta i + freeze) (td i + freeze) (pressureAt (z i)) tol).map fun v _ => v - freeze := by
  apply C111_loop
  · simp only [iwbt, Fine]
    simp [Fin.forall_fin_succ]
  · intro i m0
    simp only [iwbt, alone, run1, Option.map_some, Option.bind_some]
    simp only [upd, Matrix.cons_val_zero, Matrix.cons_val_one, Matrix.cons_val, reduceCtorEq, if_true, if_false]
    by_cases h1 : ta i + freeze < 0 ∨ td i + freeze < 0
    · simp [h1]
    · simp only [if_neg h1, Option.map_some, Option.bind_some, upd, Matrix.cons_val_zero, Matrix.cons_val_one, Matrix.cons_val, reduceCtorEq, if_true, if_false]
      cases wetbulbValue (ta i + freeze) (td i + freeze) (pressureAt (z i)) tol with
      | none => simp
      | some tw =>
        simp only [Option.map_some, Option.bind_some, upd, Matrix.cons_val_zero, Matrix.cons_val_one, Matrix.cons_val, reduceCtorEq, if_true, if_false]
        refine ⟨fun h => (by cases h), fun v h => ?_⟩
        cases h
        refine ⟨_, _, rfl, fun off ho => ?_⟩
        have : off = 0 := by omega
        subst this
        rfl

/-- `dewpt`. -/
theorem C111_dewpt (ea : Nat → ℝ) (fuel : Nat) (meps tol : ℝ) :
    Correct (dewpt ea fuel meps tol) fun i =>
      (Dewpoint.dewPoint fuel (ea i) meps tol).map fun r _ => zerobrValue r - freeze := by
  apply C111_loop
  · simp only [dewpt, Fine]
    simp [Fin.forall_fin_succ]
  · intro i m0
    simp only [dewpt, alone, run1, Option.map_some, Option.bind_some, Dewpoint.dewPoint]
    simp only [upd, Matrix.cons_val_zero, Matrix.cons_val_one, Matrix.cons_val, reduceCtorEq, if_true, if_false]
    cases Dewpoint.lowerLoop (ea i) fuel freeze with
    | none => simp
    | some a =>
      simp only [Option.map_some, Option.bind_some, upd, Matrix.cons_val_zero, Matrix.cons_val_one, Matrix.cons_val, reduceCtorEq, if_true, if_false]
      cases Dewpoint.upperLoop (ea i) fuel (freeze + 15) with
      | none => simp
      | some b =>
        simp only [Option.map_some, Option.bind_some, upd, Matrix.cons_val_zero, Matrix.cons_val_one, Matrix.cons_val, reduceCtorEq, if_true, if_false]
        refine ⟨fun h => (by cases h), fun v h => ?_⟩
        cases h
        refine ⟨_, _, rfl, fun off ho => ?_⟩
        have : off = 0 := by omega
        subst this
        rfl

/-- `calc_maxus`, before the python code sets small values to zero. -/
theorem C111_maxus (nx ny : Int) (x y z : Int → ℝ) (s e : Nat → Int × Int) (height : ℝ) (junk : Nat → Bres.LineData)
    (mem : Nat → Bres.Arrays ℝ) (jh : Nat → Nat) :
    ∃ value : Nat → Option (Option ℝ),
      Correct (calcMaxus nx ny x y z s e height junk mem jh) (fun i => some fun _ => value i) ∧
      ∀ i, (value i).map Horizon.correct = Horizon.cellMaxus nx ny x y z (s i) (e i) height (junk i) (mem i) jh := by
  refine ⟨fun i => hordValue height jh (.arrays (Bres.fill nx ny x y z { mem i with n := 0 } 0
    (Bres.findLine nx ny (s i).1 (s i).2 (e i).1 (e i).2 (junk i)))), ?_, fun i => rfl⟩
  apply C111_loop
  · simp only [calcMaxus, Fine]
    simp [Fin.forall_fin_succ]
  · intro i m0
    refine ⟨fun h => (by cases h), fun v h => ?_⟩
    cases h
    simp only [calcMaxus, alone, run1, Option.map_some, Option.bind_some]
    simp only [upd, Matrix.cons_val_zero, Matrix.cons_val_one, Matrix.cons_val, reduceCtorEq, if_true, if_false, lineValue,
      Option.map_some, Option.bind_some, arraysValue]
    refine ⟨_, _, rfl, fun off ho => ?_⟩
    have : off = 0 := by omega
    subst this
    rfl

section
variable {K : Type} [Field K] [LinearOrder K]

omit [LinearOrder K] in
theorem fine_copyRow (L : Loop KV ((Nat → K) ⊕ Nat) K) (known : List KV) (hw : KV.w ∈ known) (hj : KV.j ∈ L.priv) (l : List Nat)
    (hl : ∀ j ∈ l, j < L.width) : Fine L known (l.flatMap fun j =>
      [.assign .j 0 ![] fun _ _ => some (.inr j), .store j 2 ![.w, .j] fun v => entry (v 0) (v 1)]) := by
  induction l generalizing known with
  | nil => exact trivial
  | cons j l ih =>
    refine ⟨fun q => q.elim0, hj, ?_, hl j (by simp), ih (.j :: known) (by simp [hw]) fun q hq => hl q (by simp [hq])⟩
    intro q
    fin_cases q
    · simp [hw]
    · simp

omit [LinearOrder K] in
theorem alone_copyRow (i : Nat) (l : List Nat) (hl : l.Nodup) (m : KV → (Nat → K) ⊕ Nat) (w : Nat → K) (hm : m .w = .inl w)
    (o : Nat → Option K) : ∃ m', alone i (l.flatMap fun j =>
      [.assign .j 0 ![] fun _ _ => some (.inr j), .store j 2 ![.w, .j] fun v => entry (v 0) (v 1)]) (m, o) =
        some (m', fun q => if q ∈ l then some (w q) else o q) := by
  induction l generalizing m o with
  | nil => exact ⟨m, by simp [alone]⟩
  | cons j l ih =>
    obtain ⟨m', h⟩ := ih (List.nodup_cons.1 hl).2 (upd m .j (.inr j)) (by simp [upd, hm]) (upd o j (some (w j)))
    refine ⟨m', ?_⟩
    have e : (upd m .j (.inr j) : KV → (Nat → K) ⊕ Nat) .w = .inl w := by simp [upd, hm]
    have e' : (upd m .j (.inr j) : KV → (Nat → K) ⊕ Nat) .j = .inr j := by simp [upd]
    simp only [List.flatMap_cons, List.cons_append, List.nil_append, alone, run1, Option.map_some, Option.bind_some,
      Matrix.cons_val_zero, Matrix.cons_val_one, e, e']
    rw [show entry (.inl w) (.inr j) = w j from rfl, h]
    congr 2
    funext q
    have hn := (List.nodup_cons.1 hl).1
    by_cases h1 : q ∈ l
    · simp [h1]
    · by_cases h2 : q = j
      · subst h2; simp [h1, upd]
      · simp [h1, h2, upd]

/-- `krige_grid`: row `i` of the weights is what `krige` gives for cell `i`. -/
theorem C111_krige (mem : Nat → Krige.Mem K) (nsta : Nat) (ad : Nat → Nat → K) (dgrid : Nat → Nat → K) (elev : Nat → K) :
    Correct (krigeGrid mem nsta ad dgrid elev) fun i =>
      match Krige.krige (mem i) nsta ad (dgrid i) elev with
      | .weights w => some w
      | _ => none := by
  apply C111_loop
  · refine ⟨fun q => q.elim0, by simp [krigeGrid], ?_⟩
    exact fine_copyRow _ _ (by simp) (by simp [krigeGrid]) _ fun j hj => List.mem_range.1 hj
  · intro i m0
    simp only [krigeGrid, alone, run1]
    cases Krige.krige (mem i) nsta ad (dgrid i) elev with
    | weights w =>
      refine ⟨fun h => (by cases h), fun v h => ?_⟩
      cases h
      obtain ⟨m', h⟩ := alone_copyRow i (List.range nsta) List.nodup_range (upd m0 .w (.inl w)) w (by simp [upd]) fun _ => none
      refine ⟨m', _, h, fun off ho => ?_⟩
      simp [List.mem_range.2 ho]
    | exit => exact ⟨fun _ => rfl, fun v h => (by cases h)⟩
    | stuck => exact ⟨fun _ => rfl, fun v h => (by cases h)⟩

end

/-! ### Examples -/

/-- Four cells and two threads, as `schedule(static)` divides them. -/
def halves : Nat → List Nat
  | 0 => [0, 1]
  | 1 => [2, 3]
  | _ => []

theorem halves_shares : Shares 4 halves := by
  refine ⟨fun t => ?_, fun t u i h h' => ?_, fun i => ⟨?_, ?_⟩⟩
  · match t with
    | 0 => decide
    | 1 => decide
    | _ + 2 => exact List.nodup_nil
  · match t, u with
    | 0, 0 => rfl
    | 1, 1 => rfl
    | 0, 1 => simp [halves] at h h'; omega
    | 1, 0 => simp [halves] at h h'; omega
    | _ + 2, _ => simp [halves] at h
    | 0, _ + 2 => simp [halves] at h'
    | 1, _ + 2 => simp [halves] at h'
  · rintro ⟨t, h⟩
    match t with
    | 0 => simp [halves] at h; omega
    | 1 => simp [halves] at h; omega
    | _ + 2 => simp [halves] at h
  · intro h
    by_cases h2 : i < 2
    · exact ⟨0, by simp [halves]; omega⟩
    · exact ⟨1, by simp [halves]; omega⟩

/-- Every thread takes each `T`-th cell: the division of `schedule(static, 1)` for any number of threads and cells. -/
theorem cyclic_shares (n T : Nat) (hT : 0 < T) : Shares n fun t => if t < T then (List.range n).filter (· % T = t) else [] := by
  refine ⟨fun t => ?_, fun t u i h h' => ?_, fun i => ⟨?_, fun h => ⟨i % T, ?_⟩⟩⟩
  · show (if t < T then _ else []).Nodup
    split
    · exact List.nodup_range.filter _
    · exact List.nodup_nil
  · by_cases ht : t < T <;> by_cases hu : u < T <;> simp [ht, hu] at h h'
    rw [← h.2, ← h'.2]
  · rintro ⟨t, h⟩
    by_cases ht : t < T <;> simp [ht] at h
    exact h.1
  · simp [Nat.mod_lt _ hT, h]

/-- A loop with a shared variable, `x = i; out[i] = x`: the second thread may change `x` in between. -/
def racy (priv : List Unit) : Loop Unit Nat Nat :=
  ⟨priv, 1, [.assign () 0 ![] fun i _ => some i, .store 0 1 ![()] fun v => v 0]⟩

/-- The two threads of the example. -/
def pair : Nat → List Nat
  | 0 => [0]
  | 1 => [1]
  | _ => []

/-- With the variable shared, a run of two threads gives the value of cell 1 in cell 0 ... -/
theorem racy_wrong : ∃ s, Reach (racy []) (start (racy []) pair (fun _ => 0) (fun _ _ => 0) fun _ => 7) 6 s ∧ s.exited = false ∧
    (∀ t, s.todo t = []) ∧ s.out 0 = 1 := by
  refine ⟨_, .step 1 (.step 1 (.step 0 (.step 0 (.step 1 (.step 0 .refl rfl) rfl) rfl) rfl) rfl) rfl, rfl, fun t => ?_, rfl⟩
  match t with
  | 0 => rfl
  | 1 => rfl
  | _ + 2 => rfl

/-- ... so the loop is not correct; it is with a private one. -/
theorem racy_private : ¬ Correct (racy []) (fun i => some fun _ => i) ∧ Correct (racy [()]) fun i => some fun _ => i := by
  constructor
  · intro h
    obtain ⟨s, h1, h2, h3, h4⟩ := racy_wrong
    have hs : Shares 2 pair := by
      refine ⟨fun t => ?_, fun t u i h h' => ?_, fun i => ⟨?_, ?_⟩⟩
      · match t with
        | 0 => decide
        | 1 => decide
        | _ + 2 => exact List.nodup_nil
      · match t, u with
        | 0, 0 => rfl
        | 1, 1 => rfl
        | 0, 1 => simp [pair] at h h'; omega
        | 1, 0 => simp [pair] at h h'; omega
        | _ + 2, _ => simp [pair] at h
        | 0, _ + 2 => simp [pair] at h'
        | 1, _ + 2 => simp [pair] at h'
      · rintro ⟨t, h⟩
        match t with
        | 0 => simp [pair] at h; omega
        | 1 => simp [pair] at h; omega
        | _ + 2 => simp [pair] at h
      · intro h
        by_cases h2 : i < 1
        · exact ⟨0, by simp [pair]; omega⟩
        · exact ⟨1, by simp [pair]; omega⟩
    obtain ⟨v, e1, e2⟩ := (h 2 pair hs _ _ _ _ _ h1).2.1 h2 h3 0 (by norm_num)
    cases e1
    have := e2 0 (by simp [racy])
    simp only [racy, Nat.zero_mul, Nat.add_zero] at this
    rw [h4] at this
    cases this
  · apply C111_loop
    · simp only [racy, Fine]
      simp
    · intro i m0
      refine ⟨fun h => (by cases h), fun v h => ?_⟩
      cases h
      refine ⟨_, _, rfl, fun off ho => ?_⟩
      have : off = 0 := by simp [racy] at ho; omega
      subst this
      simp [upd]

/-- Two threads over four cells of `iwbt`: a finished run holds the wet bulb temperature of each cell. -/
example (ta td z : Nat → ℝ) (tol : ℝ) (own : Nat → WV → ℝ) (k : Nat) (s : State WV ℝ ℝ)
    (h : Reach (iwbt ta td z tol) (start (iwbt ta td z tol) halves (fun _ => 0) own fun _ => 0) k s) (he : s.exited = false)
    (hd : ∀ t, s.todo t = []) : ∃ v, wetbulbValue (ta 3 + freeze) (td 3 + freeze) (pressureAt (z 3)) tol = some v ∧
      s.out 3 = v - freeze := by
  obtain ⟨v, h1, h2⟩ := (C111_iwbt ta td z tol 4 halves halves_shares _ own _ k s h).2.1 he hd 3 (by norm_num)
  have h2 := h2 0 (by simp [iwbt])
  simp only [iwbt, Nat.mul_one, Nat.add_zero] at h2
  simp only at h1
  split at h1
  · cases h1
  · obtain ⟨w, e1, e2⟩ := Option.map_eq_some_iff.1 h1
    exact ⟨w, e1, by rw [h2, ← e2]⟩

end Verif.Omp
