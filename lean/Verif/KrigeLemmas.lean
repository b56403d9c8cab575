import Verif.Krige
import Verif.LuProps

/-! Lemmas about the kriging loop. -/

set_option linter.unusedSectionVars false

namespace Verif.Krige
open Verif.Lu Finset

variable {K : Type} [Field K] [LinearOrder K] [IsStrictOrderedRing K]

/-! ### The flags before the first round -/

theorem exchange_idx (i j nsta : Nat) (hi : i < nsta) (hj : j < nsta) (s : Sorting K)
    (h : ∃ p : Equiv.Perm Nat, s.idx = p ∧ ∀ r, nsta ≤ r → p r = r) :
    ∃ p : Equiv.Perm Nat, (exchange i s j).idx = p ∧ ∀ r, nsta ≤ r → p r = r := by
  obtain ⟨p, hp, hf⟩ := h
  unfold exchange
  split
  · refine ⟨p * Equiv.swap i j, ?_, fun r hr => ?_⟩
    · funext r
      simp only [hp, put, Equiv.Perm.mul_apply, Equiv.swap_apply_def]
      by_cases h1 : r = j
      · rw [if_pos h1]
        by_cases h2 : r = i
        · rw [if_pos h2, ← h2, h1]
        · rw [if_neg h2, if_pos h1]
      · rw [if_neg h1]
        by_cases h2 : r = i
        · rw [if_pos h2, if_pos h2]
        · rw [if_neg h2, if_neg h2, if_neg h1]
    · rw [Equiv.Perm.mul_apply, Equiv.swap_apply_of_ne_of_ne (by omega) (by omega), hf r hr]
  · exact ⟨p, hp, hf⟩

theorem sort_perm (nsta : Nat) (dgrid : Nat → K) :
    ∃ p : Equiv.Perm Nat, (sort nsta dgrid).idx = p ∧ ∀ r, nsta ≤ r → p r = r := by
  unfold sort
  have inner : ∀ i < nsta, ∀ l : List Nat, (∀ j ∈ l, j < nsta) → ∀ s : Sorting K,
      (∃ p : Equiv.Perm Nat, s.idx = p ∧ ∀ r, nsta ≤ r → p r = r) →
      ∃ p : Equiv.Perm Nat, (l.foldl (exchange i) s).idx = p ∧ ∀ r, nsta ≤ r → p r = r := by
    intro i hi l
    induction l with
    | nil => intro _ s h; exact h
    | cons j l ih =>
      intro hl s h
      exact ih (fun k hk => hl k (List.mem_cons_of_mem _ hk)) _
        (exchange_idx i j nsta hi (hl j List.mem_cons_self) s h)
  have outer : ∀ l : List Nat, (∀ i ∈ l, i < nsta) → ∀ s : Sorting K,
      (∃ p : Equiv.Perm Nat, s.idx = p ∧ ∀ r, nsta ≤ r → p r = r) →
      ∃ p : Equiv.Perm Nat, (l.foldl (fun s i => (span (i + 1) nsta).foldl (exchange i) s) s).idx = p ∧
        ∀ r, nsta ≤ r → p r = r := by
    intro l
    induction l with
    | nil => intro _ s h; exact h
    | cons i l ih =>
      intro hl s h
      refine ih (fun k hk => hl k (List.mem_cons_of_mem _ hk)) _
        (inner i (hl i List.mem_cons_self) _ (fun j hj => ?_) s h)
      unfold span at hj
      rw [List.mem_map] at hj
      obtain ⟨k, hk, rfl⟩ := hj
      rw [List.mem_range] at hk
      omega
  exact outer _ (fun i hi => List.mem_range.1 hi) _ ⟨1, rfl, fun _ _ => rfl⟩

theorem useFlags_all (nsta : Nat) (dgrid : Nat → K) (flags : Nat → Bool) (m : Nat) (hm : m < nsta) :
    useFlags nsta dgrid flags m = true := by
  obtain ⟨p, hp, hf⟩ := sort_perm nsta dgrid
  unfold useFlags
  rw [hp]
  have key : ∀ N, ∀ k < N, (List.range N).foldl (fun f m => put f (p m) true) flags (p k) = true := by
    intro N
    induction N with
    | zero => intro k hk; omega
    | succ N ih =>
      intro k hk
      rw [List.range_succ, List.foldl_append]
      simp only [List.foldl, put]
      split
      · rfl
      · rename_i h
        have : k ≠ N := fun e => h (by rw [e])
        exact ih k (by omega)
  have h1 : p (p.symm m) = m := Equiv.apply_symm_apply _ _
  have := key nsta (p.symm m) (by
    by_contra hc
    have := hf _ (not_lt.1 hc)
    omega)
  rwa [h1] at this

/-! ### Counting active stations -/

/-- Active stations before `m`. -/
def cnt (flag : Nat → Bool) : Nat → Nat
  | 0 => 0
  | m + 1 => cnt flag m + if flag m then 1 else 0

theorem cnt_mono (flag : Nat → Bool) {m n : Nat} (h : m ≤ n) : cnt flag m ≤ cnt flag n := by
  induction n with
  | zero => rw [Nat.le_zero.1 h]
  | succ n ih =>
    rcases Nat.lt_or_ge n m with h' | h'
    · rw [show m = n + 1 by omega]
    · rw [cnt]; have := ih h'; omega

theorem cnt_lt (flag : Nat → Bool) {m n : Nat} (h : m < n) (hf : flag m = true) : cnt flag m < cnt flag n := by
  have := cnt_mono flag (show m + 1 ≤ n from h)
  rw [cnt, if_pos hf] at this
  omega

theorem cnt_inj (flag : Nat → Bool) {m n : Nat} (hm : flag m = true) (hn : flag n = true)
    (h : cnt flag m = cnt flag n) : m = n := by
  rcases Nat.lt_trichotomy m n with h' | h' | h'
  · have := cnt_lt flag h' hm; omega
  · exact h'
  · have := cnt_lt flag h' hn; omega

theorem cnt_onto (flag : Nat → Bool) {N r : Nat} (h : r < cnt flag N) : ∃ n < N, flag n = true ∧ cnt flag n = r := by
  induction N with
  | zero => simp [cnt] at h
  | succ N ih =>
    rw [cnt] at h
    by_cases hf : flag N = true
    · rw [if_pos hf] at h
      rcases Nat.lt_or_ge r (cnt flag N) with h' | h'
      · obtain ⟨n, h1, h2⟩ := ih h'
        exact ⟨n, by omega, h2⟩
      · exact ⟨N, by omega, hf, by omega⟩
    · rw [if_neg hf] at h
      obtain ⟨n, h1, h2⟩ := ih (by omega)
      exact ⟨n, by omega, h2⟩

theorem cnt_all (flag : Nat → Bool) (N : Nat) (h : ∀ n < N, flag n = true) : cnt flag N = N := by
  induction N with
  | zero => rfl
  | succ N ih => rw [cnt, if_pos (h N (by omega)), ih (fun n hn => h n (by omega))]

theorem cnt_put (flag : Nat → Bool) (m N : Nat) (hm : flag m = true) :
    cnt (put flag m false) N = if m < N then cnt flag N - 1 else cnt flag N := by
  induction N with
  | zero => rfl
  | succ N ih =>
    simp only [cnt]
    rw [ih]
    by_cases h : m < N
    · have := cnt_lt flag h hm
      have e : put flag m false N = flag N := by unfold put; rw [if_neg (by omega)]
      rw [if_pos h, if_pos (show m < N + 1 by omega), e]; omega
    · rw [if_neg h]
      by_cases e : m = N
      · subst e; rw [if_pos (show m < m + 1 by omega), if_pos hm]; simp [put]
      · have e : put flag m false N = flag N := by unfold put; rw [if_neg (by omega)]
        rw [if_neg (show ¬ m < N + 1 by omega), e]

theorem sum_cnt (flag : Nat → Bool) (f : Nat → K) (N : Nat) :
    ∑ c ∈ range (cnt flag N), f c = ∑ n ∈ range N, if flag n = true then f (cnt flag n) else 0 := by
  induction N with
  | zero => rfl
  | succ N ih =>
    rw [sum_range_succ, ← ih, cnt]
    by_cases h : flag N = true
    · rw [if_pos h, if_pos h, sum_range_succ]
    · rw [if_neg h, if_neg h, add_zero, add_zero]

/-! ### The matrix -/

theorem loadRow_spec (nsta : Nat) (ad : Nat → Nat → K) (flag : Nat → Bool) (m mm : Nat) (a : Nat → Nat → K) :
    (∀ r c, r ≠ mm ∨ cnt flag nsta ≤ c → loadRow nsta ad flag m mm a r c = a r c) ∧
    ∀ n < nsta, flag n = true → loadRow nsta ad flag m mm a mm (cnt flag n) = ad m n := by
  unfold loadRow
  suffices h : ∀ N s, s = (List.range N).foldl (fun (s : (Nat → Nat → K) × Nat) n =>
      if flag n then (set s.1 mm s.2 (ad m n), s.2 + 1) else s) (a, 0) →
      s.2 = cnt flag N ∧ (∀ r c, r ≠ mm ∨ cnt flag N ≤ c → s.1 r c = a r c) ∧
      ∀ n < N, flag n = true → s.1 mm (cnt flag n) = ad m n from (h nsta _ rfl).2
  intro N
  induction N with
  | zero => rintro s rfl; exact ⟨rfl, fun _ _ _ => rfl, fun n hn => by omega⟩
  | succ N ih =>
    rintro s rfl
    rw [List.range_succ, List.foldl_append]
    simp only [List.foldl]
    obtain ⟨h1, h2, h3⟩ := ih _ rfl
    generalize (List.range N).foldl (fun (s : (Nat → Nat → K) × Nat) n =>
      if flag n then (set s.1 mm s.2 (ad m n), s.2 + 1) else s) (a, 0) = s at *
    rw [cnt]
    by_cases hf : flag N = true
    · rw [if_pos hf, if_pos hf]
      refine ⟨by simp only [h1], fun r c h => ?_, fun n hn hfn => ?_⟩
      · show set s.1 mm s.2 (ad m N) r c = _
        rw [set_other _ _ _ _ _ _ (by omega)]; exact h2 r c (by omega)
      · show set s.1 mm s.2 (ad m N) mm _ = _
        by_cases e : n = N
        · subst e; rw [h1, set_same]
        · have := cnt_lt flag (show n < N by omega) hfn
          rw [set_other _ _ _ _ _ _ (by omega)]; exact h3 n (by omega) hfn
    · rw [if_neg hf, if_neg hf]
      refine ⟨by omega, fun r c h => h2 r c (by omega), fun n hn hfn => ?_⟩
      have : n ≠ N := fun e => hf (e ▸ hfn)
      exact h3 n (by omega) hfn

theorem load_spec (nsta : Nat) (ad : Nat → Nat → K) (dgrid : Nat → K) (flag : Nat → Bool) (a : Nat → Nat → K) :
    let ns := cnt flag nsta
    let b := load nsta ns ad dgrid flag a
    (∀ m < nsta, flag m = true → (∀ n < nsta, flag n = true → b (cnt flag m) (cnt flag n) = ad m n) ∧
      b (cnt flag m) ns = 1 ∧ b ns (cnt flag m) = 1 ∧ b (cnt flag m) (ns + 1) = dgrid m) ∧
    b ns ns = 0 ∧ b ns (ns + 1) = 1 := by
  intro ns b
  suffices h : ∀ M ≤ nsta, ∀ s, s = (List.range M).foldl (fun (s : (Nat → Nat → K) × Nat) m =>
      if flag m then
        let a := loadRow nsta ad flag m s.2 s.1
        let a := set a ns s.2 1
        let a := set a s.2 ns 1
        (set a s.2 (ns + 1) (dgrid m), s.2 + 1)
      else s) (a, 0) →
      s.2 = cnt flag M ∧
      ∀ m < M, flag m = true → (∀ n < nsta, flag n = true → s.1 (cnt flag m) (cnt flag n) = ad m n) ∧
        s.1 (cnt flag m) ns = 1 ∧ s.1 ns (cnt flag m) = 1 ∧ s.1 (cnt flag m) (ns + 1) = dgrid m by
    obtain ⟨-, h⟩ := h nsta (le_refl _) _ rfl
    have hb : ∀ r c, r ≠ ns ∨ c < ns → b r c = ((List.range nsta).foldl (fun (s : (Nat → Nat → K) × Nat) m =>
      if flag m then
        let a := loadRow nsta ad flag m s.2 s.1
        let a := set a ns s.2 1
        let a := set a s.2 ns 1
        (set a s.2 (ns + 1) (dgrid m), s.2 + 1)
      else s) (a, 0)).1 r c := by
      intro r c hrc
      show load nsta ns ad dgrid flag a r c = _
      unfold load
      rw [set_other _ _ _ _ _ _ (by omega), set_other _ _ _ _ _ _ (by omega)]
    refine ⟨fun m hm hf => ?_, ?_, ?_⟩
    · obtain ⟨h1, h2, h3, h4⟩ := h m hm hf
      have hlt : cnt flag m < ns := cnt_lt flag hm hf
      refine ⟨fun n hn hfn => ?_, ?_, ?_, ?_⟩
      · rw [hb _ _ (by omega)]; exact h1 n hn hfn
      · rw [hb _ _ (by omega)]; exact h2
      · rw [hb _ _ (by omega)]; exact h3
      · rw [hb _ _ (by omega)]; exact h4
    · show load nsta ns ad dgrid flag a ns ns = 0
      unfold load
      rw [set_other _ _ _ _ _ _ (by omega), set_same]
    · show load nsta ns ad dgrid flag a ns (ns + 1) = 1
      unfold load
      rw [set_same]
  intro M
  induction M with
  | zero => rintro - s rfl; exact ⟨rfl, fun n hn => by omega⟩
  | succ M ih =>
    rintro hM s rfl
    rw [List.range_succ, List.foldl_append]
    simp only [List.foldl]
    obtain ⟨h1, h2⟩ := ih (by omega) _ rfl
    generalize (List.range M).foldl (fun (s : (Nat → Nat → K) × Nat) m =>
      if flag m then
        let a := loadRow nsta ad flag m s.2 s.1
        let a := set a ns s.2 1
        let a := set a s.2 ns 1
        (set a s.2 (ns + 1) (dgrid m), s.2 + 1)
      else s) (a, 0) = s at *
    rw [cnt]
    by_cases hf : flag M = true
    · rw [if_pos hf, if_pos hf]
      have hMlt : cnt flag M < ns := cnt_lt flag hM hf
      obtain ⟨l1, l2⟩ := loadRow_spec nsta ad flag M s.2 s.1
      refine ⟨by simp only [h1], fun m hm hfm => ?_⟩
      simp only
      rw [h1] at l1 l2 ⊢
      by_cases e : m = M
      · subst e
        refine ⟨fun n hn hfn => ?_, ?_, ?_, ?_⟩
        · have hnlt : cnt flag n < ns := cnt_lt flag hn hfn
          rw [set_other _ _ _ _ _ _ (by omega), set_other _ _ _ _ _ _ (by omega), set_other _ _ _ _ _ _ (by omega)]
          exact l2 n hn hfn
        · rw [set_other _ _ _ _ _ _ (by omega), set_same]
        · rw [set_other _ _ _ _ _ _ (by omega), set_other _ _ _ _ _ _ (by omega), set_same]
        · rw [set_same]
      · obtain ⟨q1, q2, q3, q4⟩ := h2 m (by omega) hfm
        have hmlt : cnt flag m < cnt flag M := cnt_lt flag (by omega) hfm
        refine ⟨fun n hn hfn => ?_, ?_, ?_, ?_⟩
        · have hnlt : cnt flag n < ns := cnt_lt flag hn hfn
          rw [set_other _ _ _ _ _ _ (by omega), set_other _ _ _ _ _ _ (by omega), set_other _ _ _ _ _ _ (by omega),
            l1 _ _ (by omega)]
          exact q1 n hn hfn
        · rw [set_other _ _ _ _ _ _ (by omega), set_other _ _ _ _ _ _ (by omega), set_other _ _ _ _ _ _ (by omega),
            l1 _ _ (by omega)]
          exact q2
        · rw [set_other _ _ _ _ _ _ (by omega), set_other _ _ _ _ _ _ (by omega), set_other _ _ _ _ _ _ (by omega),
            l1 _ _ (by omega)]
          exact q3
        · rw [set_other _ _ _ _ _ _ (by omega), set_other _ _ _ _ _ _ (by omega), set_other _ _ _ _ _ _ (by omega),
            l1 _ _ (by omega)]
          exact q4
    · rw [if_neg hf, if_neg hf]
      refine ⟨by omega, fun m hm hfm => ?_⟩
      have : m ≠ M := fun e => hf (e ▸ hfm)
      exact h2 m (by omega) hfm

/-! ### Dropping stations and writing the weights -/

theorem scatter_spec (nsta : Nat) (flag : Nat → Bool) (wcalc w : Nat → K) (m : Nat) (hm : m < nsta) :
    scatter nsta flag wcalc w m = if flag m = true then wcalc (cnt flag m) else 0 := by
  unfold scatter
  suffices h : ∀ N s, s = (List.range N).foldl (fun (s : (Nat → K) × Nat) m =>
      if flag m then (put s.1 m (wcalc s.2), s.2 + 1) else (put s.1 m 0, s.2)) (w, 0) →
      s.2 = cnt flag N ∧ ∀ m < N, s.1 m = if flag m = true then wcalc (cnt flag m) else 0 from (h nsta _ rfl).2 m hm
  intro N
  induction N with
  | zero => rintro s rfl; exact ⟨rfl, fun n hn => by omega⟩
  | succ N ih =>
    rintro s rfl
    rw [List.range_succ, List.foldl_append]
    simp only [List.foldl]
    obtain ⟨h1, h2⟩ := ih _ rfl
    generalize (List.range N).foldl (fun (s : (Nat → K) × Nat) m =>
      if flag m then (put s.1 m (wcalc s.2), s.2 + 1) else (put s.1 m 0, s.2)) (w, 0) = s at *
    rw [cnt]
    by_cases hf : flag N = true
    · rw [if_pos hf, if_pos hf]
      refine ⟨by simp only [h1], fun m hm => ?_⟩
      simp only [put]
      split
      · rename_i e; rw [e, if_pos hf, h1]
      · exact h2 m (by omega)
    · rw [if_neg hf, if_neg hf]
      refine ⟨by simp only [h1, add_zero], fun m hm => ?_⟩
      simp only [put]
      split
      · rename_i e; rw [e, if_neg hf]
      · exact h2 m (by omega)

theorem drop_spec (nsta : Nat) (flag : Nat → Bool) (elev wcalc : Nat → K) :
    match drop nsta flag elev wcalc with
    | some m => m < nsta ∧ flag m = true ∧ wcalc (cnt flag m) < 0 ∧ 0 < elev m ∧
        ∀ n < nsta, flag n = true → wcalc (cnt flag n) < 0 → elev n ≤ elev m
    | none => ∀ n < nsta, flag n = true → wcalc (cnt flag n) < 0 → elev n ≤ 0 := by
  unfold drop
  suffices h : ∀ N s, s = (List.range N).foldl (dropStep flag elev wcalc) ⟨0, none, 0⟩ →
      s.mm = cnt flag N ∧ (∀ n < N, flag n = true → wcalc (cnt flag n) < 0 → elev n ≤ s.elevsave) ∧
      match s.msave with
      | some m => m < N ∧ flag m = true ∧ wcalc (cnt flag m) < 0 ∧ 0 < elev m ∧ s.elevsave = elev m
      | none => s.elevsave = 0 by
    obtain ⟨-, h1, h2⟩ := h nsta _ rfl
    cases e : ((List.range nsta).foldl (dropStep flag elev wcalc) ⟨0, none, 0⟩).msave with
    | none =>
      rw [e] at h2
      rw [h2] at h1
      exact h1
    | some m =>
      rw [e] at h2
      obtain ⟨q1, q2, q3, q4, q5⟩ := h2
      rw [q5] at h1
      exact ⟨q1, q2, q3, q4, h1⟩
  intro N
  induction N with
  | zero => rintro s rfl; exact ⟨rfl, fun n hn => by omega, rfl⟩
  | succ N ih =>
    rintro s rfl
    rw [List.range_succ, List.foldl_append]
    simp only [List.foldl]
    obtain ⟨h1, h2, h3⟩ := ih _ rfl
    generalize (List.range N).foldl (dropStep flag elev wcalc) ⟨0, none, 0⟩ = s at *
    have hs0 : 0 ≤ s.elevsave := by
      cases e : s.msave with
      | none => rw [e] at h3; rw [h3]
      | some m => rw [e] at h3; rw [h3.2.2.2.2]; exact h3.2.2.2.1.le
    have hkeep : match s.msave with
      | some m => m < N + 1 ∧ flag m = true ∧ wcalc (cnt flag m) < 0 ∧ 0 < elev m ∧ s.elevsave = elev m
      | none => s.elevsave = 0 := by
      cases e : s.msave with
      | none => rw [e] at h3; exact h3
      | some m => rw [e] at h3; exact ⟨by omega, h3.2⟩
    unfold dropStep
    rw [cnt]
    by_cases hf : flag N = true
    · simp only [hf, if_true]
      rw [h1]
      by_cases hw : wcalc (cnt flag N) < 0
      · rw [if_pos hw]
        by_cases he : s.elevsave < elev N
        · rw [if_pos he]
          refine ⟨rfl, fun n hn hfn hwn => ?_, by omega, hf, hw, lt_of_le_of_lt hs0 he, rfl⟩
          by_cases e : n = N
          · rw [e]
          · exact (h2 n (by omega) hfn hwn).trans he.le
        · rw [if_neg he]
          refine ⟨rfl, fun n hn hfn hwn => ?_, hkeep⟩
          by_cases e : n = N
          · rw [e]; exact not_lt.1 he
          · exact h2 n (by omega) hfn hwn
      · rw [if_neg hw]
        refine ⟨rfl, fun n hn hfn hwn => ?_, hkeep⟩
        by_cases e : n = N
        · subst e; exact absurd hwn hw
        · exact h2 n (by omega) hfn hwn
    · simp only [hf]
      refine ⟨h1, fun n hn hfn hwn => ?_, hkeep⟩
      have : n ≠ N := fun e => hf (e ▸ hfn)
      exact h2 n (by omega) hfn hwn

/-! ### The loop -/

/-- The kriging equations for the stations in use: `w` and the multiplier `mu`. -/
def System (nsta : Nat) (ad : Nat → Nat → K) (dgrid : Nat → K) (flag : Nat → Bool) (w : Nat → K) (mu : K) : Prop :=
  (∀ m < nsta, flag m = true → ∑ n ∈ range nsta, ad m n * w n + mu = dgrid m) ∧
  ∑ n ∈ range nsta, w n = 1 ∧ ∀ n < nsta, flag n = false → w n = 0

/-- Equations of the loaded matrix and equations of the stations. -/
theorem load_solves (nsta : Nat) (ad : Nat → Nat → K) (dgrid : Nat → K) (flag : Nat → Bool) (a : Nat → Nat → K)
    (x w : Nat → K) (hw : ∀ n < nsta, w n = if flag n = true then x (cnt flag n) else 0) (rhs : Nat → K) (one : K) :
    ((∀ m < nsta, flag m = true → ∑ n ∈ range nsta, ad m n * w n + x (cnt flag nsta) = rhs (cnt flag m)) ∧
      ∑ n ∈ range nsta, w n = one) ↔
    ∀ r < cnt flag nsta + 1, ∑ c ∈ range (cnt flag nsta + 1),
      load nsta (cnt flag nsta) ad dgrid flag a r c * x c = if r = cnt flag nsta then one else rhs r := by
  obtain ⟨h1, h2, h3⟩ := load_spec nsta ad dgrid flag a
  generalize load nsta (cnt flag nsta) ad dgrid flag a = b at h1 h2 h3
  have row : ∀ m < nsta, flag m = true →
      ∑ c ∈ range (cnt flag nsta + 1), b (cnt flag m) c * x c = ∑ n ∈ range nsta, ad m n * w n + x (cnt flag nsta) := by
    intro m hm hf
    obtain ⟨q1, q2, q3, q4⟩ := h1 m hm hf
    rw [sum_range_succ, q2, one_mul, sum_cnt]
    congr 1
    apply sum_congr rfl
    intro n hn
    rw [mem_range] at hn
    rw [hw n hn]
    by_cases hfn : flag n = true
    · rw [if_pos hfn, if_pos hfn, q1 n hn hfn]
    · rw [if_neg hfn, if_neg hfn, mul_zero]
  have last : ∑ c ∈ range (cnt flag nsta + 1), b (cnt flag nsta) c * x c = ∑ n ∈ range nsta, w n := by
    rw [sum_range_succ, h2, zero_mul, add_zero, sum_cnt]
    apply sum_congr rfl
    intro n hn
    rw [mem_range] at hn
    rw [hw n hn]
    by_cases hfn : flag n = true
    · rw [if_pos hfn, if_pos hfn, (h1 n hn hfn).2.2.1, one_mul]
    · rw [if_neg hfn, if_neg hfn]
  constructor
  · rintro ⟨e1, e2⟩ r hr
    by_cases e : r = cnt flag nsta
    · rw [if_pos e, e, last, e2]
    · obtain ⟨m, hm, hf, rfl⟩ := cnt_onto flag (show r < cnt flag nsta by omega)
      rw [if_neg e, row m hm hf, e1 m hm hf]
  · intro h
    refine ⟨fun m hm hf => ?_, ?_⟩
    · have hlt := cnt_lt flag hm hf
      have := h (cnt flag m) (by omega)
      rw [if_neg (by omega), row m hm hf] at this
      exact this
    · have := h (cnt flag nsta) (by omega)
      rw [if_pos rfl, last] at this
      exact this

theorem load_rhs (nsta : Nat) (ad : Nat → Nat → K) (dgrid : Nat → K) (flag : Nat → Bool) (a : Nat → Nat → K)
    (r : Nat) (hr : r < cnt flag nsta + 1) :
    (r = cnt flag nsta ∧ load nsta (cnt flag nsta) ad dgrid flag a r (cnt flag nsta + 1) = 1) ∨
    ∃ m < nsta, flag m = true ∧ cnt flag m = r ∧
      load nsta (cnt flag nsta) ad dgrid flag a r (cnt flag nsta + 1) = dgrid m := by
  obtain ⟨h1, h2, h3⟩ := load_spec nsta ad dgrid flag a
  by_cases e : r = cnt flag nsta
  · left; rw [e]; exact ⟨rfl, h3⟩
  · right
    obtain ⟨m, hm, hf, rfl⟩ := cnt_onto flag (show r < cnt flag nsta by omega)
    exact ⟨m, hm, hf, rfl, (h1 m hm hf).2.2.2⟩

/-- One round: the solver's answer are the weights of the stations in use, and no others satisfy the
equations. -/
theorem round_system (junk : Junk K) (nsta : Nat) (ad : Nat → Nat → K) (dgrid : Nat → K) (flag : Nat → Bool)
    (a : Nat → Nat → K) (x : Nat → K) (hd : ∀ m < nsta, 0 ≤ dgrid m)
    (h : lusolv junk (cnt flag nsta + 1) (load nsta (cnt flag nsta) ad dgrid flag a) = some x) :
    System nsta ad dgrid flag (fun n => if flag n = true then x (cnt flag n) else 0) (x (cnt flag nsta)) ∧
    ∀ w mu, System nsta ad dgrid flag w mu → ∀ n < nsta, w n = if flag n = true then x (cnt flag n) else 0 := by
  have hdet : (mat (cnt flag nsta + 1) (load nsta (cnt flag nsta) ad dgrid flag a)).det ≠ 0 := fun e => by
    rw [(C57_singular junk _ _).2 e] at h; cases h
  have hrhs : ∀ r < cnt flag nsta + 1, 0 ≤ load nsta (cnt flag nsta) ad dgrid flag a r (cnt flag nsta + 1) := by
    intro r hr
    rcases load_rhs nsta ad dgrid flag a r hr with ⟨-, e⟩ | ⟨m, hm, -, -, e⟩
    · rw [e]; exact zero_le_one
    · rw [e]; exact hd m hm
  obtain ⟨x', e, hs, hu⟩ := C57_solves_partial junk _ _ hdet hrhs
  rw [h] at e
  cases e
  have hrw : ∀ r < cnt flag nsta + 1, load nsta (cnt flag nsta) ad dgrid flag a r (cnt flag nsta + 1) =
      if r = cnt flag nsta then 1 else load nsta (cnt flag nsta) ad dgrid flag a r (cnt flag nsta + 1) := by
    intro r hr
    split
    · rename_i e
      rcases load_rhs nsta ad dgrid flag a r hr with ⟨-, e'⟩ | ⟨m, hm, hf, e', -⟩
      · exact e'
      · have := cnt_lt flag hm hf; omega
    · rfl
  have hrm : ∀ m < nsta, flag m = true →
      load nsta (cnt flag nsta) ad dgrid flag a (cnt flag m) (cnt flag nsta + 1) = dgrid m := fun m hm hf =>
    ((load_spec nsta ad dgrid flag a).1 m hm hf).2.2.2
  refine ⟨?_, fun w mu hw n hn => ?_⟩
  · have := (load_solves nsta ad dgrid flag a x (fun n => if flag n = true then x (cnt flag n) else 0)
      (fun _ _ => rfl) (fun r => load nsta (cnt flag nsta) ad dgrid flag a r (cnt flag nsta + 1)) 1).2
      (fun r hr => by rw [← hrw r hr]; exact hs r hr)
    refine ⟨fun m hm hf => ?_, this.2, fun n _ hf => by simp [hf]⟩
    rw [this.1 m hm hf, hrm m hm hf]
  · obtain ⟨e1, e2, e3⟩ := hw
    -- a vector for the matrix
    have hy : ∃ y : Nat → K, y (cnt flag nsta) = mu ∧ ∀ n < nsta, flag n = true → y (cnt flag n) = w n := by
      classical
      refine ⟨fun c => if c = cnt flag nsta then mu else
        if hc : ∃ n < nsta, flag n = true ∧ cnt flag n = c then w hc.choose else 0, by simp, fun n hn hf => ?_⟩
      have hlt := cnt_lt flag hn hf
      simp only
      rw [if_neg (by omega)]
      have hc : ∃ n' < nsta, flag n' = true ∧ cnt flag n' = cnt flag n := ⟨n, hn, hf, rfl⟩
      rw [dif_pos hc]
      rw [cnt_inj flag hc.choose_spec.2.1 hf hc.choose_spec.2.2]
    obtain ⟨y, y1, y2⟩ := hy
    have hwy : ∀ n < nsta, w n = if flag n = true then y (cnt flag n) else 0 := by
      intro n hn
      by_cases hf : flag n = true
      · rw [if_pos hf, y2 n hn hf]
      · rw [if_neg hf, e3 n hn (by simpa using hf)]
    have := (load_solves nsta ad dgrid flag a y w hwy
      (fun r => load nsta (cnt flag nsta) ad dgrid flag a r (cnt flag nsta + 1)) 1).1
      ⟨fun m hm hf => by rw [y1, e1 m hm hf, hrm m hm hf], e2⟩
    have hsol : Solves (cnt flag nsta + 1) (load nsta (cnt flag nsta) ad dgrid flag a)
        (fun r => load nsta (cnt flag nsta) ad dgrid flag a r (cnt flag nsta + 1)) y := fun r hr => by
      show _ = load nsta (cnt flag nsta) ad dgrid flag a r (cnt flag nsta + 1)
      rw [this r hr, ← hrw r hr]
    rw [hwy n hn]
    by_cases hf : flag n = true
    · rw [if_pos hf, if_pos hf]
      have := cnt_lt flag hn hf
      exact hu y hsol _ (by omega)
    · rw [if_neg hf, if_neg hf]

theorem cnt_drop (flag : Nat → Bool) {m nsta : Nat} (hm : m < nsta) (hf : flag m = true) :
    cnt (put flag m false) nsta = cnt flag nsta - 1 := by
  rw [cnt_put flag m nsta hf, if_pos hm]

/-- A nonzero solution of the equations with zero right-hand side. -/
def Degenerate (nsta : Nat) (ad : Nat → Nat → K) (flag : Nat → Bool) : Prop :=
  ∃ v : Nat → K, ∃ nu : K, (nu ≠ 0 ∨ ∃ n < nsta, v n ≠ 0) ∧
    (∀ m < nsta, flag m = true → ∑ n ∈ range nsta, ad m n * v n + nu = 0) ∧
    ∑ n ∈ range nsta, v n = 0 ∧ ∀ n < nsta, flag n = false → v n = 0

/-- A vector of the matrix from values of the stations. -/
theorem gather (nsta : Nat) (flag : Nat → Bool) (w : Nat → K) (mu : K) :
    ∃ y : Nat → K, y (cnt flag nsta) = mu ∧ ∀ n < nsta, flag n = true → y (cnt flag n) = w n := by
  classical
  refine ⟨fun c => if c = cnt flag nsta then mu else
    if hc : ∃ n < nsta, flag n = true ∧ cnt flag n = c then w hc.choose else 0, by simp, fun n hn hf => ?_⟩
  have hlt := cnt_lt flag hn hf
  simp only
  rw [if_neg (by omega)]
  have hc : ∃ n' < nsta, flag n' = true ∧ cnt flag n' = cnt flag n := ⟨n, hn, hf, rfl⟩
  rw [dif_pos hc]
  rw [cnt_inj flag hc.choose_spec.2.1 hf hc.choose_spec.2.2]

theorem load_singular (nsta : Nat) (ad : Nat → Nat → K) (dgrid : Nat → K) (flag : Nat → Bool) (a : Nat → Nat → K) :
    (mat (cnt flag nsta + 1) (load nsta (cnt flag nsta) ad dgrid flag a)).det = 0 ↔ Degenerate nsta ad flag := by
  rw [← singular_iff_det]
  constructor
  · rintro ⟨x, ⟨c, hc, hx⟩, h⟩
    have := (load_solves nsta ad dgrid flag a x (fun n => if flag n = true then x (cnt flag n) else 0)
      (fun _ _ => rfl) (fun _ => 0) 0).2 (fun r hr => by rw [h r hr]; simp)
    refine ⟨_, x (cnt flag nsta), ?_, this.1, this.2, fun n _ hf => by simp [hf]⟩
    by_cases e : c = cnt flag nsta
    · left; rwa [← e]
    · obtain ⟨n, hn, hf, rfl⟩ := cnt_onto flag (show c < cnt flag nsta by omega)
      right; exact ⟨n, hn, by simpa [hf] using hx⟩
  · rintro ⟨v, nu, hne, e1, e2, e3⟩
    obtain ⟨y, y1, y2⟩ := gather nsta flag v nu
    have hvy : ∀ n < nsta, v n = if flag n = true then y (cnt flag n) else 0 := by
      intro n hn
      by_cases hf : flag n = true
      · rw [if_pos hf, y2 n hn hf]
      · rw [if_neg hf, e3 n hn (by simpa using hf)]
    have := (load_solves nsta ad dgrid flag a y v hvy (fun _ => 0) 0).1
      ⟨fun m hm hf => by rw [y1]; exact e1 m hm hf, e2⟩
    refine ⟨y, ?_, fun r hr => by rw [this r hr]; simp⟩
    rcases hne with h | ⟨n, hn, h⟩
    · exact ⟨_, Nat.lt_succ_self _, by rwa [y1]⟩
    · have hf : flag n = true := by
        by_contra hf
        exact h (e3 n hn (by simpa using hf))
      have := cnt_lt flag hn hf
      exact ⟨cnt flag n, by omega, by rwa [y2 n hn hf]⟩

/-- A solution of the equations is the only one unless they are degenerate. -/
theorem system_unique (nsta : Nat) (ad : Nat → Nat → K) (dgrid : Nat → K) (flag : Nat → Bool) (w w' : Nat → K) (mu mu' : K)
    (h : System nsta ad dgrid flag w mu) (h' : System nsta ad dgrid flag w' mu') (hd : ¬ Degenerate nsta ad flag) :
    ∀ n < nsta, w' n = w n := by
  by_contra hc
  have hc : ∃ n < nsta, w' n ≠ w n := by
    by_contra hn
    exact hc fun n hlt => by
      by_contra he
      exact hn ⟨n, hlt, he⟩
  obtain ⟨n, hn, hne⟩ := hc
  refine hd ⟨fun n => w' n - w n, mu' - mu, Or.inr ⟨n, hn, sub_ne_zero.2 hne⟩, fun m hm hf => ?_, ?_, fun k hk hf => ?_⟩
  · simp only [mul_sub, sum_sub_distrib]
    linear_combination h'.1 m hm hf - h.1 m hm hf
  · rw [sum_sub_distrib, h'.2.1, h.2.1, sub_self]
  · simp only [h'.2.2 k hk hf, h.2.2 k hk hf, sub_self]

/-- Elimination of stations: solve the equations of the stations in use; while stations with a negative
weight have a positive elevation drop the highest of these. -/
inductive Elim (nsta : Nat) (ad : Nat → Nat → K) (dgrid elev : Nat → K) : (Nat → Bool) → (Nat → K) → Prop
  | done {flag : Nat → Bool} {w : Nat → K} {mu : K} (sys : System nsta ad dgrid flag w mu)
      (reg : ¬ Degenerate nsta ad flag) (stop : ∀ n < nsta, w n < 0 → elev n ≤ 0) : Elim nsta ad dgrid elev flag w
  | drop {flag : Nat → Bool} {v w : Nat → K} {mu : K} (m : Nat) (sys : System nsta ad dgrid flag v mu)
      (reg : ¬ Degenerate nsta ad flag) (hm : m < nsta) (hf : flag m = true) (neg : v m < 0) (pos : 0 < elev m)
      (top : ∀ n < nsta, v n < 0 → elev n ≤ elev m) (rest : Elim nsta ad dgrid elev (put flag m false) w) :
      Elim nsta ad dgrid elev flag w

/-- The loop ends as the elimination prescribes, or when the equations are degenerate. -/
theorem loop_spec (mem : Mem K) (nsta : Nat) (ad : Nat → Nat → K) (dgrid elev : Nat → K)
    (hd : ∀ m < nsta, 0 ≤ dgrid m) (fuel : Nat) (flag : Nat → Bool) (hfuel : cnt flag nsta < fuel) :
    match loop mem nsta ad dgrid elev fuel (cnt flag nsta) flag with
    | .weights w => Elim nsta ad dgrid elev flag w
    | .exit => (∃ m < nsta, flag m = true) →
        ∃ flag' : Nat → Bool, (∀ m, flag' m = true → flag m = true) ∧ (∃ m < nsta, flag' m = true) ∧
          Degenerate nsta ad flag'
    | .stuck => False := by
  induction fuel generalizing flag with
  | zero => omega
  | succ fuel ih =>
    rw [loop]
    cases hs : lusolv (mem.lu (cnt flag nsta)) (cnt flag nsta + 1)
        (load nsta (cnt flag nsta) ad dgrid flag (mem.a (cnt flag nsta))) with
    | none =>
      intro hex
      exact ⟨flag, fun _ h => h, hex, (load_singular _ _ dgrid _ _).1 ((C57_singular _ _ _).1 hs)⟩
    | some x =>
      obtain ⟨hsys, -⟩ := round_system _ nsta ad dgrid flag _ x hd hs
      have hreg : ¬ Degenerate nsta ad flag := fun h => by
        rw [(C57_singular _ _ _).2 ((load_singular _ _ dgrid _ _).2 h)] at hs
        cases hs
      have hdrop := drop_spec nsta flag elev x
      simp only
      cases hdr : drop nsta flag elev x with
      | none =>
        rw [hdr] at hdrop
        simp only at hdrop ⊢
        have hsc := scatter_spec nsta flag x mem.w
        refine .done (mu := x (cnt flag nsta)) ⟨fun m hm hf => ?_, ?_, fun n hn hf => ?_⟩ hreg fun n hn hw => ?_
        · rw [← hsys.1 m hm hf]
          congr 1
          apply sum_congr rfl
          intro n hn
          rw [mem_range] at hn
          rw [hsc n hn]
        · rw [← hsys.2.1]
          apply sum_congr rfl
          intro n hn
          rw [mem_range] at hn
          rw [hsc n hn]
        · rw [hsc n hn, hf]; simp
        · rw [hsc n hn] at hw
          split at hw
          · rename_i hf; exact hdrop n hn hf hw
          · exact absurd hw (lt_irrefl _)
      | some m =>
        rw [hdr] at hdrop
        simp only at hdrop ⊢
        obtain ⟨hm, hf, hneg, hpos, htop⟩ := hdrop
        have hlt := cnt_lt flag hm hf
        have hput : ∀ k, put flag m false k = true → flag k = true := fun k hk => by
          unfold put at hk; split at hk
          · cases hk
          · exact hk
        have := ih (put flag m false) (by rw [cnt_drop flag hm hf]; omega)
        rw [cnt_drop flag hm hf] at this
        cases hl : loop mem nsta ad dgrid elev fuel (cnt flag nsta - 1) (put flag m false) with
        | weights w =>
          rw [hl] at this
          refine .drop m hsys hreg hm hf (by simpa [hf] using hneg) hpos (fun n hn hw => ?_) this
          split at hw
          · rename_i hf; exact htop n hn hf hw
          · exact absurd hw (lt_irrefl _)
        | exit =>
          rw [hl] at this
          intro _
          -- another station is in use, for the weights sum to one
          have hother : ∃ k < nsta, put flag m false k = true := by
            by_contra hc
            have hall : ∀ k ∈ range nsta, k ≠ m → (if flag k = true then x (cnt flag k) else 0) = 0 := by
              intro k hk hkm
              rw [mem_range] at hk
              rw [if_neg]
              intro hfk
              exact hc ⟨k, hk, by unfold put; rw [if_neg hkm, hfk]⟩
            have h1 := hsys.2.1
            rw [sum_eq_single m hall (fun h => absurd (mem_range.2 hm) h), if_pos hf] at h1
            rw [h1] at hneg
            exact absurd hneg (not_lt.2 zero_le_one)
          obtain ⟨f', h1, h2, h3⟩ := this hother
          exact ⟨f', fun k hk => hput k (h1 k hk), h2, h3⟩
        | stuck => rw [hl] at this; exact this

/-- The loop ends whatever the distances. -/
theorem loop_ends (mem : Mem K) (nsta : Nat) (ad : Nat → Nat → K) (dgrid elev : Nat → K)
    (fuel : Nat) (flag : Nat → Bool) (hfuel : cnt flag nsta < fuel) :
    loop mem nsta ad dgrid elev fuel (cnt flag nsta) flag ≠ .stuck := by
  induction fuel generalizing flag with
  | zero => omega
  | succ fuel ih =>
    rw [loop]
    cases hs : lusolv (mem.lu (cnt flag nsta)) (cnt flag nsta + 1)
        (load nsta (cnt flag nsta) ad dgrid flag (mem.a (cnt flag nsta))) with
    | none => intro h; cases h
    | some x =>
      have hdrop := drop_spec nsta flag elev x
      simp only
      cases hdr : drop nsta flag elev x with
      | none => intro h; cases h
      | some m =>
        rw [hdr] at hdrop
        simp only at hdrop ⊢
        obtain ⟨hm, hf, -⟩ := hdrop
        have hlt := cnt_lt flag hm hf
        have := ih (put flag m false) (by rw [cnt_drop flag hm hf]; omega)
        rwa [cnt_drop flag hm hf] at this

theorem Elim.subset {nsta : Nat} {ad : Nat → Nat → K} {dgrid elev : Nat → K} {flag : Nat → Bool} {w : Nat → K}
    (h : Elim nsta ad dgrid elev flag w) :
    ∃ flag' : Nat → Bool, (∀ m, flag' m = true → flag m = true) ∧ ∃ mu, System nsta ad dgrid flag' w mu ∧
      ¬ Degenerate nsta ad flag' ∧ ∀ n < nsta, w n < 0 → elev n ≤ 0 := by
  induction h with
  | done sys reg stop => exact ⟨_, fun _ h => h, _, sys, reg, stop⟩
  | @drop flag v w mu m sys reg hm hf neg pos top rest ih =>
    obtain ⟨f', h1, h2⟩ := ih
    refine ⟨f', fun k hk => ?_, h2⟩
    have := h1 k hk
    unfold put at this
    split at this
    · cases this
    · exact this

end Verif.Krige
