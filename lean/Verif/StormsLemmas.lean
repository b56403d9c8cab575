import Verif.Storms
import Mathlib.Data.List.Nodup
import Mathlib.Tactic.Linarith

/-! Helper lemmas for the storm model. -/

namespace Verif.Storms

section
variable {T K : Type} [LinearOrder K] [AddZeroClass K]

omit [AddZeroClass K] in
theorem rowMax_none (row : List (Option K)) : rowMax row = none ↔ ∀ x, some x ∉ row := by
  induction row with
  | nil => simp [rowMax]
  | cons c r ih =>
    cases c with
    | none => simp [rowMax, ih]
    | some a =>
      simp only [rowMax]
      constructor
      · intro h; cases h' : rowMax r <;> rw [h'] at h <;> simp at h
      · intro h; exact absurd (List.mem_cons_self) (h a)

omit [AddZeroClass K] in
theorem rowMax_some (row : List (Option K)) (m : K) (h : rowMax row = some m) :
    some m ∈ row ∧ ∀ x, some x ∈ row → x ≤ m := by
  induction row generalizing m with
  | nil => cases h
  | cons c r ih =>
    cases c with
    | none =>
      simp only [rowMax] at h
      obtain ⟨h1, h2⟩ := ih m h
      exact ⟨List.mem_cons_of_mem _ h1, fun x hx => h2 x (by simpa using hx)⟩
    | some a =>
      simp only [rowMax] at h
      cases hr : rowMax r with
      | none =>
        rw [hr] at h
        cases h
        have hn := (rowMax_none r).1 hr
        refine ⟨List.mem_cons_self, fun x hx => ?_⟩
        rcases List.mem_cons.1 hx with e | hx
        · cases e; exact le_refl _
        · exact absurd hx (hn x)
      | some b =>
        rw [hr] at h
        cases h
        obtain ⟨h1, h2⟩ := ih b hr
        constructor
        · rcases le_total a b with hab | hab
          · rw [max_eq_right hab]; exact List.mem_cons_of_mem _ h1
          · rw [max_eq_left hab]; exact List.mem_cons_self
        · intro x hx
          rcases List.mem_cons.1 hx with e | hx
          · cases e; exact le_max_left _ _
          · exact le_trans (h2 x hx) (le_max_right _ _)

omit [AddZeroClass K] in
theorem wetRow_iff (thr : K) (row : List (Option K)) :
    wetRow thr row = true ↔ ∃ x, some x ∈ row ∧ thr < x := by
  unfold wetRow
  cases h : rowMax row with
  | none =>
    have hn := (rowMax_none row).1 h
    simp [hn]
  | some m =>
    obtain ⟨h1, h2⟩ := rowMax_some row m h
    simp only [decide_eq_true_eq]
    constructor
    · intro hm; exact ⟨m, h1, hm⟩
    · rintro ⟨x, hx, hlt⟩; exact lt_of_lt_of_le hlt (h2 x hx)

/-- Copying time stamps commutes with the loop. -/
def Storm.mapTime {T' : Type} (f : T → T') (s : Storm T K) : Storm T' K :=
  ⟨f s.start, f s.stop, s.mass⟩

def Track.mapTime {T' : Type} (f : T → T') (st : Track T K) : Track T' K :=
  ⟨st.closed.map (Storm.mapTime f), st.cur.map (Storm.mapTime f), st.cnt⟩

theorem trackStep_mapTime {T' : Type} (f : T → T') (thr : K) (n : Nat) (st : Track T K) (t : T)
    (row : List (Option K)) :
    trackStep thr n (st.mapTime f) (f t) row = (trackStep thr n st t row).mapTime f := by
  obtain ⟨cl, cur, cnt⟩ := st
  unfold trackStep
  have h1 : trackRow thr n (Track.mapTime f ⟨cl, cur, cnt⟩) (f t) row =
      (trackRow thr n ⟨cl, cur, cnt⟩ t row).mapTime f := by
    unfold trackRow
    split
    · cases cur <;> simp [Track.mapTime, Storm.mapTime]
    · cases cur with
      | none => simp [Track.mapTime]
      | some s =>
        simp only [Track.mapTime, Option.map_some]
        by_cases hc : cnt < n <;> simp [hc, Storm.mapTime]
  rw [h1]
  generalize trackRow thr n ⟨cl, cur, cnt⟩ t row = st'
  obtain ⟨cl, cur, cnt⟩ := st'
  unfold trackClose
  cases cur with
  | none => simp [Track.mapTime]
  | some s =>
    simp only [Track.mapTime, Option.map_some]
    by_cases hc : n ≤ cnt <;> simp [hc]

theorem trackLoop_mapTime {T' : Type} (f : T → T') (thr : K) (n : Nat) (rows : List (T × List (Option K)))
    (st : Track T K) :
    trackLoop thr n (st.mapTime f) (rows.map fun p => (f p.1, p.2)) =
      (trackLoop thr n st rows).mapTime f := by
  induction rows generalizing st with
  | nil => rfl
  | cons p rows ih =>
    obtain ⟨t, row⟩ := p
    simp only [List.map_cons, trackLoop, trackStep_mapTime, ih]

end

/-! ### The invariant of the station loop, over positions -/

section
variable {K : Type} [LinearOrder K] [AddCommMonoid K]

/-- Row `i` of the table is above the threshold. -/
def WetAt (thr : K) (rows : List (List (Option K))) (i : Nat) : Prop :=
  ∃ row x, rows[i]? = some row ∧ some x ∈ row ∧ thr < x

/-- There is a spell of `n` rows at or below the threshold after row `i` and before row `j`. -/
def DrySpell (thr : K) (rows : List (List (Option K))) (n i j : Nat) : Prop :=
  ∃ k, i < k ∧ k + n ≤ j ∧ ∀ m, k ≤ m → m < k + n → ¬ WetAt thr rows m

def Storm.Has (s : Storm Nat K) (i : Nat) : Prop := s.start ≤ i ∧ i ≤ s.stop

/-- `addN`-sum of a list. -/
def sumN : List (Option K) → Option K
  | [] => some 0
  | x :: r => addN x (sumN r)

/-- Values of station `k` at the wet rows among `a, ..., b`. -/
noncomputable def wetValues (thr : K) (rows : List (List (Option K))) (k a b : Nat) : List (Option K) :=
  open Classical in
  ((List.range (b + 1)).filter fun i => decide (a ≤ i) && decide (WetAt thr rows i)).map fun i =>
    ((rows[i]?).bind (·[k]?)).join

theorem addN_assoc (a b c : Option K) : addN (addN a b) c = addN a (addN b c) := by
  cases a <;> cases b <;> cases c <;> simp [addN, add_assoc]

theorem addN_comm (a b : Option K) : addN a b = addN b a := by
  cases a <;> cases b <;> simp [addN, add_comm]

theorem addN_zero (a : Option K) : addN a (some 0) = a := by
  cases a <;> simp [addN]

theorem sumN_append (l m : List (Option K)) : sumN (l ++ m) = addN (sumN l) (sumN m) := by
  induction l with
  | nil => simp only [List.nil_append, sumN]; rw [addN_comm, addN_zero]
  | cons x l ih => simp only [List.cons_append, sumN, ih, addN_assoc]

theorem wetValues_succ_wet (thr : K) (rows : List (List (Option K))) (k a b : Nat) (hab : a ≤ b + 1)
    (h : WetAt thr rows (b + 1)) :
    wetValues thr rows k a (b + 1) = wetValues thr rows k a b ++
      [((rows[b + 1]?).bind (·[k]?)).join] := by
  unfold wetValues
  rw [List.range_succ, List.filter_append, List.map_append]
  simp [h, hab]

theorem wetValues_succ_dry (thr : K) (rows : List (List (Option K))) (k a b : Nat)
    (h : ¬ WetAt thr rows (b + 1)) :
    wetValues thr rows k a (b + 1) = wetValues thr rows k a b := by
  unfold wetValues
  rw [List.range_succ, List.filter_append, List.map_append]
  simp [h]

theorem wetValues_single (thr : K) (rows : List (List (Option K))) (k a : Nat)
    (h : WetAt thr rows a) :
    wetValues thr rows k a a = [((rows[a]?).bind (·[k]?)).join] := by
  unfold wetValues
  rw [List.range_succ, List.filter_append, List.map_append]
  have : (List.range a).filter (fun i => decide (a ≤ i) &&
      @decide (WetAt thr rows i) (Classical.propDecidable _)) = [] := by
    rw [List.filter_eq_nil_iff]
    intro i hi
    simp at hi
    simp [Nat.not_le.2 hi]
  rw [this]
  simp [h]

/-- What is known of a storm entry. -/
structure Good (thr : K) (rows : List (List (Option K))) (width : Nat) (s : Storm Nat K) : Prop where
  ord : s.start ≤ s.stop
  wet : WetAt thr rows s.start
  wid : s.mass.length = width
  mass : ∀ k, k < width → s.mass[k]? = some (sumN (wetValues thr rows k s.start s.stop))

/-- Invariant after `N` rows, without the bound on the counter. -/
structure Inv (thr : K) (n : Nat) (rows : List (List (Option K))) (width N : Nat)
    (st : Track Nat K) : Prop where
  good : ∀ s ∈ st.closed ++ st.cur.toList, Good thr rows width s
  bound : ∀ s ∈ st.closed, s.stop < N
  order : (st.closed ++ st.cur.toList).Pairwise fun s t => s.stop < t.start
  ends : ∀ s ∈ st.closed, ∃ p, p + n = s.stop ∧ s.start ≤ p ∧ WetAt thr rows p ∧
    ∀ m, p < m → m ≤ s.stop → ¬ WetAt thr rows m
  openS : ∀ s, st.cur = some s → s.stop + 1 = N ∧ st.cnt ≤ n ∧
    ∃ p, p + st.cnt + 1 = N ∧ s.start ≤ p ∧ WetAt thr rows p ∧
      ∀ m, p < m → m < N → ¬ WetAt thr rows m
  cover : ∀ i, i < N → WetAt thr rows i → ∃ s ∈ st.closed ++ st.cur.toList, s.Has i
  same : ∀ i j, i < j → j < N → WetAt thr rows i → WetAt thr rows j →
    ((∃ s ∈ st.closed ++ st.cur.toList, s.Has i ∧ s.Has j) ↔ ¬ DrySpell thr rows n i j)
  idle : st.cur = none → ∀ i, i < N → WetAt thr rows i → DrySpell thr rows n i N

theorem DrySpell.mono {thr : K} {rows : List (List (Option K))} {n i j j' : Nat}
    (h : DrySpell thr rows n i j) (hj : j ≤ j') : DrySpell thr rows n i j' := by
  obtain ⟨k, h1, h2, h3⟩ := h
  exact ⟨k, h1, by omega, h3⟩

theorem trackClose_inv {thr : K} {n : Nat} {rows : List (List (Option K))} {width N : Nat}
    {st : Track Nat K} (h : Inv thr n rows width N st) :
    Inv thr n rows width N (trackClose n st) ∧
      ∀ s, (trackClose n st).cur = some s → (trackClose n st).cnt < n := by
  obtain ⟨cl, cur, cnt⟩ := st
  cases cur with
  | none => exact ⟨h, fun s hs => by simp [trackClose] at hs⟩
  | some s =>
    by_cases hc : n ≤ cnt
    · have e : trackClose n (⟨cl, some s, cnt⟩ : Track Nat K) = ⟨cl ++ [s], none, cnt⟩ := by
        simp [trackClose, hc]
      rw [e]
      refine ⟨⟨?_, ?_, ?_, ?_, ?_, ?_, ?_, ?_⟩, ?_⟩
      · simpa using h.good
      · intro s' hs'
        rcases List.mem_append.1 hs' with hs' | hs'
        · exact h.bound s' hs'
        · simp at hs'; subst hs'
          have := (h.openS _ rfl).1; omega
      · simpa using h.order
      · intro s' hs'
        rcases List.mem_append.1 hs' with hs' | hs'
        · exact h.ends s' hs'
        · simp at hs'; subst hs'
          obtain ⟨ho, hle, p, hp, hsp, hwp, hd⟩ := h.openS _ rfl
          simp only at hp hle
          exact ⟨p, by omega, hsp, hwp, fun m h1 h2 => hd m h1 (by omega)⟩
      · intro s' hs'; cases hs'
      · simpa using h.cover
      · simpa using h.same
      · intro _ i hi hw
        obtain ⟨-, -, p, hp, -, -, hd⟩ := h.openS s rfl
        have hip : i ≤ p := by
          by_contra hlt
          exact hd i (by omega) hi hw
        simp only at hp
        exact ⟨p + 1, by omega, by omega, fun m h1 h2 => hd m (by omega) (by omega)⟩
      · intro s' hs'; cases hs'
    · have e : trackClose n (⟨cl, some s, cnt⟩ : Track Nat K) = ⟨cl, some s, cnt⟩ := by
        simp [trackClose, hc]
      rw [e]
      exact ⟨h, fun _ _ => by simpa using hc⟩

theorem cell_of {rows : List (List (Option K))} {N : Nat} {row : List (Option K)} {width k : Nat}
    (hrow : rows[N]? = some row) (hw : row.length = width) (hk : k < width) :
    row[k]? = some (((rows[N]?).bind (·[k]?)).join) := by
  rw [hrow]
  have : k < row.length := by omega
  simp [List.getElem?_eq_getElem this]

theorem trackRow_inv {thr : K} {n : Nat} {rows : List (List (Option K))} {width N : Nat}
    {st : Track Nat K} (h : Inv thr n rows width N st) (hc : ∀ s, st.cur = some s → st.cnt < n)
    (row : List (Option K)) (hrow : rows[N]? = some row) (hwid : row.length = width) :
    Inv thr n rows width (N + 1) (trackRow thr n st N row) := by
  obtain ⟨cl, cur, cnt⟩ := st
  have hwet : wetRow thr row = true ↔ WetAt thr rows N := by
    rw [wetRow_iff]
    constructor
    · rintro ⟨x, hx, hlt⟩; exact ⟨row, x, hrow, hx, hlt⟩
    · rintro ⟨row', x, hr, hx, hlt⟩
      rw [hrow] at hr; cases hr; exact ⟨x, hx, hlt⟩
  by_cases hw : wetRow thr row = true
  · have hW := hwet.1 hw
    cases cur with
    | none =>
      have e : trackRow thr n (⟨cl, none, cnt⟩ : Track Nat K) N row =
          ⟨cl, some ⟨N, N, List.zipWith addN (row.map fun _ => some 0) row⟩, 0⟩ := by
        simp [trackRow, hw]
      rw [e]
      generalize hs : (⟨N, N, List.zipWith addN (row.map fun _ => some 0) row⟩ : Storm Nat K) = s
      have hst : s.start = N ∧ s.stop = N ∧
        s.mass = List.zipWith addN (row.map fun _ => some 0) row := by subst hs; simp
      obtain ⟨h1, h2, h3⟩ := hst
      have hbound := h.bound
      simp only at hbound
      refine ⟨?_, ?_, ?_, h.ends, ?_, ?_, ?_, ?_⟩
      · intro s' hs'
        simp only [Option.toList_some, List.mem_append, List.mem_singleton] at hs'
        rcases hs' with hs' | rfl
        · exact h.good s' (by simpa using hs')
        · refine ⟨by omega, h1 ▸ hW, by rw [h3]; simp [hwid], fun k hk => ?_⟩
          rw [h1, h2, wetValues_single thr rows k N hW, h3, List.getElem?_zipWith]
          simp only [List.getElem?_map, cell_of hrow hwid hk, Option.map_some, sumN]
          rw [addN_comm]
      · intro s' hs'; have := hbound s' hs'; omega
      · simp only [Option.toList_some, List.pairwise_append]
        refine ⟨by simpa using h.order, by simp, ?_⟩
        intro a ha b hb
        simp at hb; subst hb
        rw [h1]; exact hbound a ha
      · intro s' hs'
        cases hs'
        refine ⟨by omega, by simp, N, by simp, by omega, hW, fun m hm1 hm2 => by omega⟩
      · intro i hi hwi
        by_cases hiN : i = N
        · exact ⟨s, by simp, by rw [Storm.Has]; omega⟩
        · obtain ⟨s', hs', hh⟩ := h.cover i (by omega) hwi
          exact ⟨s', by simp at hs'; simp [hs'], hh⟩
      · intro i j hij hj hwi hwj
        by_cases hjN : j = N
        · subst hjN
          have hd := h.idle rfl i hij hwi
          constructor
          · rintro ⟨s', hs', ha, hb⟩
            simp only [Option.toList_some, List.mem_append, List.mem_singleton] at hs'
            rcases hs' with hs' | rfl
            · have := hbound s' hs'; rw [Storm.Has] at hb; omega
            · rw [Storm.Has] at ha; omega
          · intro hn; exact absurd hd hn
        · rw [← h.same i j hij (by omega) hwi hwj]
          constructor
          · rintro ⟨s', hs', ha, hb⟩
            simp only [Option.toList_some, List.mem_append, List.mem_singleton] at hs'
            rcases hs' with hs' | rfl
            · exact ⟨s', by simp [hs'], ha, hb⟩
            · rw [Storm.Has] at ha; omega
          · rintro ⟨s', hs', ha, hb⟩
            exact ⟨s', by simp at hs'; simp [hs'], ha, hb⟩
      · intro h'; cases h'
    | some s0 =>
      have e : trackRow thr n (⟨cl, some s0, cnt⟩ : Track Nat K) N row =
          ⟨cl, some ⟨s0.start, N, List.zipWith addN s0.mass row⟩, 0⟩ := by
        simp [trackRow, hw]
      rw [e]
      generalize hs : (⟨s0.start, N, List.zipWith addN s0.mass row⟩ : Storm Nat K) = s
      have hst : s.start = s0.start ∧ s.stop = N ∧
        s.mass = List.zipWith addN s0.mass row := by subst hs; simp
      obtain ⟨h1, h2, h3⟩ := hst
      have hbound := h.bound
      simp only at hbound
      obtain ⟨hstop, -, p, hp, hsp, hwp, hdry⟩ := h.openS s0 rfl
      simp only at hp
      have hcn := hc s0 rfl
      simp only at hcn
      have hg0 := h.good s0 (by simp)
      have hord := h.order
      simp only [Option.toList_some, List.pairwise_append] at hord
      have hcl : ∀ a ∈ cl, a.stop < s0.start := fun a ha => hord.2.2 a ha s0 (by simp)
      refine ⟨?_, ?_, ?_, h.ends, ?_, ?_, ?_, ?_⟩
      · intro s' hs'
        simp only [Option.toList_some, List.mem_append, List.mem_singleton] at hs'
        rcases hs' with hs' | rfl
        · exact h.good s' (by simp [hs'])
        · refine ⟨by omega, h1 ▸ hg0.wet, by rw [h3]; simp [hwid, hg0.wid], fun k hk => ?_⟩
          have hN : N = s0.stop + 1 := by omega
          rw [h1, h2, hN, wetValues_succ_wet thr rows k s0.start s0.stop (by have := hg0.ord; omega)
            (hN ▸ hW), h3, List.getElem?_zipWith, hg0.mass k hk, cell_of hrow hwid hk, sumN_append,
            ← hN]
          simp [sumN, addN_zero]
      · intro s' hs'; have := hbound s' hs'; omega
      · simp only [Option.toList_some, List.pairwise_append]
        refine ⟨hord.1, by simp, ?_⟩
        intro a ha b hb
        simp at hb; subst hb
        rw [h1]; exact hcl a ha
      · intro s' hs'
        cases hs'
        have := hg0.ord
        refine ⟨by omega, by simp, N, by simp, by omega, hW, fun m hm1 hm2 => by omega⟩
      · intro i hi hwi
        by_cases hiN : i = N
        · have := hg0.ord
          exact ⟨s, by simp, by rw [Storm.Has]; omega⟩
        · obtain ⟨s', hs', hh⟩ := h.cover i (by omega) hwi
          simp only [Option.toList_some, List.mem_append, List.mem_singleton] at hs'
          rcases hs' with hs' | rfl
          · exact ⟨s', by simp [hs'], hh⟩
          · rw [Storm.Has] at hh
            exact ⟨s, by simp, by rw [Storm.Has]; omega⟩
      · intro i j hij hj hwi hwj
        by_cases hjN : j = N
        · subst hjN
          have hip : i ≤ p := by
            by_contra hlt
            exact hdry i (by omega) hij hwi
          constructor
          · rintro ⟨s', hs', ha, hb⟩
            simp only [Option.toList_some, List.mem_append, List.mem_singleton] at hs'
            rcases hs' with hs' | rfl
            · have := hbound s' hs'; rw [Storm.Has] at hb; omega
            · rintro ⟨k, hk1, hk2, hk3⟩
              by_cases hkp : k ≤ p
              · by_cases hpk : p < k + n
                · exact hk3 p hkp hpk hwp
                · have hsame := (h.same i p (by omega) (by omega) hwi hwp).1
                    ⟨s0, by simp, by rw [Storm.Has] at ha ⊢; omega, by rw [Storm.Has]; omega⟩
                  exact hsame ⟨k, hk1, by omega, hk3⟩
              · omega
          · intro hn
            refine ⟨s, by simp, ?_, by rw [Storm.Has]; omega⟩
            by_cases hip' : i = p
            · rw [Storm.Has]; omega
            · have hsame := (h.same i p (by omega) (by omega) hwi hwp).2
                (fun hd => hn (hd.mono (by omega)))
              obtain ⟨s', hs', ha, hb⟩ := hsame
              simp only [Option.toList_some, List.mem_append, List.mem_singleton] at hs'
              rcases hs' with hs' | rfl
              · have := hcl s' hs'; rw [Storm.Has] at hb; omega
              · rw [Storm.Has] at ha ⊢; omega
        · rw [← h.same i j hij (by omega) hwi hwj]
          constructor
          · rintro ⟨s', hs', ha, hb⟩
            simp only [Option.toList_some, List.mem_append, List.mem_singleton] at hs'
            rcases hs' with hs' | rfl
            · exact ⟨s', by simp [hs'], ha, hb⟩
            · exact ⟨s0, by simp, by rw [Storm.Has] at ha ⊢; omega, by rw [Storm.Has] at hb ⊢; omega⟩
          · rintro ⟨s', hs', ha, hb⟩
            simp only [Option.toList_some, List.mem_append, List.mem_singleton] at hs'
            rcases hs' with hs' | rfl
            · exact ⟨s', by simp [hs'], ha, hb⟩
            · exact ⟨s, by simp, by rw [Storm.Has] at ha ⊢; omega, by rw [Storm.Has] at hb ⊢; omega⟩
      · intro h'; cases h'
  · have hW : ¬ WetAt thr rows N := fun h' => hw (hwet.2 h')
    have hlt : ∀ i, i < N + 1 → WetAt thr rows i → i < N := by
      intro i hi hwi
      by_contra hge
      have : i = N := by omega
      exact hW (this ▸ hwi)
    cases cur with
    | none =>
      have e : trackRow thr n (⟨cl, none, cnt⟩ : Track Nat K) N row = ⟨cl, none, cnt⟩ := by
        simp [trackRow, hw]
      rw [e]
      refine ⟨h.good, fun s' hs' => ?_, h.order, h.ends, (fun s hs => by cases hs), ?_, ?_, ?_⟩
      · have := h.bound s' hs'; omega
      · exact fun i hi hwi => h.cover i (hlt i hi hwi) hwi
      · exact fun i j hij hj hwi hwj => h.same i j hij (hlt j hj hwj) hwi hwj
      · exact fun h' i hi hwi => (h.idle h' i (hlt i hi hwi) hwi).mono (by omega)
    | some s0 =>
      have hcn := hc s0 rfl
      simp only at hcn
      have e : trackRow thr n (⟨cl, some s0, cnt⟩ : Track Nat K) N row =
          ⟨cl, some ⟨s0.start, N, s0.mass⟩, cnt + 1⟩ := by
        simp [trackRow, hw, hcn]
      rw [e]
      generalize hs : (⟨s0.start, N, s0.mass⟩ : Storm Nat K) = s
      have hst : s.start = s0.start ∧ s.stop = N ∧ s.mass = s0.mass := by subst hs; simp
      obtain ⟨h1, h2, h3⟩ := hst
      have hbound := h.bound
      simp only at hbound
      obtain ⟨hstop, -, p, hp, hsp, hwp, hdry⟩ := h.openS s0 rfl
      simp only at hp
      have hg0 := h.good s0 (by simp)
      have hord := h.order
      simp only [Option.toList_some, List.pairwise_append] at hord
      have hcl : ∀ a ∈ cl, a.stop < s0.start := fun a ha => hord.2.2 a ha s0 (by simp)
      refine ⟨?_, ?_, ?_, h.ends, ?_, ?_, ?_, ?_⟩
      · intro s' hs'
        simp only [Option.toList_some, List.mem_append, List.mem_singleton] at hs'
        rcases hs' with hs' | rfl
        · exact h.good s' (by simp [hs'])
        · refine ⟨by omega, h1 ▸ hg0.wet, by rw [h3]; exact hg0.wid, fun k hk => ?_⟩
          have hN : N = s0.stop + 1 := by omega
          rw [h1, h2, hN, wetValues_succ_dry thr rows k s0.start s0.stop (hN ▸ hW), h3,
            hg0.mass k hk]
      · intro s' hs'; have := hbound s' hs'; omega
      · simp only [Option.toList_some, List.pairwise_append]
        refine ⟨hord.1, by simp, ?_⟩
        intro a ha b hb
        simp at hb; subst hb
        rw [h1]; exact hcl a ha
      · intro s' hs'
        cases hs'
        refine ⟨by omega, by simp only; omega, p, by simp only; omega, by omega, hwp, fun m hm1 hm2 => ?_⟩
        by_cases hmN : m = N
        · exact hmN ▸ hW
        · exact hdry m hm1 (by omega)
      · intro i hi hwi
        have hi' := hlt i hi hwi
        obtain ⟨s', hs', hh⟩ := h.cover i hi' hwi
        simp only [Option.toList_some, List.mem_append, List.mem_singleton] at hs'
        rcases hs' with hs' | rfl
        · exact ⟨s', by simp [hs'], hh⟩
        · rw [Storm.Has] at hh
          exact ⟨s, by simp, by rw [Storm.Has]; omega⟩
      · intro i j hij hj hwi hwj
        have hj' := hlt j hj hwj
        rw [← h.same i j hij hj' hwi hwj]
        constructor
        · rintro ⟨s', hs', ha, hb⟩
          simp only [Option.toList_some, List.mem_append, List.mem_singleton] at hs'
          rcases hs' with hs' | rfl
          · exact ⟨s', by simp [hs'], ha, hb⟩
          · exact ⟨s0, by simp, by rw [Storm.Has] at ha ⊢; omega, by rw [Storm.Has] at hb ⊢; omega⟩
        · rintro ⟨s', hs', ha, hb⟩
          simp only [Option.toList_some, List.mem_append, List.mem_singleton] at hs'
          rcases hs' with hs' | rfl
          · exact ⟨s', by simp [hs'], ha, hb⟩
          · exact ⟨s, by simp, by rw [Storm.Has] at ha ⊢; omega, by rw [Storm.Has] at hb ⊢; omega⟩
      · intro h'; cases h'

/-- The rows of a table, labelled with their positions from `N` on. -/
def label (N : Nat) : List (List (Option K)) → List (Nat × List (Option K))
  | [] => []
  | r :: rest => (N, r) :: label (N + 1) rest

theorem trackLoop_inv {thr : K} {n : Nat} {rows : List (List (Option K))} {width : Nat}
    (hrect : ∀ row ∈ rows, row.length = width) (rest : List (List (Option K))) (N : Nat)
    (hdrop : rows.drop N = rest) (hN : N ≤ rows.length) {st : Track Nat K}
    (h : Inv thr n rows width N st) (hc : ∀ s, st.cur = some s → st.cnt < n) :
    Inv thr n rows width rows.length (trackLoop thr n st (label N rest)) := by
  induction rest generalizing N st with
  | nil =>
    have : N = rows.length := by
      have := congrArg List.length hdrop
      simp at this; omega
    subst this
    exact h
  | cons r rest ih =>
    have hlt : N < rows.length := by
      have := congrArg List.length hdrop
      simp at this; omega
    have hr : rows[N]? = some r := by
      have := congrArg (·[0]?) hdrop
      simpa using this
    have hd : rows.drop (N + 1) = rest := by
      rw [← List.drop_drop, hdrop]; rfl
    have h1 := trackRow_inv h hc r hr (hrect r (List.mem_iff_getElem?.2 ⟨N, hr⟩))
    obtain ⟨h2, h3⟩ := trackClose_inv h1
    exact ih (N + 1) hd hlt h2 h3

theorem init_inv (thr : K) (n : Nat) (rows : List (List (Option K))) (width : Nat) :
    Inv thr n rows width 0 ⟨[], none, 0⟩ :=
  ⟨by simp, by simp, by simp, by simp, (fun s hs => by cases hs), (fun i hi => by omega),
    (fun i j _ hj => by omega), (fun _ i hi => by omega)⟩

/-- Every property of the final list in one statement. -/
theorem track_inv (thr : K) (n : Nat) (rows : List (List (Option K))) (width : Nat)
    (hrect : ∀ row ∈ rows, row.length = width) :
    Inv thr n rows width rows.length (trackLoop thr n ⟨[], none, 0⟩ (label 0 rows)) :=
  trackLoop_inv hrect rows 0 rfl (by omega) (init_inv thr n rows width) (fun s hs => by cases hs)

end
end Verif.Storms
