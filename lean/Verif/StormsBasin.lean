import Verif.StormsLemmas

/-! Invariant of `tracking_by_basin` over a run. -/

namespace Verif.Storms

/-- Step `i` of the run was above the threshold. -/
def WetB (w : List Bool) (i : Nat) : Prop := w[i]? = some true

/-- `n` consecutive dry steps after `i` and before `j`. -/
def SpellB (w : List Bool) (n i j : Nat) : Prop :=
  ∃ k, i < k ∧ k + n ≤ j ∧ ∀ m, k ≤ m → m < k + n → ¬ WetB w m

def Span.Has (s : Span Nat) (i : Nat) : Prop := s.start ≤ i ∧ ∃ e, s.stop = some e ∧ i ≤ e

theorem SpellB.mono {w : List Bool} {n i j j' : Nat} (h : SpellB w n i j) (hj : j ≤ j') :
    SpellB w n i j' := by
  obtain ⟨k, h1, h2, h3⟩ := h
  exact ⟨k, h1, by omega, h3⟩

theorem setLastStop_append {T : Type} (t : T) (l : List (Span T)) (s : Span T) :
    setLastStop t (l ++ [s]) = l ++ [{ s with stop := some t }] := by
  induction l with
  | nil => rfl
  | cons a l ih =>
    cases l with
    | nil => rfl
    | cons b l => simp only [List.cons_append] at ih ⊢; simp only [setLastStop, ih]

/-- What is known of a finished or running span. -/
def GoodSpan (w : List Bool) (N : Nat) (s : Span Nat) : Prop :=
  ∃ e, s.stop = some e ∧ s.start ≤ e ∧ e < N ∧ WetB w s.start ∧ WetB w e

structure BInv (w : List Bool) (n N : Nat) (b : Basin Nat) : Prop where
  good : ∀ s ∈ b.lst, GoodSpan w N s
  order : b.lst.Pairwise fun s t => ∀ e, s.stop = some e → e < t.start
  cover : ∀ i, i < N → WetB w i → ∃ s ∈ b.lst, s.Has i
  same : ∀ i j, i < j → j < N → WetB w i → WetB w j →
    ((∃ s ∈ b.lst, s.Has i ∧ s.Has j) ↔ ¬ SpellB w n i j)
  running : b.storming = true → ∃ l a p, b.lst = l ++ [⟨a, some p⟩] ∧ b.cnt ≤ n ∧
    p + b.cnt + 1 = N ∧ ∀ m, p < m → m < N → ¬ WetB w m
  idle : b.storming = false → ∀ i, i < N → WetB w i → SpellB w n i N

/-- The part before the last test. -/
def basinMid {T : Type} (n : Nat) (wet : Bool) (t : T) (b : Basin T) : Basin T :=
  if wet = true then
    let b' := if b.lst.length = 0 ∨ b.storming = false then
        { b with lst := b.lst ++ [⟨t, none⟩], storming := true }
      else b
    { b' with lst := setLastStop t b'.lst, cnt := 0 }
  else if b.storming = true ∧ b.cnt < n then
    { b with cnt := b.cnt + 1 }
  else b

theorem trackingByBasin_eq {T : Type} (n : Nat) (wet : Bool) (t : T) (b : Basin T) :
    trackingByBasin n wet t b =
      if n ≤ (basinMid n wet t b).cnt then { basinMid n wet t b with storming := false }
      else basinMid n wet t b := rfl

theorem goodSpan_mono {w : List Bool} {N : Nat} {s : Span Nat} (h : GoodSpan w N s) :
    GoodSpan w (N + 1) s := by
  obtain ⟨e, h1, h2, h3, h4⟩ := h
  exact ⟨e, h1, h2, by omega, h4⟩

theorem basinClose_inv {w : List Bool} {n N : Nat} {b : Basin Nat} (h : BInv w n N b) :
    BInv w n N (if n ≤ b.cnt then { b with storming := false } else b) := by
  split
  · rename_i hn
    refine ⟨h.good, h.order, h.cover, h.same, (fun h' => by cases h'), ?_⟩
    intro _ i hi hw
    cases hs : b.storming with
    | false => exact h.idle hs i hi hw
    | true =>
      obtain ⟨l, a, p, -, -, hp, hd⟩ := h.running hs
      have hip : i ≤ p := by
        by_contra hlt
        exact hd i (by omega) hi hw
      exact ⟨p + 1, by omega, by omega, fun m h1 h2 => hd m (by omega) (by omega)⟩
  · exact h

theorem basinMid_inv {w : List Bool} {n N : Nat} {b : Basin Nat} (h : BInv w n N b)
    (hc : b.storming = true → b.cnt < n) (x : Bool) (hx : w[N]? = some x) :
    BInv w n (N + 1) (basinMid n x N b) := by
  obtain ⟨lst, cnt, st⟩ := b
  cases x with
  | false =>
    have hW : ¬ WetB w N := by unfold WetB; rw [hx]; simp
    have hlt : ∀ i, i < N + 1 → WetB w i → i < N := by
      intro i hi hwi
      by_contra hge
      have : i = N := by omega
      exact hW (this ▸ hwi)
    cases st with
    | true =>
      have hcn := hc rfl
      simp only at hcn
      have e : basinMid n false N (⟨lst, cnt, true⟩ : Basin Nat) = ⟨lst, cnt + 1, true⟩ := by
        simp [basinMid, hcn]
      rw [e]
      refine ⟨fun s hs => goodSpan_mono (h.good s hs), h.order,
        fun i hi hwi => h.cover i (hlt i hi hwi) hwi,
        fun i j hij hj hwi hwj => h.same i j hij (hlt j hj hwj) hwi hwj, ?_, (fun h' => by cases h')⟩
      intro _
      obtain ⟨l, a, p, h1, h2, h3, h4⟩ := h.running rfl
      refine ⟨l, a, p, h1, by simp only; omega, by simp only at h3 ⊢; omega, fun m hm1 hm2 => ?_⟩
      by_cases hmN : m = N
      · exact hmN ▸ hW
      · exact h4 m hm1 (by omega)
    | false =>
      have e : basinMid n false N (⟨lst, cnt, false⟩ : Basin Nat) = ⟨lst, cnt, false⟩ := by
        simp [basinMid]
      rw [e]
      exact ⟨fun s hs => goodSpan_mono (h.good s hs), h.order,
        fun i hi hwi => h.cover i (hlt i hi hwi) hwi,
        fun i j hij hj hwi hwj => h.same i j hij (hlt j hj hwj) hwi hwj, (fun h' => by cases h'),
        fun h' i hi hwi => (h.idle h' i (hlt i hi hwi) hwi).mono (by omega)⟩
  | true =>
    have hW : WetB w N := hx
    cases st with
    | false =>
      have e : basinMid n true N (⟨lst, cnt, false⟩ : Basin Nat) =
          ⟨lst ++ [⟨N, some N⟩], 0, true⟩ := by
        simp [basinMid, setLastStop_append]
      rw [e]
      have hgood := h.good
      simp only at hgood
      refine ⟨?_, ?_, ?_, ?_, ?_, (fun h' => by cases h')⟩
      · intro s hs
        rcases List.mem_append.1 hs with hs | hs
        · exact goodSpan_mono (hgood s hs)
        · simp at hs; subst hs
          exact ⟨N, rfl, le_refl _, by omega, hW, hW⟩
      · simp only [List.pairwise_append]
        refine ⟨h.order, by simp, ?_⟩
        intro a ha b hb e he
        simp at hb; subst hb
        obtain ⟨e', h1, -, h3, -⟩ := hgood a ha
        rw [h1] at he; cases he; exact h3
      · intro i hi hwi
        by_cases hiN : i = N
        · exact ⟨⟨N, some N⟩, by simp, by simp only; omega, N, rfl, by omega⟩
        · obtain ⟨s, hs, hh⟩ := h.cover i (by omega) hwi
          exact ⟨s, List.mem_append_left _ hs, hh⟩
      · intro i j hij hj hwi hwj
        by_cases hjN : j = N
        · subst hjN
          have hd := h.idle rfl i hij hwi
          constructor
          · rintro ⟨s, hs, ⟨ha, -⟩, -, e, he, hb⟩
            rcases List.mem_append.1 hs with hs | hs
            · obtain ⟨e', h1, -, h3, -⟩ := hgood s hs
              rw [h1] at he; cases he; omega
            · simp at hs; subst hs; simp only at ha; omega
          · intro hn; exact absurd hd hn
        · rw [← h.same i j hij (by omega) hwi hwj]
          constructor
          · rintro ⟨s, hs, ha, hb⟩
            rcases List.mem_append.1 hs with hs | hs
            · exact ⟨s, hs, ha, hb⟩
            · simp at hs; subst hs; have := ha.1; simp only at this; omega
          · rintro ⟨s, hs, hh⟩
            exact ⟨s, List.mem_append_left _ hs, hh⟩
      · intro _
        exact ⟨lst, N, N, rfl, by simp, by simp, fun m h1 h2 => by omega⟩
    | true =>
      have hcn := hc rfl
      simp only at hcn
      obtain ⟨l, a, p, h1, -, hp, hdry⟩ := h.running rfl
      simp only at h1 hp
      subst h1
      have e : basinMid n true N (⟨l ++ [⟨a, some p⟩], cnt, true⟩ : Basin Nat) =
          ⟨l ++ [⟨a, some N⟩], 0, true⟩ := by
        simp [basinMid, setLastStop_append]
      rw [e]
      have hgood := h.good
      simp only at hgood
      obtain ⟨p', hp', hap, hpN, hwa, hwp⟩ := hgood ⟨a, some p⟩ (by simp)
      cases hp'
      simp only at hap hwa
      have hord := h.order
      simp only [List.pairwise_append] at hord
      have hl : ∀ s ∈ l, ∀ e, s.stop = some e → e < a := fun s hs => by
        simpa using hord.2.2 s hs ⟨a, some p⟩ (by simp)
      refine ⟨?_, ?_, ?_, ?_, ?_, (fun h' => by cases h')⟩
      · intro s hs
        rcases List.mem_append.1 hs with hs | hs
        · exact goodSpan_mono (hgood s (List.mem_append_left _ hs))
        · simp at hs; subst hs
          exact ⟨N, rfl, by simp only; omega, by omega, hwa, hW⟩
      · simp only [List.pairwise_append]
        refine ⟨hord.1, by simp, ?_⟩
        intro s hs b hb e he
        simp at hb; subst hb
        exact hl s hs e he
      · intro i hi hwi
        by_cases hiN : i = N
        · exact ⟨⟨a, some N⟩, by simp, by simp only; omega, N, rfl, by omega⟩
        · obtain ⟨s, hs, hh⟩ := h.cover i (by omega) hwi
          rcases List.mem_append.1 hs with hs | hs
          · exact ⟨s, List.mem_append_left _ hs, hh⟩
          · simp at hs; subst hs
            exact ⟨⟨a, some N⟩, by simp, hh.1, N, rfl, by omega⟩
      · intro i j hij hj hwi hwj
        by_cases hjN : j = N
        · subst hjN
          have hip : i ≤ p := by
            by_contra hlt
            exact hdry i (by omega) hij hwi
          constructor
          · rintro ⟨s, hs, ha, hb⟩
            rcases List.mem_append.1 hs with hs | hs
            · obtain ⟨-, e, he, hle⟩ := hb
              have := hl s hs e he
              omega
            · simp at hs; subst hs
              have hai := ha.1
              simp only at hai
              rintro ⟨k, hk1, hk2, hk3⟩
              by_cases hkp : k ≤ p
              · by_cases hpk : p < k + n
                · exact hk3 p hkp hpk hwp
                · have hsame := (h.same i p (by omega) (by omega) hwi hwp).1
                    ⟨⟨a, some p⟩, by simp, ⟨hai, p, rfl, by omega⟩, hap, p, rfl, le_refl _⟩
                  exact hsame ⟨k, hk1, by omega, hk3⟩
              · omega
          · intro hn
            refine ⟨⟨a, some j⟩, by simp, ?_, by simp only; omega, j, rfl, le_refl _⟩
            by_cases hip' : i = p
            · exact ⟨by simp only; omega, j, rfl, by omega⟩
            · have hsame := (h.same i p (by omega) (by omega) hwi hwp).2
                (fun hd => hn (hd.mono (by omega)))
              obtain ⟨s, hs, ha, hb⟩ := hsame
              rcases List.mem_append.1 hs with hs | hs
              · obtain ⟨-, e, he, hle⟩ := hb
                have := hl s hs e he
                omega
              · simp at hs; subst hs
                exact ⟨ha.1, j, rfl, by omega⟩
        · rw [← h.same i j hij (by omega) hwi hwj]
          have hjp : j ≤ p := by
            by_contra hlt
            exact hdry j (by omega) (by omega) hwj
          constructor
          · rintro ⟨s, hs, ha, hb⟩
            rcases List.mem_append.1 hs with hs | hs
            · exact ⟨s, List.mem_append_left _ hs, ha, hb⟩
            · simp at hs; subst hs
              exact ⟨⟨a, some p⟩, by simp, ⟨ha.1, p, rfl, by omega⟩, hb.1, p, rfl, hjp⟩
          · rintro ⟨s, hs, ha, hb⟩
            rcases List.mem_append.1 hs with hs | hs
            · exact ⟨s, List.mem_append_left _ hs, ha, hb⟩
            · simp at hs; subst hs
              exact ⟨⟨a, some N⟩, by simp, ⟨ha.1, N, rfl, by omega⟩, hb.1, N, rfl, by omega⟩
      · intro _
        exact ⟨l, a, N, rfl, by simp, by simp, fun m h1 h2 => by omega⟩

def labelB (N : Nat) : List Bool → List (Nat × Bool)
  | [] => []
  | x :: r => (N, x) :: labelB (N + 1) r

theorem basinLoop_inv {w : List Bool} {n : Nat} (rest : List Bool) (N : Nat)
    (hd : w.drop N = rest) {b : Basin Nat} (h : BInv w n N b)
    (hc : b.storming = true → b.cnt < n) :
    BInv w n (N + rest.length) (basinLoop n b (labelB N rest)) := by
  induction rest generalizing N b with
  | nil => exact h
  | cons x rest ih =>
    have hx : w[N]? = some x := by
      have := congrArg (·[0]?) hd
      simpa using this
    have hd' : w.drop (N + 1) = rest := by
      rw [← List.drop_drop, hd]; rfl
    have h1 := basinClose_inv (basinMid_inv h hc x hx)
    rw [← trackingByBasin_eq] at h1
    have := ih (N + 1) hd' h1 (by
      rw [trackingByBasin_eq]
      split
      · intro h'; cases h'
      · intro _; omega)
    simpa [labelB, basinLoop, Nat.add_assoc, Nat.add_comm 1] using this

theorem basin_inv (w : List Bool) (n c0 : Nat) :
    BInv w n w.length (basinLoop n ⟨[], c0, false⟩ (labelB 0 w)) := by
  have := basinLoop_inv (w := w) (n := n) w 0 rfl (b := ⟨[], c0, false⟩)
    ⟨by simp, by simp, (fun i hi => by omega), (fun i j _ hj => by omega), (fun h => by cases h),
      (fun _ i hi => by omega)⟩ (fun h => by cases h)
  simpa using this

end Verif.Storms
