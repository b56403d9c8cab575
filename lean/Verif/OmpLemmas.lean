import Verif.Omp
import Mathlib.Algebra.BigOperators.Group.Finset.Basic
import Mathlib.Algebra.Order.BigOperators.Group.Finset

/-! Lemmas for C111. -/

namespace Verif.Omp
set_option linter.unusedSectionVars false

section
variable {X V O : Type} [DecidableEq X]

open Classical in
/-- A statement in a memory of its own; `w` are the values stored so far. -/
noncomputable def run1 (i : Nat) (mw : (X → V) × (Nat → Option O)) : Stmt X V O → Option ((X → V) × (Nat → Option O))
  | .assign x _ reads f => (f i fun j => mw.1 (reads j)).map fun v => (upd mw.1 x v, mw.2)
  | .check _ reads bad => if bad fun j => mw.1 (reads j) then none else some mw
  | .store off _ reads f => some (mw.1, upd mw.2 off (some (f fun j => mw.1 (reads j))))

/-- An iteration in a memory of its own. -/
noncomputable def alone (i : Nat) : List (Stmt X V O) → (X → V) × (Nat → Option O) → Option ((X → V) × (Nat → Option O))
  | [], mw => some mw
  | c :: cs, mw => (run1 i mw c).bind (alone i cs)

theorem alone_append (i : Nat) (a b : List (Stmt X V O)) (mw : (X → V) × (Nat → Option O)) :
    alone i (a ++ b) mw = (alone i a mw).bind (alone i b) := by
  induction a generalizing mw with
  | nil => rfl
  | cons c cs ih =>
    show (run1 i mw c).bind (alone i (cs ++ b)) = ((run1 i mw c).bind (alone i cs)).bind (alone i b)
    cases run1 i mw c with
    | none => rfl
    | some m => exact ih m

/-- The variables a statement reads. -/
def Stmt.Reads : Stmt X V O → X → Prop
  | .assign _ _ reads _, x => ∃ j, reads j = x
  | .check _ reads _, x => ∃ j, reads j = x
  | .store _ _ reads _, x => ∃ j, reads j = x

/-- The variable it writes. -/
def Stmt.target : Stmt X V O → Option X
  | .assign x _ _ _ => some x
  | _ => none

/-- The place it writes in the array. -/
def Stmt.place : Stmt X V O → Option Nat
  | .store off _ _ _ => some off
  | _ => none

/-- Variables written by a list of statements. -/
def written (l : List (Stmt X V O)) : List X := l.filterMap Stmt.target

/-- The body needs no shared variable: it writes private ones and reads what it has written. -/
def Fine (L : Loop X V O) : List X → List (Stmt X V O) → Prop
  | _, [] => True
  | known, .assign x _ reads _ :: r => (∀ j, reads j ∈ known) ∧ x ∈ L.priv ∧ Fine L (x :: known) r
  | known, .check _ reads _ :: r => (∀ j, reads j ∈ known) ∧ Fine L known r
  | known, .store off _ reads _ :: r => (∀ j, reads j ∈ known) ∧ off < L.width ∧ Fine L known r

theorem fine_split (L : Loop X V O) (known : List X) (done rest : List (Stmt X V O)) (c : Stmt X V O)
    (h : Fine L known (done ++ c :: rest)) : (∀ x, c.Reads x → x ∈ known ∨ x ∈ written done) ∧
      (∀ x, c.target = some x → x ∈ L.priv) ∧ (∀ o, c.place = some o → o < L.width) ∧ ∀ x ∈ written done, x ∈ L.priv := by
  induction done generalizing known with
  | nil =>
    cases c with
    | assign x k reads f =>
      refine ⟨?_, ?_, ?_, ?_⟩
      · rintro y ⟨j, rfl⟩; exact .inl (h.1 j)
      · intro y e; cases e; exact h.2.1
      · intro o e; cases e
      · intro x hx; cases hx
    | check k reads f =>
      refine ⟨?_, ?_, ?_, ?_⟩
      · rintro y ⟨j, rfl⟩; exact .inl (h.1 j)
      · intro y e; cases e
      · intro o e; cases e
      · intro x hx; cases hx
    | store off k reads f =>
      refine ⟨?_, ?_, ?_, ?_⟩
      · rintro y ⟨j, rfl⟩; exact .inl (h.1 j)
      · intro y e; cases e
      · intro o e; cases e; exact h.2.1
      · intro x hx; cases hx
  | cons d ds ih =>
    cases d with
    | assign x k reads f =>
      obtain ⟨h1, h2, h3, h4⟩ := ih (x :: known) h.2.2
      refine ⟨fun y hy => ?_, h2, h3, fun y hy => ?_⟩
      · rcases h1 y hy with g | g
        · rcases List.mem_cons.1 g with g | g
          · subst g; exact .inr (List.mem_cons_self)
          · exact .inl g
        · exact .inr (List.mem_cons_of_mem _ g)
      · rcases List.mem_cons.1 (show y ∈ x :: written ds from hy) with g | g
        · subst g; exact h.2.1
        · exact h4 y g
    | check k reads f => exact ih known h.2
    | store off k reads f => exact ih known h.2.2

/-! ### The invariant -/

/-- What the array holds for iteration `i` when the values `w` are stored. -/
def Holds (L : Loop X V O) (out0 out : Nat → O) (i : Nat) (w : Nat → Option O) : Prop :=
  ∀ off < L.width, out (i * L.width + off) = (w off).getD (out0 (i * L.width + off))

/-- The state of thread `t`. `m0` is the memory the iterations start from, in thought. -/
def ThreadOk (L : Loop X V O) (m0 : X → V) (out0 : Nat → O) (share : List Nat) (own : X → V) (out : Nat → O) (todo : List Nat)
    (cur : List (Stmt X V O)) : Prop :=
  ∃ pre, share = pre ++ todo ∧
    (∀ i ∈ pre, ∃ mw, alone i L.body (m0, fun _ => none) = some mw ∧ Holds L out0 out i mw.2) ∧
    (∀ i r, todo = i :: r → (∃ done mw, L.body = done ++ cur ∧ alone i done (m0, fun _ => none) = some mw ∧
      (∀ x ∈ written done, own x = mw.1 x) ∧ Holds L out0 out i mw.2) ∧ ∀ j ∈ r, Holds L out0 out j fun _ => none)

theorem holds_other (L : Loop X V O) (out0 out : Nat → O) (i j off : Nat) (v : O) (w : Nat → Option O) (hij : j ≠ i)
    (ho : off < L.width) (h : Holds L out0 out j w) : Holds L out0 (upd out (i * L.width + off) v) j w := by
  intro o hlt
  rw [← h o hlt]
  unfold upd
  rw [if_neg]
  intro e
  apply hij
  have h1 : (j * L.width + o) / L.width = j := by
    rw [Nat.add_comm, Nat.add_mul_div_right _ _ (by omega), Nat.div_eq_of_lt hlt, Nat.zero_add]
  have h2 : (i * L.width + off) / L.width = i := by
    rw [Nat.add_comm, Nat.add_mul_div_right _ _ (by omega), Nat.div_eq_of_lt ho, Nat.zero_add]
  rw [← h1, ← h2, e]

theorem holds_same (L : Loop X V O) (out0 out : Nat → O) (i off : Nat) (v : O) (w : Nat → Option O)
    (ho : off < L.width) (h : Holds L out0 out i w) : Holds L out0 (upd out (i * L.width + off) v) i (upd w off (some v)) := by
  intro o hlt
  unfold upd
  by_cases e : o = off
  · subst e; rw [if_pos rfl, if_pos rfl]; rfl
  · rw [if_neg (by omega), if_neg e]; exact h o hlt

/-- The iterations of the threads. -/
structure Shares (n : Nat) (share : Nat → List Nat) : Prop where
  nodup : ∀ t, (share t).Nodup
  disjoint : ∀ t u i, i ∈ share t → i ∈ share u → t = u
  cover : ∀ i, (∃ t, i ∈ share t) ↔ i < n

/-- The invariant of a run. -/
def Inv (L : Loop X V O) (n : Nat) (share : Nat → List Nat) (m0 : X → V) (out0 : Nat → O) (s : State X V O) : Prop :=
  (s.exited = true → ∃ i < n, alone i L.body (m0, fun _ => none) = none) ∧
  (∀ t, ThreadOk L m0 out0 (share t) (s.own t) s.out (s.todo t) (s.cur t)) ∧
  ∀ c, n * L.width ≤ c → s.out c = out0 c

theorem inv_start (L : Loop X V O) (n : Nat) (share : Nat → List Nat) (m0 shared : X → V) (own : Nat → X → V) (out0 : Nat → O) :
    Inv L n share m0 out0 (start L share shared own out0) := by
  refine ⟨fun h => (by cases h), fun t => ?_, fun _ _ => rfl⟩
  refine ⟨[], rfl, fun i hi => (by cases hi), fun i r _ => ⟨⟨[], (m0, fun _ => none), rfl, rfl, fun x hx => (by cases hx), ?_⟩, ?_⟩⟩
  · intro o _; rfl
  · intro j _ o _; rfl

/-- Reading in a thread gives the value of the iteration alone. -/
theorem reads_same (L : Loop X V O) (s : State X V O) (t : Nat) (done : List (Stmt X V O)) (m : X → V)
    (hp : ∀ x ∈ written done, x ∈ L.priv) (ha : ∀ x ∈ written done, s.own t x = m x) (x : X) (hx : x ∈ written done) :
    read L s t x = m x := by
  unfold read
  rw [if_pos (hp x hx), ha x hx]

theorem thread_out (L : Loop X V O) (m0 : X → V) (out0 : Nat → O) (share : List Nat) (own : X → V) (out : Nat → O) (todo : List Nat)
    (cur : List (Stmt X V O)) (h : ThreadOk L m0 out0 share own out todo cur) (i off : Nat) (v : O) (hi : i ∉ share)
    (ho : off < L.width) : ThreadOk L m0 out0 share own (upd out (i * L.width + off) v) todo cur := by
  obtain ⟨pre, h1, h2, h3⟩ := h
  have hne : ∀ j ∈ share, j ≠ i := by rintro j hj rfl; exact hi hj
  refine ⟨pre, h1, fun j hj => ?_, fun j r e => ?_⟩
  · obtain ⟨mw, g1, g2⟩ := h2 j hj
    exact ⟨mw, g1, holds_other L out0 out i j off v _ (hne j (by rw [h1]; simp [hj])) ho g2⟩
  · obtain ⟨⟨done, mw, g1, g2, g3, g4⟩, g5⟩ := h3 j r e
    refine ⟨⟨done, mw, g1, g2, g3, holds_other L out0 out i j off v _ (hne j (by rw [h1, e]; simp)) ho g4⟩, fun k hk => ?_⟩
    exact holds_other L out0 out i k off v _ (hne k (by rw [h1, e]; simp [hk])) ho (g5 k hk)

theorem inv_step (L : Loop X V O) (hf : Fine L [] L.body) (n : Nat) (share : Nat → List Nat) (hs : Shares n share) (m0 : X → V)
    (out0 : Nat → O) (s s' : State X V O) (t : Nat) (h : Inv L n share m0 out0 s) (e : step L t s = some s') :
    Inv L n share m0 out0 s' := by
  obtain ⟨hx, ht, hc⟩ := h
  unfold step at e
  by_cases he : s.exited = true
  · rw [if_pos he] at e; cases e
  rw [if_neg he] at e
  cases hd : s.todo t with
  | nil => rw [hd] at e; cases e
  | cons i r =>
    rw [hd] at e
    obtain ⟨pre, g1, g2, g3⟩ := ht t
    obtain ⟨⟨done, mw, k1, k2, k3, k4⟩, k5⟩ := g3 i r hd
    have hmem : i ∈ share t := by rw [g1, hd]; simp
    have hin : i < n := (hs.cover i).1 ⟨t, hmem⟩
    cases hcur : s.cur t with
    | nil =>
      rw [hcur] at e
      cases e
      refine ⟨fun h => absurd h he, fun u => ?_, hc⟩
      by_cases hu : u = t
      · subst hu
        show ThreadOk L m0 out0 (share u) (s.own u) s.out (upd s.todo u r u) (upd s.cur u L.body u)
        rw [upd, if_pos rfl, upd, if_pos rfl]
        refine ⟨pre ++ [i], by rw [g1, hd]; simp, fun j hj => ?_, fun j r' e => ⟨⟨[], (m0, fun _ => none), rfl, rfl, fun x hx => (by cases hx), ?_⟩, ?_⟩⟩
        · rcases List.mem_append.1 hj with hj | hj
          · exact g2 j hj
          · have : j = i := by simpa using hj
            subst this
            rw [hcur, List.append_nil] at k1
            exact ⟨mw, by rw [k1]; exact k2, k4⟩
        · exact k5 j (by rw [e]; simp)
        · intro q hq; exact k5 q (by rw [e]; simp [hq])
      · show ThreadOk L m0 out0 (share u) (s.own u) s.out (upd s.todo t r u) (upd s.cur t L.body u)
        rw [upd, if_neg hu, upd, if_neg hu]
        exact ht u
    | cons c cs =>
      rw [hcur] at e k1
      have hf' : Fine L [] (done ++ c :: cs) := by rw [← k1]; exact hf
      obtain ⟨f1, f2, f3, f4⟩ := fine_split L [] done cs c hf'
      have hr : ∀ x, c.Reads x → read L s t x = mw.1 x := by
        intro x hx'
        rcases f1 x hx' with g | g
        · cases g
        · exact reads_same L s t done mw.1 f4 k3 x g
      have hdone : alone i (done ++ [c]) (m0, fun _ => none) = run1 i mw c := by
        rw [alone_append, k2]
        show (run1 i mw c).bind (alone i []) = _
        cases run1 i mw c <;> rfl
      have hbody : L.body = (done ++ [c]) ++ cs := by rw [k1]; simp
      -- the exit of the process
      have hexit : run1 i mw c = none → ∃ i < n, alone i L.body (m0, fun _ => none) = none := by
        intro hn
        refine ⟨i, hin, ?_⟩
        rw [hbody, alone_append, hdone, hn]; rfl
      -- the other threads
      have hother : ∀ u, u ≠ t → i ∉ share u := fun u hu hm => hu (hs.disjoint u t i hm hmem)
      have hnr : i ∉ r := by
        have := hs.nodup t
        rw [g1, hd] at this
        exact (List.nodup_cons.1 (List.nodup_append.1 this).2.1).1
      have hnp : ∀ j ∈ pre, j ≠ i := by
        have := hs.nodup t
        rw [g1, hd] at this
        rintro j hj rfl
        exact (List.nodup_append.1 this).2.2 j hj j (by simp) rfl
      cases c with
      | assign x k reads f =>
        have hargs : (fun j => read L s t (reads j)) = fun j => mw.1 (reads j) := funext fun j => hr _ ⟨j, rfl⟩
        simp only [exec, hargs] at e
        cases hv : f i fun j => mw.1 (reads j) with
        | none =>
          rw [hv] at e
          cases e
          exact ⟨fun _ => hexit (by simp only [run1]; rw [hv]; rfl), ht, hc⟩
        | some v =>
          rw [hv] at e
          have hp := f2 x rfl
          simp only [Option.map_some, write, if_pos hp] at e
          cases e
          refine ⟨fun h => absurd h he, fun u => ?_, hc⟩
          by_cases hu : u = t
          · subst hu
            show ThreadOk L m0 out0 (share u) (upd s.own u (upd (s.own u) x v) u) s.out (s.todo u) (upd s.cur u cs u)
            rw [upd, if_pos rfl, upd, if_pos rfl]
            refine ⟨pre, g1, g2, fun j r' ej => ?_⟩
            rw [hd] at ej
            cases ej
            refine ⟨⟨done ++ [.assign x k reads f], (upd mw.1 x v, mw.2), hbody, ?_, ?_, k4⟩, k5⟩
            · rw [hdone]; simp only [run1]; rw [hv]; rfl
            · intro y hy
              have hy' : y ∈ written done ∨ y = x := by
                unfold written at hy ⊢
                rw [List.filterMap_append] at hy
                rcases List.mem_append.1 hy with h | h
                · exact .inl h
                · simp [Stmt.target] at h; exact .inr h
              unfold upd
              by_cases hyx : y = x
              · rw [if_pos hyx]; simp [hyx]
              · rw [if_neg hyx]
                rcases hy' with h | h
                · simp [hyx, k3 y h]
                · exact absurd h hyx
          · show ThreadOk L m0 out0 (share u) (upd s.own t (upd (s.own t) x v) u) s.out (s.todo u) (upd s.cur t cs u)
            rw [upd, if_neg hu, upd, if_neg hu]
            exact ht u
      | check k reads bad =>
        have hargs : (fun j => read L s t (reads j)) = fun j => mw.1 (reads j) := funext fun j => hr _ ⟨j, rfl⟩
        simp only [exec] at e
        by_cases hb : bad fun j => mw.1 (reads j)
        · rw [if_pos (show bad fun j => read L s t (reads j) by rw [hargs]; exact hb)] at e
          cases e
          exact ⟨fun _ => hexit (by simp only [run1]; rw [if_pos hb]), ht, hc⟩
        · rw [if_neg (show ¬ bad fun j => read L s t (reads j) by rw [hargs]; exact hb)] at e
          cases e
          refine ⟨fun h => absurd h he, fun u => ?_, hc⟩
          by_cases hu : u = t
          · subst hu
            show ThreadOk L m0 out0 (share u) (s.own u) s.out (s.todo u) (upd s.cur u cs u)
            rw [upd, if_pos rfl]
            refine ⟨pre, g1, g2, fun j r' ej => ?_⟩
            rw [hd] at ej
            cases ej
            refine ⟨⟨done ++ [.check k reads bad], mw, hbody, ?_, ?_, k4⟩, k5⟩
            · rw [hdone]; simp only [run1]; rw [if_neg hb]
            · intro y hy
              unfold written at hy
              rw [List.filterMap_append] at hy
              rcases List.mem_append.1 hy with h | h
              · exact k3 y h
              · simp [Stmt.target] at h
          · show ThreadOk L m0 out0 (share u) (s.own u) s.out (s.todo u) (upd s.cur t cs u)
            rw [upd, if_neg hu]
            exact ht u
      | store off k reads f =>
        have hargs : (fun j => read L s t (reads j)) = fun j => mw.1 (reads j) := funext fun j => hr _ ⟨j, rfl⟩
        simp only [exec, hargs] at e
        cases e
        have ho := f3 off rfl
        refine ⟨fun h => absurd h he, fun u => ?_, fun q hq => ?_⟩
        · by_cases hu : u = t
          · subst hu
            show ThreadOk L m0 out0 (share u) (s.own u) (upd s.out (i * L.width + off) _) (s.todo u) (upd s.cur u cs u)
            rw [show upd s.cur u cs u = cs by rw [upd, if_pos rfl]]
            refine ⟨pre, g1, fun j hj => ?_, fun j r' ej => ?_⟩
            · obtain ⟨mw', a1, a2⟩ := g2 j hj
              exact ⟨mw', a1, holds_other L out0 s.out i j off _ _ (hnp j hj) ho a2⟩
            · rw [hd] at ej
              cases ej
              refine ⟨⟨done ++ [.store off k reads f], (mw.1, upd mw.2 off (some (f fun j => mw.1 (reads j)))), hbody, ?_, ?_, ?_⟩, ?_⟩
              · rw [hdone]; rfl
              · intro y hy
                unfold written at hy
                rw [List.filterMap_append] at hy
                rcases List.mem_append.1 hy with h | h
                · exact k3 y h
                · simp [Stmt.target] at h
              · exact holds_same L out0 s.out i off _ _ ho k4
              · intro j hj
                exact holds_other L out0 s.out i j off _ _ (by rintro rfl; exact hnr hj) ho (k5 j hj)
          · show ThreadOk L m0 out0 (share u) (s.own u) (upd s.out (i * L.width + off) _) (s.todo u) (upd s.cur t cs u)
            rw [show upd s.cur t cs u = s.cur u by rw [upd, if_neg hu]]
            exact thread_out L m0 out0 _ _ _ _ _ (ht u) i off _ (hother u hu) ho
        · show upd s.out (i * L.width + off) _ q = _
          rw [upd, if_neg]
          · exact hc q hq
          · intro h
            have : (i + 1) * L.width ≤ n * L.width := Nat.mul_le_mul_right _ hin
            have : (i + 1) * L.width = i * L.width + L.width := by ring
            omega

theorem inv_reach (L : Loop X V O) (hf : Fine L [] L.body) (n : Nat) (share : Nat → List Nat) (hs : Shares n share) (m0 : X → V)
    (shared : X → V) (own : Nat → X → V) (out0 : Nat → O) (k : Nat) (s : State X V O)
    (h : Reach L (start L share shared own out0) k s) : Inv L n share m0 out0 s := by
  induction h with
  | refl => exact inv_start L n share m0 shared own out0
  | step t _ e ih => exact inv_step L hf n share hs m0 out0 _ _ t ih e

/-! ### The number of steps -/

/-- What is left for a thread. -/
def left (L : Loop X V O) (todo : List Nat) (cur : List (Stmt X V O)) : Nat :=
  match todo with
  | [] => 0
  | _ :: r => cur.length + 1 + r.length * (L.body.length + 1)

theorem step_left (L : Loop X V O) (t : Nat) (s s' : State X V O) (e : step L t s = some s') :
    s.exited = false ∧ ((s'.exited = true ∧ s'.todo = s.todo ∧ s'.cur = s.cur) ∨
      (s'.exited = false ∧ left L (s'.todo t) (s'.cur t) + 1 = left L (s.todo t) (s.cur t) ∧ s.todo t ≠ [] ∧
        ∀ u, u ≠ t → s'.todo u = s.todo u ∧ s'.cur u = s.cur u)) := by
  unfold step at e
  by_cases he : s.exited = true
  · rw [if_pos he] at e; cases e
  have he' : s.exited = false := by simpa using he
  rw [if_neg he] at e
  refine ⟨he', ?_⟩
  cases hd : s.todo t with
  | nil => rw [hd] at e; cases e
  | cons i r =>
    rw [hd] at e
    cases hcur : s.cur t with
    | nil =>
      rw [hcur] at e
      cases e
      right
      refine ⟨he', ?_, by simp, fun u hu => ⟨by simp [upd, hu], by simp [upd, hu]⟩⟩
      simp only [upd, if_true, left]
      cases r with
      | nil => simp
      | cons j r' => simp; ring
    | cons c cs =>
      rw [hcur] at e
      simp only at e
      cases hx : exec L t i s c with
      | none => rw [hx] at e; cases e; exact .inl ⟨rfl, rfl, rfl⟩
      | some s1 =>
        rw [hx] at e
        cases e
        have hk : s1.exited = s.exited ∧ s1.todo = s.todo := by
          cases c with
          | assign x k reads f =>
            simp only [exec] at hx
            obtain ⟨v, -, hv⟩ := Option.map_eq_some_iff.1 hx
            rw [← hv]
            unfold write
            split <;> exact ⟨rfl, rfl⟩
          | check k reads bad =>
            simp only [exec] at hx
            split at hx
            · cases hx
            · cases hx; exact ⟨rfl, rfl⟩
          | store off k reads f =>
            simp only [exec] at hx
            cases hx; exact ⟨rfl, rfl⟩
        right
        refine ⟨by show s1.exited = false; rw [hk.1, he'], ?_, by simp, fun u hu => ⟨by show s1.todo u = _; rw [hk.2], by simp [upd, hu]⟩⟩
        show left L (s1.todo t) (upd s.cur t cs t) + 1 = _
        rw [hk.2, hd]
        simp [upd, left]
        ring

open Finset in
theorem steps_bounded (L : Loop X V O) (share : Nat → List Nat) (T : Nat) (hT : ∀ t, T ≤ t → share t = []) (shared : X → V)
    (own : Nat → X → V) (out0 : Nat → O) (k : Nat) (s : State X V O) (h : Reach L (start L share shared own out0) k s) :
    (∀ t, T ≤ t → s.todo t = []) ∧
    k + (∑ t ∈ range T, left L (s.todo t) (s.cur t)) + (if s.exited = true then 0 else 1) ≤
      (∑ t ∈ range T, (share t).length) * (L.body.length + 1) + 1 := by
  induction h with
  | refl =>
    refine ⟨hT, ?_⟩
    rw [Finset.sum_mul]
    have : ∀ t ∈ range T, left L (share t) L.body = (share t).length * (L.body.length + 1) := by
      intro t _
      unfold left
      split
      · rename_i e; simp [e]
      · rename_i i r e; simp [e]; ring
    show 0 + (∑ t ∈ range T, left L (share t) L.body) + 1 ≤ _
    rw [Finset.sum_congr rfl this]
    omega
  | @step k s s' t h e ih =>
    obtain ⟨ih1, ih2⟩ := ih
    obtain ⟨h0, h1⟩ := step_left L t s s' e
    rw [h0] at ih2
    rcases h1 with ⟨g1, g2, g3⟩ | ⟨g1, g2, g3, g4⟩
    · rw [g1, g2, g3]
      refine ⟨ih1, ?_⟩
      simp at ih2 ⊢
      omega
    · have htT : t < T := by
        by_contra hle
        exact g3 (ih1 t (by omega))
      refine ⟨fun u hu => ?_, ?_⟩
      · rw [(g4 u (by omega)).1]; exact ih1 u hu
      · have hsum : (∑ u ∈ range T, left L (s'.todo u) (s'.cur u)) + 1 = ∑ u ∈ range T, left L (s.todo u) (s.cur u) := by
          have hm : t ∈ range T := mem_range.2 htT
          rw [← Finset.add_sum_erase _ _ hm, ← Finset.add_sum_erase (range T) (fun u => left L (s.todo u) (s.cur u)) hm]
          rw [Finset.sum_congr rfl (g := fun u => left L (s.todo u) (s.cur u))
            (fun u hu => by rw [(g4 u (Finset.ne_of_mem_erase hu)).1, (g4 u (Finset.ne_of_mem_erase hu)).2])]
          omega
        rw [g1]
        simp at ih2 ⊢
        omega

end
end Verif.Omp
