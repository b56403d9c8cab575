import Verif.Alias
import Verif.NetworkWF

/-! Helper lemmas for C11. -/

namespace Verif.Network
open Verif.Pipeline Verif.Queue

section
variable {I Q V σ : Type} [DecidableEq I] [DecidableEq Q]

theorem exec_step {N : Net I Q V σ} {s s' : St I Q V σ} {i : I} (h : exec N s i = some s') :
    Step N s s' := by
  unfold exec at h
  cases hth : s.thr i with
  | mk t p =>
    rw [hth] at h
    cases p with
    | ret x =>
      simp only at h
      split at h
      · rename_i hlt
        cases h
        exact .thread s i .next _ s.que (by rw [hth]; exact .next t x hlt) rfl
      · cases h
    | get q k =>
      simp only at h
      split at h
      · cases h
      · rename_i v hv
        cases h
        exact .thread s i (.got q t v) _ s.que (by rw [hth]; exact .got t q k v)
          ((effect_got _ _ _ _ _).2 ⟨hv, rfl⟩)
    | put q v p =>
      simp only at h
      split at h
      · cases h
      · rename_i hf
        cases h
        exact .thread s i (.put q t v) _ _ (by rw [hth]; exact .put t q v p)
          ((effect_put _ _ _ _ _).2 ⟨hf, rfl⟩)

theorem sched_reach {N : Net I Q V σ} {s s' : St I Q V σ} {is : List I} (hr : Reach N s)
    (h : sched N s is = some s') : Reach N s' := by
  induction is generalizing s with
  | nil => simp only [sched, Option.some.injEq] at h; subst h; exact hr
  | cons i is ih =>
    simp only [sched] at h
    split at h
    · cases h
    · rename_i s1 h1
      exact ih (hr.step (exec_step h1)) h

/-- Queues with positive capacity never hold more than that. -/
theorem Reach.size {N : Net I Q V σ} {s : St I Q V σ} (h : Reach N s) (q : Q) (hc : 0 < N.cap q) :
    ((s.que q).items.length : Int) ≤ N.cap q := by
  induction h with
  | init => simp [Net.initial, DQ.new]; omega
  | @step s s' hr st ih =>
    have hk := (hr.store.1 q).2
    cases st with
    | thread i a th' que' hl he =>
      cases a with
      | got q' t v =>
        rw [effect_got] at he
        obtain ⟨-, rfl⟩ := he
        exact ih
      | put q' t v =>
        rw [effect_put] at he
        obtain ⟨hf, rfl⟩ := he
        by_cases hq : q = q'
        · subst hq
          simp only [if_true, DQ.store]
          rw [hk] at hf
          simp only [DQ.qsize] at hf
          have hlen := Dict.length_set (s.que q).items t v
          split at hlen <;> omega
        · simpa [hq] using ih
      | next =>
        simp only [effect] at he
        subst he
        exact ih
    | clClean n q' ht hp hq =>
      by_cases hqq : q = q'
      · subst hqq
        simp only [if_true, Queue.step]
        have := Dict.length_del_le (s.que q).items s.clT
        omega
      · simpa [hqq] using ih
    | _ => exact ih

theorem Dict.two_le {K V : Type} [DecidableEq K] (d : Dict K V) {a b : K} (hab : a ≠ b)
    (ha : ∃ v, d.get? a = some v) (hb : ∃ v, d.get? b = some v) : 2 ≤ d.length := by
  cases d with
  | nil => simp [Dict.get?] at ha
  | cons p d =>
    cases d with
    | nil =>
      obtain ⟨x, y⟩ := p
      simp only [Dict.get?] at ha hb
      split at ha
      · split at hb
        · exact absurd (by simp_all) hab
        · simp at hb
      · simp at ha
    | cons p' d => simp

/-- With capacity one, a queue written for the next date has been cleaned, so that every queue the
cleaner watches had been written. -/
theorem cap_one {N : Net I Q V σ} {owned : I → List Q} {rank : Q → Nat}
    {s : St I Q V σ} {todo : I → List Q}
    (hr : Reach N s) (inv : Inv N owned rank s todo) {q : Q} (hc : N.cap q = 1) {t : Nat}
    (hd : Done N owned todo s.thr q (t + 1)) :
    ∀ q' ∈ N.watched, ∃ v, Published s q' t v := by
  obtain ⟨cp1, -, cp3⟩ := cleaner_published hr
  have hd0 : Done N owned todo s.thr q t := by
    obtain ⟨i, hi, h⟩ := hd
    exact ⟨i, hi, .inl (by omega)⟩
  by_cases hg1 : Gone N s.clT s.clPhase q (t + 1)
  · rcases hg1 with ⟨h, -⟩ | ⟨h, -⟩
    · exact cp1 t (by omega)
    · exact cp1 t (by omega)
  · by_cases hg0 : Gone N s.clT s.clPhase q t
    · rcases hg0 with ⟨h, -⟩ | ⟨h, n, hn, -⟩
      · exact cp1 t h
      · subst h; exact cp3 n hn
    · have h1 := (inv.store q (t + 1)).2 ⟨hd, hg1⟩
      have h0 := (inv.store q t).2 ⟨hd0, hg0⟩
      have h2 := Dict.two_le _ (show t ≠ t + 1 by omega) h0 h1
      have h3 := Reach.size hr q (by omega)
      omega

theorem put_lt {N : Net I Q V σ} {i : I} {h : List (Act Q V)} {th : Thr Q V σ}
    (hh : Hist N i h th) {q : Q} {t : Nat} {v : V} (hp : Act.put q t v ∈ h) : t < N.steps := by
  induction hh with
  | nil => cases hp
  | cons h1 l ih =>
    cases l with
    | got t1 q1 k v1 =>
      simp only [List.mem_cons, reduceCtorEq, false_or] at hp
      exact ih hp
    | put t1 q1 v1 p =>
      simp only [List.mem_cons] at hp
      rcases hp with hp | hp
      · cases hp
        obtain ⟨h2, h3⟩ := h1.fin
        rcases Nat.lt_or_ge t N.steps with h4 | h4
        · exact h4
        · obtain ⟨x, hx⟩ := h3 (Nat.le_antisymm h2 h4)
          cases hx
      · exact ih hp
    | next t1 x hlt =>
      simp only [List.mem_cons, reduceCtorEq, false_or] at hp
      exact ih hp

theorem wf_atMost {present : Q → Prop} {watched : List Q} {rank : Q → Nat} (v : V)
    {p : Prog Q V σ} {todo T : List Q} (hw : WFProg present watched rank p todo)
    (ha : AtMost p T) {q : Q} (hq : q ∈ todo) : q ∈ T := by
  induction p generalizing todo T with
  | ret => simp only [WFProg] at hw; subst hw; cases hq
  | get q' k ih => exact ih v (hw.2.2.2 v) (ha v) hq
  | put q' w p ih =>
    by_cases h : q = q'
    · subst h; exact ha.1
    · exact List.mem_of_mem_erase (ih hw.2 ha.2 ((List.mem_erase_of_ne h).2 hq))

theorem published_done {N : Net I Q V σ} {owned : I → List Q} {rank : Q → Nat}
    (W : SingleWriter N owned) {s : St I Q V σ} {todo : I → List Q}
    (hr : Reach N s) (inv : Inv N owned rank s todo) {q : Q} {t : Nat} {v : V}
    (hp : Published s q t v) : Done N owned todo s.thr q t := by
  obtain ⟨i, hp⟩ := hp
  have hh := hr.hist i
  have hlt := put_lt hh hp
  obtain ⟨⟨T, -, -, hat, hT⟩, ho, -⟩ := hh.puts W
  obtain ⟨h1, h2⟩ := hT q t v hp
  refine ⟨i, ho q t v hp, ?_⟩
  rcases Nat.lt_or_ge t (s.thr i).t with h3 | h3
  · exact .inl h3
  · have h4 : t = (s.thr i).t := Nat.le_antisymm h1 h3
    refine .inr ⟨h4, hlt, fun hq => h2 h4 ?_⟩
    exact wf_atMost v (inv.wf i (h4 ▸ hlt)) hat hq

/-- No put happens before a read of `d`. -/
def Needs (d : Q) : Prog Q V σ → Prop
  | .ret _ => True
  | .get q k => q = d ∨ ∀ v, Needs d (k v)
  | .put _ _ _ => False

theorem needs_hist {N : Net I Q V σ} {i : I} {d : Q}
    (hN : ∀ s t, t < N.steps → Needs d (N.body i s t)) {h : List (Act Q V)} {th : Thr Q V σ}
    (hh : Hist N i h th) : (∃ v, Act.got d th.t v ∈ h) ∨ Needs d th.p := by
  have hstart : ∀ s t, Needs d (N.start i s t) := by
    intro s t
    unfold Net.start
    split
    · exact hN s t ‹_›
    · trivial
  induction hh with
  | nil => exact .inr (hstart _ _)
  | cons _ l ih =>
    cases l with
    | got t q k v =>
      rcases ih with ⟨w, hw⟩ | hn
      · exact .inl ⟨w, List.mem_cons_of_mem _ hw⟩
      · rcases hn with rfl | hn
        · exact .inl ⟨v, List.mem_cons_self⟩
        · exact .inr (hn v)
    | put t q v p =>
      rcases ih with ⟨w, hw⟩ | hn
      · exact .inl ⟨w, List.mem_cons_of_mem _ hw⟩
      · exact hn.elim
    | next t x hlt => exact .inr (hstart _ _)

theorem lastPut_mem {q : Q} {h : List (Act Q V)} {t : Nat} {v : V}
    (hl : lastPut q h = some (t, v)) : Act.put q t v ∈ h := by
  induction h with
  | nil => cases hl
  | cons a h ih =>
    cases a with
    | put q' t' v' =>
      simp only [lastPut] at hl
      split at hl
      · cases hl; subst_vars; exact List.mem_cons_self
      · exact List.mem_cons_of_mem _ (ih hl)
    | got => exact List.mem_cons_of_mem _ (ih hl)
    | next => exact List.mem_cons_of_mem _ (ih hl)

theorem lastPut_max {N : Net I Q V σ} {owned : I → List Q} (W : SingleWriter N owned) {i : I}
    {q : Q} {h : List (Act Q V)} {th : Thr Q V σ} (hh : Hist N i h th) {t : Nat} {v : V}
    (hp : Act.put q t v ∈ h) : ∃ t' v', lastPut q h = some (t', v') ∧ t ≤ t' := by
  induction hh with
  | nil => cases hp
  | @cons h th a th' h1 l ih =>
    cases l with
    | got t1 q1 k v1 =>
      simp only [List.mem_cons, reduceCtorEq, false_or] at hp
      simpa [lastPut] using ih hp
    | put t1 q1 v1 p =>
      simp only [List.mem_cons] at hp
      simp only [lastPut]
      by_cases hq : q1 = q
      · subst hq
        refine ⟨t1, v1, by simp, ?_⟩
        rcases hp with hp | hp
        · cases hp; exact Nat.le_refl _
        · obtain ⟨⟨todo, -, -, -, h⟩, -⟩ := h1.puts W
          exact (h _ _ _ hp).1
      · rcases hp with hp | hp
        · cases hp; exact absurd rfl hq
        · simpa [hq] using ih hp
    | next t1 x hlt =>
      simp only [List.mem_cons, reduceCtorEq, false_or] at hp
      simpa [lastPut] using ih hp

theorem pending_todo {q : Q} {p : Prog Q V σ} {todo : List Q} (h : AtMost p todo) {v : V}
    (hp : pending q p = some v) : q ∈ todo := by
  induction p generalizing todo with
  | ret => cases hp
  | get => cases hp
  | put q' w p ih =>
    simp only [pending] at hp
    split at hp
    · subst_vars; exact h.1
    · exact List.mem_of_mem_erase (ih h.2 hp)

theorem pending_not_needs {q d : Q} {p : Prog Q V σ} {v : V} (hp : pending q p = some v) :
    ¬ Needs d p := by
  cases p with
  | ret => cases hp
  | get => cases hp
  | put => exact fun h => h

end
end Verif.Network
