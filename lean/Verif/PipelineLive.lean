import Mathlib.Algebra.BigOperators.Group.Finset.Basic
import Mathlib.Algebra.Order.BigOperators.Group.Finset
import Mathlib.Data.Fintype.BigOperators
import Mathlib.Data.List.TakeDrop
import Verif.PipelineDet

/-! Helper lemmas for cleaning safety and progress of the threaded run (C07, C08). -/

namespace Verif.Pipeline
open Verif.Queue

variable {I Q V σ : Type} [DecidableEq I] [DecidableEq Q]

/-- On every path, `p` puts exactly once to each queue of `todo` and to nothing
else; whatever it reads is produced by some thread (`present`), has a smaller
rank than everything it still has to put, and is followed by a put to a queue
the cleaner watches. -/
def WFProg (present : Q → Prop) (watched : List Q) (rank : Q → Nat) :
    Prog Q V σ → List Q → Prop
  | .ret _, todo => todo = []
  | .get q k, todo => present q ∧ (∀ q' ∈ todo, rank q < rank q') ∧
      (∃ q' ∈ todo, q' ∈ watched) ∧ ∀ v, WFProg present watched rank (k v) todo
  | .put q _ p, todo => q ∈ todo ∧ WFProg present watched rank p (todo.erase q)

/-- Well-formed network: `owned i` are the queues written by thread `i`. -/
structure WF (N : Net I Q V σ) (owned : I → List Q) (rank : Q → Nat) : Prop where
  nodup : ∀ i, (owned i).Nodup
  disjoint : ∀ i j q, q ∈ owned i → q ∈ owned j → i = j
  prog : ∀ i s t, t < N.steps →
    WFProg (fun q => ∃ j, q ∈ owned j) N.watched rank (N.body i s t) (owned i)
  watched_owned : ∀ q ∈ N.watched, ∃ i, q ∈ owned i
  unwatched_unbounded : ∀ i, ∀ q ∈ owned i, q ∉ N.watched → N.cap q ≤ 0

/-- `q` has been written for date `t`. -/
def Done (N : Net I Q V σ) (owned todo : I → List Q) (thr : I → Thr Q V σ) (q : Q) (t : Nat) :
    Prop :=
  ∃ i, q ∈ owned i ∧ (t < (thr i).t ∨ (t = (thr i).t ∧ t < N.steps ∧ q ∉ todo i))

/-- `q` has been cleaned of date `t`. -/
def Gone (N : Net I Q V σ) (clT : Nat) (ph : Phase) (q : Q) (t : Nat) : Prop :=
  (t < clT ∧ q ∈ N.watched) ∨ (t = clT ∧ ∃ n, ph = .cleaning n ∧ q ∈ N.watched.take n)

/-- Invariant of the threaded run. -/
structure Inv (N : Net I Q V σ) (owned : I → List Q) (rank : Q → Nat) (s : St I Q V σ)
    (todo : I → List Q) : Prop where
  tle : ∀ i, (s.thr i).t ≤ N.steps
  wf : ∀ i, (s.thr i).t < N.steps →
    WFProg (fun q => ∃ j, q ∈ owned j) N.watched rank (s.thr i).p (todo i)
  tnodup : ∀ i, (todo i).Nodup
  tsub : ∀ i, todo i ⊆ owned i
  fin : ∀ i, (s.thr i).t = N.steps → ∃ x, (s.thr i).p = .ret x
  clle : s.clT ≤ N.steps
  past : ∀ t < s.clT, ∀ q ∈ N.watched, Done N owned todo s.thr q t
  getting : ∀ n, s.clPhase = .getting n → ∀ q ∈ N.watched.take n, Done N owned todo s.thr q s.clT
  cleaning : ∀ n, s.clPhase = .cleaning n → ∀ q ∈ N.watched, Done N owned todo s.thr q s.clT
  gone : ∀ q t, (q, t) ∈ s.gone ↔ Gone N s.clT s.clPhase q t
  store : ∀ q t, (∃ v, (s.que q).items.get? t = some v) ↔
    Done N owned todo s.thr q t ∧ ¬ Gone N s.clT s.clPhase q t
  keys : ∀ q, (s.que q).items.keys.Nodup

theorem Inv.initial {N : Net I Q V σ} {owned : I → List Q} {rank : Q → Nat}
    (W : WF N owned rank) : Inv N owned rank N.initial owned where
  tle i := Nat.zero_le _
  wf i h := by
    simp only [Net.initial, Net.start] at h ⊢
    simp only [h, if_true]
    exact W.prog i _ 0 h
  tnodup := W.nodup
  tsub i := fun _ h => h
  fin i h := by
    simp only [Net.initial, Net.start] at h ⊢
    exact ⟨_, by rw [if_neg (by omega)]⟩
  clle := Nat.zero_le _
  past t h := by simp [Net.initial] at h
  getting n h := by
    simp only [Net.initial, Phase.getting.injEq] at h
    subst h; simp
  cleaning n h := by simp [Net.initial] at h
  gone q t := by simp [Net.initial, Gone]
  store q t := by
    simp only [Net.initial, DQ.new, Dict.get?, Done]
    constructor
    · rintro ⟨v, hv⟩; cases hv
    · rintro ⟨⟨i, hq, h | ⟨_, _, h⟩⟩, _⟩
      · omega
      · exact absurd hq h
  keys q := by simp [Net.initial, DQ.new, Dict.keys]

/-- Data of the invariant that only depends on `Done` being preserved. -/
theorem Inv.of_done {N : Net I Q V σ} {owned : I → List Q} {rank : Q → Nat} {s : St I Q V σ}
    {todo : I → List Q} (inv : Inv N owned rank s todo) (i : I) (th' : Thr Q V σ)
    (l' : List Q) (hist' : I → List (Act Q V))
    (h1 : th'.t ≤ N.steps)
    (h2 : th'.t < N.steps → WFProg (fun q => ∃ j, q ∈ owned j) N.watched rank th'.p l')
    (h3 : l'.Nodup) (h4 : l' ⊆ owned i) (h5 : th'.t = N.steps → ∃ x, th'.p = .ret x)
    (hd : ∀ q t, Done N owned (fun j => if j = i then l' else todo j)
      (fun j => if j = i then th' else s.thr j) q t ↔ Done N owned todo s.thr q t) :
    Inv N owned rank { s with thr := fun j => if j = i then th' else s.thr j, hist := hist' }
      (fun j => if j = i then l' else todo j) where
  tle j := by
    simp only; split
    · exact h1
    · exact inv.tle j
  wf j := by
    simp only; split
    · exact h2
    · exact inv.wf j
  tnodup j := by
    split
    · exact h3
    · exact inv.tnodup j
  tsub j := by
    split
    · subst_vars; exact h4
    · exact inv.tsub j
  fin j := by
    simp only; split
    · exact h5
    · exact inv.fin j
  clle := inv.clle
  past t ht q hq := (hd q t).2 (inv.past t ht q hq)
  getting n hn q hq := (hd q _).2 (inv.getting n hn q hq)
  cleaning n hn q hq := (hd q _).2 (inv.cleaning n hn q hq)
  gone := inv.gone
  store q t := by rw [hd q t]; exact inv.store q t
  keys := inv.keys

omit [DecidableEq I] in
theorem Inv.lt_of_action {N : Net I Q V σ} {owned : I → List Q} {rank : Q → Nat} {s : St I Q V σ}
    {todo : I → List Q} (inv : Inv N owned rank s todo) (i : I)
    (h : ∀ x, (s.thr i).p ≠ .ret x) : (s.thr i).t < N.steps := by
  rcases Nat.lt_or_ge (s.thr i).t N.steps with h1 | h1
  · exact h1
  · obtain ⟨x, hx⟩ := inv.fin i (Nat.le_antisymm (inv.tle i) h1)
    exact absurd hx (h x)

theorem Inv.step {N : Net I Q V σ} {owned : I → List Q} {rank : Q → Nat}
    (W : WF N owned rank) {s s' : St I Q V σ} {todo : I → List Q}
    (inv : Inv N owned rank s todo) (st : Step N s s') :
    ∃ todo', Inv N owned rank s' todo' := by
  cases st with
  | thread i a th' que' hl he =>
    have hti := inv.tle i
    generalize hth : s.thr i = th at hl hti
    cases hl with
    | got t q k v =>
      rw [effect_got] at he
      obtain ⟨he, rfl⟩ := he
      have hlt : t < N.steps := by
        have := inv.lt_of_action i (by rw [hth]; simp)
        rwa [hth] at this
      have hwf := inv.wf i (by rw [hth]; exact hlt)
      rw [hth] at hwf
      simp only [WFProg] at hwf
      refine ⟨_, inv.of_done i ⟨t, k v⟩ (todo i) _ hti (fun _ => hwf.2.2.2 v) (inv.tnodup i)
        (inv.tsub i) (fun h => absurd h (Nat.ne_of_lt hlt)) ?_⟩
      intro q' t'
      unfold Done
      apply exists_congr
      intro j
      by_cases hj : j = i
      · subst hj; simp [hth]
      · simp [hj]
    | put t q v p =>
      rw [effect_put] at he
      obtain ⟨hfull, rfl⟩ := he
      have hlt : t < N.steps := by
        have := inv.lt_of_action i (by rw [hth]; simp)
        rwa [hth] at this
      have hwf := inv.wf i (by rw [hth]; exact hlt)
      rw [hth] at hwf
      simp only [WFProg] at hwf
      have hqo : q ∈ owned i := inv.tsub i hwf.1
      have hmem : ∀ q', q' ∈ (todo i).erase q ↔ q' ≠ q ∧ q' ∈ todo i := fun q' =>
        List.Nodup.mem_erase_iff (inv.tnodup i)
      have hd : ∀ q' t', Done N owned (fun j => if j = i then (todo i).erase q else todo j)
          (fun j => if j = i then ⟨t, p⟩ else s.thr j) q' t' ↔
          Done N owned todo s.thr q' t' ∨ (q' = q ∧ t' = t) := by
        intro q' t'
        unfold Done
        constructor
        · rintro ⟨j, hj, h⟩
          by_cases hji : j = i
          · subst hji
            simp only [if_true] at h
            rcases h with h | ⟨h1, h2, h3⟩
            · left; exact ⟨j, hj, .inl (by rw [hth]; exact h)⟩
            · by_cases hqq : q' = q
              · right; exact ⟨hqq, h1⟩
              · left
                refine ⟨j, hj, .inr ⟨by rw [hth]; exact h1, h2, ?_⟩⟩
                intro hc; exact h3 ((hmem q').2 ⟨hqq, hc⟩)
          · simp only [hji, if_false] at h
            left; exact ⟨j, hj, h⟩
        · rintro (⟨j, hj, h⟩ | ⟨rfl, rfl⟩)
          · by_cases hji : j = i
            · subst hji
              refine ⟨j, hj, ?_⟩
              simp only [if_true]
              rw [hth] at h
              rcases h with h | ⟨h1, h2, h3⟩
              · exact .inl h
              · exact .inr ⟨h1, h2, fun hc => h3 ((hmem q').1 hc).2⟩
            · exact ⟨j, hj, by simpa [hji] using h⟩
          · refine ⟨i, hqo, ?_⟩
            simp only [if_true]
            exact .inr ⟨trivial, hlt, fun hc => ((hmem q').1 hc).1 rfl⟩
      have hnd : ¬ Done N owned todo s.thr q t := by
        rintro ⟨j, hj, h⟩
        have := W.disjoint _ _ _ hj hqo; subst this
        rw [hth] at h
        rcases h with h | ⟨_, _, h⟩
        · exact absurd h (Nat.lt_irrefl _)
        · exact h hwf.1
      have hng : ¬ Gone N s.clT s.clPhase q t := by
        rintro (⟨h1, h2⟩ | ⟨h1, n, h2, h3⟩)
        · exact hnd (inv.past t h1 q h2)
        · exact hnd (h1 ▸ inv.cleaning n h2 q (List.mem_of_mem_take h3))
      refine ⟨fun j => if j = i then (todo i).erase q else todo j, ?_⟩
      constructor
      · intro j; simp only; split
        · exact hti
        · exact inv.tle j
      · intro j; simp only; split
        · intro _; exact hwf.2
        · exact inv.wf j
      · intro j; split
        · exact (inv.tnodup i).erase q
        · exact inv.tnodup j
      · intro j; split
        · subst_vars; exact fun a ha => inv.tsub _ (List.mem_of_mem_erase ha)
        · exact inv.tsub j
      · intro j; simp only; split
        · intro h; exact absurd h (Nat.ne_of_lt hlt)
        · exact inv.fin j
      · exact inv.clle
      · intro t' ht' q' hq'; exact (hd q' t').2 (.inl (inv.past t' ht' q' hq'))
      · intro n hn q' hq'; exact (hd q' _).2 (.inl (inv.getting n hn q' hq'))
      · intro n hn q' hq'; exact (hd q' _).2 (.inl (inv.cleaning n hn q' hq'))
      · exact inv.gone
      · intro q' t'
        simp only
        rw [hd q' t']
        by_cases hqq : q' = q
        · subst hqq
          simp only [if_true, DQ.store, Dict.get?_set]
          by_cases htt : t' = t
          · subst htt; simp [hng]
          · simp only [htt, if_false, and_false, or_false]
            exact inv.store q' t'
        · simp only [hqq, if_false, false_and, or_false]
          exact inv.store q' t'
      · intro q'; simp only
        split
        · subst_vars; exact Dict.nodup_set _ (inv.keys _) _ _
        · exact inv.keys q'
    | next t x hlt =>
      simp only [effect] at he
      subst he
      have hwf := inv.wf i (by rw [hth]; exact hlt)
      rw [hth] at hwf
      simp only [WFProg] at hwf
      refine ⟨_, inv.of_done i ⟨t + 1, N.start i x (t + 1)⟩ (owned i) _ hlt ?_ (W.nodup i)
        (fun _ h => h) ?_ ?_⟩
      · intro h
        simp only [Net.start] at h ⊢
        simp only [h, if_true]
        exact W.prog i x _ h
      · intro h
        simp only [Net.start] at h ⊢
        exact ⟨x, by rw [if_neg (by omega)]⟩
      · intro q' t'
        unfold Done
        apply exists_congr
        intro j
        by_cases hj : j = i
        · subst hj
          simp only [if_true, hth, hwf]
          constructor
          · rintro ⟨h1, h2 | ⟨h2, h3, h4⟩⟩
            · refine ⟨h1, ?_⟩
              rcases Nat.lt_or_ge t' t with h3 | h3
              · exact .inl h3
              · have : t' = t := by omega
                subst this
                exact .inr ⟨rfl, hlt, by simp⟩
            · exact absurd h1 h4
          · rintro ⟨h1, h2 | ⟨h2, h3, h4⟩⟩
            · exact ⟨h1, .inl (by omega)⟩
            · exact ⟨h1, .inl (by omega)⟩
        · simp [hj]
  | clGet n q v ht hp hq hv =>
    rw [getWake_value] at hv
    refine ⟨todo, ?_⟩
    have hG : ∀ q' t', Gone N s.clT (.getting (n + 1)) q' t' ↔ Gone N s.clT s.clPhase q' t' := by
      intro q' t'; simp [Gone, hp]
    exact {
      tle := inv.tle, wf := inv.wf, tnodup := inv.tnodup, tsub := inv.tsub, fin := inv.fin
      clle := inv.clle, past := inv.past
      getting := by
        intro m hm q' hq'
        simp only [Phase.getting.injEq] at hm
        subst hm
        rw [List.take_add_one, hq] at hq'
        simp only [Option.toList_some, List.mem_append, List.mem_singleton] at hq'
        rcases hq' with hq' | rfl
        · exact inv.getting n hp q' hq'
        · exact ((inv.store q' _).1 ⟨v, hv⟩).1
      cleaning := by intro m hm; simp at hm
      gone := fun q' t' => by rw [hG]; exact inv.gone q' t'
      store := fun q' t' => by simp only; rw [hG]; exact inv.store q' t'
      keys := inv.keys }
  | clTurn n ht hp hq =>
    refine ⟨todo, ?_⟩
    have hG : ∀ q' t', Gone N s.clT (.cleaning 0) q' t' ↔ Gone N s.clT s.clPhase q' t' := by
      intro q' t'
      simp only [Gone, hp, Phase.cleaning.injEq, reduceCtorEq, false_and, exists_false, and_false]
      simp
    exact {
      tle := inv.tle, wf := inv.wf, tnodup := inv.tnodup, tsub := inv.tsub, fin := inv.fin
      clle := inv.clle, past := inv.past
      getting := by intro m hm; simp at hm
      cleaning := by
        intro m hm q' hq'
        have hlen : N.watched.length ≤ n := by simpa using hq
        exact inv.getting n hp q' (by rw [List.take_of_length_le hlen]; exact hq')
      gone := fun q' t' => by rw [hG]; exact inv.gone q' t'
      store := fun q' t' => by simp only; rw [hG]; exact inv.store q' t'
      keys := inv.keys }
  | clClean n q ht hp hq =>
    refine ⟨todo, ?_⟩
    have hG : ∀ q' t', Gone N s.clT (.cleaning (n + 1)) q' t' ↔
        Gone N s.clT s.clPhase q' t' ∨ (q' = q ∧ t' = s.clT) := by
      intro q' t'
      simp only [Gone, hp, Phase.cleaning.injEq, exists_eq_left']
      rw [List.take_add_one, hq]
      simp only [Option.toList_some, List.mem_append, List.mem_singleton]
      constructor
      · rintro (h | ⟨h1, h2 | h2⟩)
        · exact .inl (.inl h)
        · exact .inl (.inr ⟨h1, h2⟩)
        · exact .inr ⟨h2, h1⟩
      · rintro ((h | ⟨h1, h2⟩) | ⟨h1, h2⟩)
        · exact .inl h
        · exact .inr ⟨h1, .inl h2⟩
        · exact .inr ⟨h2, .inr h1⟩
    exact {
      tle := inv.tle, wf := inv.wf, tnodup := inv.tnodup, tsub := inv.tsub, fin := inv.fin
      clle := inv.clle, past := inv.past
      getting := by intro m hm; simp at hm
      cleaning := fun m hm q' hq' => inv.cleaning n hp q' hq'
      gone := fun q' t' => by
        rw [hG]
        simp only [List.mem_cons, Prod.mk.injEq]
        rw [inv.gone q' t']
        exact or_comm
      store := fun q' t' => by
        simp only
        rw [hG]
        by_cases hqq : q' = q
        · subst hqq
          simp only [if_true, Queue.step]
          rw [Dict.get?_del _ (inv.keys q')]
          by_cases htt : t' = s.clT
          · subst htt; simp
          · simp only [htt, if_false, and_false, or_false]
            exact inv.store q' t'
        · simp only [hqq, if_false, false_and, or_false]
          exact inv.store q' t'
      keys := fun q' => by
        simp only
        split
        · subst_vars; exact Dict.nodup_del _ (inv.keys _) _
        · exact inv.keys q' }
  | clNext n ht hp hq =>
    refine ⟨todo, ?_⟩
    have hlen : N.watched.length ≤ n := by simpa using hq
    have hG : ∀ q' t', Gone N (s.clT + 1) (.getting 0) q' t' ↔ Gone N s.clT s.clPhase q' t' := by
      intro q' t'
      simp only [Gone, hp, Phase.cleaning.injEq, exists_eq_left', reduceCtorEq, false_and,
        exists_false, and_false, or_false]
      rw [List.take_of_length_le hlen]
      constructor
      · rintro ⟨h1, h2⟩
        rcases Nat.lt_or_ge t' s.clT with h | h
        · exact .inl ⟨h, h2⟩
        · exact .inr ⟨by omega, h2⟩
      · rintro (⟨h1, h2⟩ | ⟨h1, h2⟩)
        · exact ⟨by omega, h2⟩
        · exact ⟨by omega, h2⟩
    exact {
      tle := inv.tle, wf := inv.wf, tnodup := inv.tnodup, tsub := inv.tsub, fin := inv.fin
      clle := ht
      past := by
        intro t' ht' q' hq'
        simp only at ht'
        rcases Nat.lt_or_ge t' s.clT with h | h
        · exact inv.past t' h q' hq'
        · have : t' = s.clT := by omega
          subst this
          exact inv.cleaning n hp q' hq'
      getting := by
        intro m hm q' hq'
        simp only [Phase.getting.injEq] at hm
        subst hm; simp at hq'
      cleaning := by intro m hm; simp at hm
      gone := fun q' t' => by rw [hG]; exact inv.gone q' t'
      store := fun q' t' => by simp only; rw [hG]; exact inv.store q' t'
      keys := inv.keys }

theorem Reach.inv {N : Net I Q V σ} {owned : I → List Q} {rank : Q → Nat}
    (W : WF N owned rank) {s : St I Q V σ} (h : Reach N s) : ∃ todo, Inv N owned rank s todo := by
  induction h with
  | init => exact ⟨_, Inv.initial W⟩
  | step _ st ih =>
    obtain ⟨todo, inv⟩ := ih
    exact inv.step W st

/-- A thread that has not done its watched put at `t` is not past `t`; if it is before
the cleaner it has no reads left. -/
theorem Inv.get_not_past {N : Net I Q V σ} {owned : I → List Q} {rank : Q → Nat}
    (W : WF N owned rank) {s : St I Q V σ} {todo : I → List Q}
    (inv : Inv N owned rank s todo) (i : I) (q : Q) (k : V → Prog Q V σ)
    (hp : (s.thr i).p = .get q k) :
    s.clT ≤ (s.thr i).t ∧ ((s.thr i).t = s.clT → ∀ n, s.clPhase ≠ .cleaning n) := by
  have hlt := inv.lt_of_action i (by rw [hp]; simp)
  have hwf := inv.wf i hlt
  rw [hp] at hwf
  simp only [WFProg] at hwf
  obtain ⟨-, -, ⟨q', hq', hw⟩, -⟩ := hwf
  have hnd : ¬ Done N owned todo s.thr q' (s.thr i).t := by
    rintro ⟨j, hj, h⟩
    have := W.disjoint _ _ _ hj (inv.tsub i hq'); subst this
    rcases h with h | ⟨_, _, h⟩
    · exact absurd h (Nat.lt_irrefl _)
    · exact h hq'
  refine ⟨?_, ?_⟩
  · rcases Nat.lt_or_ge (s.thr i).t s.clT with h | h
    · exact absurd (inv.past _ h q' hw) hnd
    · exact h
  · intro he n hn
    exact hnd (he ▸ inv.cleaning n hn q' hw)

/-- The key lemma: if some queue has not been written at the cleaner's date while the
cleaner is waiting, some thread can move. -/
theorem Inv.can_move {N : Net I Q V σ} {owned : I → List Q} {rank : Q → Nat}
    (W : WF N owned rank) {s : St I Q V σ} {todo : I → List Q}
    (hr : Reach N s) (inv : Inv N owned rank s todo) (n : Nat) (hph : s.clPhase = .getting n)
    (hT : s.clT < N.steps) :
    ∀ r q, rank q = r → (∃ i, q ∈ owned i) → ¬ Done N owned todo s.thr q s.clT →
      ∃ s', Step N s s' := by
  intro r
  induction r using Nat.strongRecOn with
  | _ r ih =>
    rintro q rfl ⟨i, hi⟩ hnd
    have hle : (s.thr i).t ≤ s.clT := by
      rcases Nat.lt_or_ge s.clT (s.thr i).t with h | h
      · exact absurd ⟨i, hi, .inl h⟩ hnd
      · exact h
    have hlt : (s.thr i).t < N.steps := Nat.lt_of_le_of_lt hle hT
    have hwf := inv.wf i hlt
    generalize hth : s.thr i = th at *
    obtain ⟨t, p⟩ := th
    simp only at *
    cases p with
    | ret x => exact ⟨_, Step.thread s i .next _ s.que (by rw [hth]; exact .next t x hlt) rfl⟩
    | put q' v p =>
      refine ⟨_, Step.thread s i (.put q' t v) _ _ (by rw [hth]; exact .put t q' v p)
        ((effect_put _ _ _ _ _).2 ⟨?_, rfl⟩)⟩
      rintro ⟨hc, hfull⟩
      rw [hr.store.1 q' |>.2] at hc hfull
      by_cases hw : q' ∈ N.watched
      · -- watched queue of the owner: it is empty
        simp only [WFProg] at hwf
        have hown : q' ∈ owned i := inv.tsub i hwf.1
        have hnd' : ∀ t', ¬ (Done N owned todo s.thr q' t' ∧ ¬ Gone N s.clT s.clPhase q' t') := by
          rintro t' ⟨⟨j, hj, h⟩, hg⟩
          have := W.disjoint _ _ _ hj hown; subst this
          rw [hth] at h
          simp only at h
          rcases h with h | ⟨_, _, h⟩
          · exact hg (.inl ⟨by omega, hw⟩)
          · exact h hwf.1
        have hempty : (s.que q').items = [] := by
          cases hit : (s.que q').items with
          | nil => rfl
          | cons a l =>
            exfalso
            apply hnd' a.1
            rw [← inv.store]
            refine ⟨a.2, ?_⟩
            rw [hit]
            simp [Dict.get?]
        simp only [DQ.qsize, hempty, List.length_nil] at hfull
        omega
      · simp only [WFProg] at hwf
        have := W.unwatched_unbounded i q' (inv.tsub i hwf.1) hw
        omega
    | get q' k =>
      obtain ⟨h1, h2⟩ := inv.get_not_past W i q' k (by rw [hth])
      rw [hth] at h1
      simp only at h1
      have htt : t = s.clT := by omega
      subst htt
      simp only [WFProg] at hwf
      by_cases hd : Done N owned todo s.thr q' s.clT
      · have hng : ¬ Gone N s.clT s.clPhase q' s.clT := by
          rintro (⟨h, _⟩ | ⟨_, m, hm, _⟩)
          · omega
          · rw [hph] at hm; cases hm
        obtain ⟨v, hv⟩ := (inv.store q' s.clT).2 ⟨hd, hng⟩
        exact ⟨_, Step.thread s i (.got q' s.clT v) _ s.que (by rw [hth]; exact .got _ q' k v)
          ((effect_got _ _ _ _ _).2 ⟨hv, rfl⟩)⟩
      · refine ih (rank q') (hwf.2.1 q ?_) q' rfl hwf.1 hd
        by_contra hq
        exact hnd ⟨i, hi, .inr ⟨by rw [hth], hlt, hq⟩⟩

/-- Progress. -/
theorem Inv.progress {N : Net I Q V σ} {owned : I → List Q} {rank : Q → Nat}
    (W : WF N owned rank) {s : St I Q V σ} {todo : I → List Q}
    (hr : Reach N s) (inv : Inv N owned rank s todo) : Finished N s ∨ ∃ s', Step N s s' := by
  rcases Nat.lt_or_ge s.clT N.steps with hT | hT
  · right
    cases hph : s.clPhase with
    | getting n =>
      cases hq : N.watched[n]? with
      | none => exact ⟨_, Step.clTurn s n hT hph hq⟩
      | some q =>
        have hmem : q ∈ N.watched := List.mem_of_getElem? hq
        by_cases hd : Done N owned todo s.thr q s.clT
        · have hng : ¬ Gone N s.clT s.clPhase q s.clT := by
            rintro (⟨h, _⟩ | ⟨_, m, hm, _⟩)
            · omega
            · rw [hph] at hm; cases hm
          obtain ⟨v, hv⟩ := (inv.store q s.clT).2 ⟨hd, hng⟩
          exact ⟨_, Step.clGet s n q v hT hph hq ((getWake_value _ _ _).2 hv)⟩
        · exact inv.can_move W hr n hph hT _ q rfl (W.watched_owned q hmem) hd
    | cleaning n =>
      cases hq : N.watched[n]? with
      | none => exact ⟨_, Step.clNext s n hT hph hq⟩
      | some q => exact ⟨_, Step.clClean s n q hT hph hq⟩
  · have hT : s.clT = N.steps := Nat.le_antisymm inv.clle hT
    by_cases hall : ∀ i, (s.thr i).t = N.steps
    · exact .inl ⟨hall, hT⟩
    · right
      have : ∃ i, (s.thr i).t ≠ N.steps := by
        by_contra h; exact hall fun i => by by_contra hi; exact h ⟨i, hi⟩
      obtain ⟨i, hi⟩ := this
      have hlt : (s.thr i).t < N.steps := Nat.lt_of_le_of_ne (inv.tle i) hi
      have hwf := inv.wf i hlt
      generalize hth : s.thr i = th at *
      obtain ⟨t, p⟩ := th
      simp only at *
      cases p with
      | ret x => exact ⟨_, Step.thread s i .next _ s.que (by rw [hth]; exact .next t x hlt) rfl⟩
      | get q' k =>
        obtain ⟨h1, -⟩ := inv.get_not_past W i q' k (by rw [hth])
        rw [hth] at h1
        simp only at h1
        omega
      | put q' v p =>
        refine ⟨_, Step.thread s i (.put q' t v) _ _ (by rw [hth]; exact .put t q' v p)
          ((effect_put _ _ _ _ _).2 ⟨?_, rfl⟩)⟩
        rintro ⟨hc, hfull⟩
        rw [hr.store.1 q' |>.2] at hc hfull
        by_cases hw : q' ∈ N.watched
        · simp only [WFProg] at hwf
          obtain ⟨j, hj, h⟩ := inv.past t (by omega) q' hw
          have := W.disjoint _ _ _ hj (inv.tsub i hwf.1); subst this
          rw [hth] at h
          simp only at h
          rcases h with h | ⟨_, _, h⟩
          · omega
          · exact h hwf.1
        · simp only [WFProg] at hwf
          have := W.unwatched_unbounded i q' (inv.tsub i hwf.1) hw
          omega

/-! ### Length of executions -/

/-- Every path of `p` has at most `n` actions. -/
def DepthLE : Prog Q V σ → Nat → Prop
  | .ret _, _ => True
  | .get _ k, n => ∃ m, n = m + 1 ∧ ∀ v, DepthLE (k v) m
  | .put _ _ p, n => ∃ m, n = m + 1 ∧ DepthLE p m

/-- Executions with their number of steps. -/
inductive ReachIn (N : Net I Q V σ) : Nat → St I Q V σ → Prop
  | init : ReachIn N 0 N.initial
  | step {n : Nat} {s s' : St I Q V σ} : ReachIn N n s → Step N s s' → ReachIn N (n + 1) s'

theorem ReachIn.reach {N : Net I Q V σ} {n : Nat} {s : St I Q V σ} (h : ReachIn N n s) :
    Reach N s := by
  induction h with
  | init => exact .init
  | step _ st ih => exact .step ih st

/-- Actions performed by the cleaner. -/
def clCount (N : Net I Q V σ) (s : St I Q V σ) : Nat :=
  s.clT * (2 * N.watched.length + 2) +
    match s.clPhase with
    | .getting n => n
    | .cleaning n => N.watched.length + 1 + n

theorem ReachIn.cl {N : Net I Q V σ} {m : Nat} {s : St I Q V σ} (h : ReachIn N m s) :
    s.clT ≤ N.steps ∧ (s.clT = N.steps → s.clPhase = .getting 0) ∧
    (∀ n, s.clPhase = .getting n → n ≤ N.watched.length) ∧
    (∀ n, s.clPhase = .cleaning n → n ≤ N.watched.length) := by
  induction h with
  | init => simp [Net.initial]
  | step _ st ih =>
    obtain ⟨h1, h2, h3, h4⟩ := ih
    cases st with
    | thread => exact ⟨h1, h2, h3, h4⟩
    | clGet n q v ht hp hq hv =>
      have : n < N.watched.length := by
        obtain ⟨hlt, -⟩ := List.getElem?_eq_some_iff.1 hq; exact hlt
      refine ⟨h1, by intro h; simp only at h; omega, ?_, by simp⟩
      intro m hm; simp only [Phase.getting.injEq] at hm; omega
    | clTurn n ht hp hq =>
      refine ⟨h1, by intro h; simp only at h; omega, by simp, ?_⟩
      intro m hm; simp only [Phase.cleaning.injEq] at hm; omega
    | clClean n q ht hp hq =>
      have : n < N.watched.length := by
        obtain ⟨hlt, -⟩ := List.getElem?_eq_some_iff.1 hq; exact hlt
      refine ⟨h1, by intro h; simp only at h; omega, by simp, ?_⟩
      intro m hm; simp only [Phase.cleaning.injEq] at hm; omega
    | clNext n ht hp hq =>
      refine ⟨ht, by simp, ?_, by simp⟩
      intro m hm; simp only [Phase.getting.injEq] at hm; omega

omit [DecidableEq I] [DecidableEq Q] in
/-- Local histories have bounded length. -/
theorem Hist.length_le {N : Net I Q V σ} {B : Nat}
    (hB : ∀ i s t, t < N.steps → DepthLE (N.body i s t) B) {i : I} {h : List (Act Q V)} {th : Thr Q V σ}
    (hh : Hist N i h th) :
    th.t ≤ N.steps ∧ (th.t = N.steps → (∃ x, th.p = .ret x) ∧ h.length ≤ N.steps * (B + 1)) ∧
    (th.t < N.steps → ∃ d, d ≤ B ∧ DepthLE th.p d ∧ h.length + d ≤ th.t * (B + 1) + B) := by
  induction hh with
  | nil =>
    refine ⟨Nat.zero_le _, ?_, ?_⟩
    · intro h
      simp only at h
      refine ⟨⟨_, by simp only [Net.start]; rw [if_neg (by omega)]⟩, by simp⟩
    · intro h
      simp only at h
      refine ⟨B, Nat.le_refl _, ?_, by simp⟩
      simp only [Net.start, h, if_true]
      exact hB _ _ _ h
  | cons h1 l ih =>
    obtain ⟨i1, i2, i3⟩ := ih
    cases l with
    | got t q k v =>
      simp only at *
      have hlt : t < N.steps := by
        rcases Nat.lt_or_ge t N.steps with h | h
        · exact h
        · obtain ⟨⟨x, hx⟩, -⟩ := i2 (Nat.le_antisymm i1 h); cases hx
      refine ⟨i1, fun h => by omega, fun _ => ?_⟩
      obtain ⟨d, hd, hdep, hlen⟩ := i3 hlt
      simp only [DepthLE] at hdep
      obtain ⟨m, rfl, hm⟩ := hdep
      exact ⟨m, by omega, hm v, by simp only [List.length_cons]; omega⟩
    | put t q v p =>
      simp only at *
      have hlt : t < N.steps := by
        rcases Nat.lt_or_ge t N.steps with h | h
        · exact h
        · obtain ⟨⟨x, hx⟩, -⟩ := i2 (Nat.le_antisymm i1 h); cases hx
      refine ⟨i1, fun h => by omega, fun _ => ?_⟩
      obtain ⟨d, hd, hdep, hlen⟩ := i3 hlt
      simp only [DepthLE] at hdep
      obtain ⟨m, rfl, hm⟩ := hdep
      exact ⟨m, by omega, hm, by simp only [List.length_cons]; omega⟩
    | next t x hlt =>
      simp only at *
      obtain ⟨d, hd, hdep, hlen⟩ := i3 hlt
      have hmul : (t + 1) * (B + 1) = t * (B + 1) + (B + 1) := Nat.succ_mul _ _
      refine ⟨hlt, ?_, ?_⟩
      · intro h
        refine ⟨⟨x, by simp only [Net.start]; rw [if_neg (by omega)]⟩, ?_⟩
        rw [← h, hmul]
        simp only [List.length_cons]
        omega
      · intro h
        refine ⟨B, Nat.le_refl _, ?_, ?_⟩
        · simp only [Net.start, h, if_true]
          exact hB _ _ _ h
        · rw [hmul]
          simp only [List.length_cons]
          omega

variable [Fintype I]

/-- The number of steps of an execution is the number of recorded actions. -/
theorem ReachIn.count {N : Net I Q V σ} {m : Nat} {s : St I Q V σ} (h : ReachIn N m s) :
    m = (∑ i, (s.hist i).length) + clCount N s := by
  induction h with
  | init => simp [Net.initial, clCount]
  | @step n s s' hr st ih =>
    cases st with
    | thread i a th' que' hl he =>
      have : (∑ j, (if j = i then a :: s.hist j else s.hist j).length) =
          (∑ j, (s.hist j).length) + 1 := by
        have h1 : ∀ j, (if j = i then a :: s.hist j else s.hist j).length =
            (s.hist j).length + if j = i then 1 else 0 := by
          intro j; split <;> simp
        simp only [h1, Finset.sum_add_distrib, Finset.sum_ite_eq', Finset.mem_univ, if_true]
      simp only [this]
      simp only [clCount] at ih ⊢
      omega
    | clGet k q v ht hp hq hv =>
      simp only [clCount, hp] at ih ⊢; omega
    | clTurn k ht hp hq =>
      have hk := (hr.cl).2.2.1 k hp
      have : N.watched.length ≤ k := by simpa using hq
      simp only [clCount, hp] at ih ⊢; omega
    | clClean k q ht hp hq =>
      simp only [clCount, hp] at ih ⊢; omega
    | clNext k ht hp hq =>
      have hk := (hr.cl).2.2.2 k hp
      have : N.watched.length ≤ k := by simpa using hq
      simp only [clCount, hp] at ih ⊢
      rw [Nat.succ_mul]
      omega

end Verif.Pipeline
