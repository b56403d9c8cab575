import Verif.Pipeline
import Verif.QueueProps

/-! Helper lemmas for determinism of the threaded run (C06). -/

namespace Verif.Pipeline
open Verif.Queue

variable {I Q V σ : Type} [DecidableEq I] [DecidableEq Q]

/-- On every path, `p` puts only to queues in `todo`, each at most once. -/
def AtMost : Prog Q V σ → List Q → Prop
  | .ret _, _ => True
  | .get _ k, todo => ∀ v, AtMost (k v) todo
  | .put q _ p, todo => q ∈ todo ∧ AtMost p (todo.erase q)

/-- Every queue has a single writer, which writes at most once per date. -/
structure SingleWriter (N : Net I Q V σ) (owned : I → List Q) : Prop where
  nodup : ∀ i, (owned i).Nodup
  disjoint : ∀ i j q, q ∈ owned i → q ∈ owned j → i = j
  atMost : ∀ i s t, AtMost (N.body i s t) (owned i)

omit [DecidableEq I] in
theorem effect_got (que : Q → DQ Nat V) (q : Q) (t : Nat) (v : V) (que' : Q → DQ Nat V) :
    effect que (.got q t v) que' ↔ (que q).items.get? t = some v ∧ que' = que := by
  simp only [effect, Queue.step, getLoop]
  cases (que q).items.get? t <;> simp

omit [DecidableEq I] in
theorem effect_put (que : Q → DQ Nat V) (q : Q) (t : Nat) (v : V) (que' : Q → DQ Nat V) :
    effect que (.put q t v) que' ↔
      ¬ ((que q).maxsize > 0 ∧ (que q).qsize = (que q).maxsize) ∧
      que' = fun q' => if q' = q then (que q).store t v else que q' := by
  simp only [effect, Queue.step]
  rcases putLoop_cases (que q) t v none 0 with ⟨h, h'⟩ | ⟨h1, h2, h3, h4⟩
  · rw [h]; simpa using fun _ => h'
  · rcases h4 with h4 | ⟨d, h4⟩ <;> rw [h4] <;> simp [h1, h2]

omit [DecidableEq I] in
theorem getWake_value (dq : DQ Nat V) (t : Nat) (v : V) :
    (Queue.step dq (.getWake t none 0)).2 = .value v ↔ dq.items.get? t = some v := by
  simp only [Queue.step, getLoop]
  cases dq.items.get? t <;> simp

/-- Local histories of a thread. -/
inductive Hist (N : Net I Q V σ) (i : I) : List (Act Q V) → Thr Q V σ → Prop
  | nil : Hist N i [] ⟨0, N.start i (N.init i) 0⟩
  | cons {h th a th'} : Hist N i h th → LStep N i th a th' → Hist N i (a :: h) th'

omit [DecidableEq I] [DecidableEq Q] in
theorem LStep.det {N : Net I Q V σ} {i : I} {th a th1 th2} (h1 : LStep N i th a th1)
    (h2 : LStep N i th a th2) : th1 = th2 := by
  cases h1 <;> cases h2 <;> rfl

omit [DecidableEq I] [DecidableEq Q] in
theorem LStep.act {N : Net I Q V σ} {i : I} {th a b th1 th2} (h1 : LStep N i th a th1)
    (h2 : LStep N i th b th2) : a = b ∨ ∃ q t v v', a = .got q t v ∧ b = .got q t v' := by
  cases h1 <;> cases h2
  · exact .inr ⟨_, _, _, _, rfl, rfl⟩
  · exact .inl rfl
  · exact .inl rfl

omit [DecidableEq I] [DecidableEq Q] in
theorem Hist.det {N : Net I Q V σ} {i : I} {h th1 th2} (h1 : Hist N i h th1)
    (h2 : Hist N i h th2) : th1 = th2 := by
  induction h1 generalizing th2 with
  | nil => cases h2; rfl
  | cons h1 l1 ih =>
    cases h2 with
    | cons h2 l2 =>
      have := ih h2; subst this
      exact l1.det l2

omit [DecidableEq I] [DecidableEq Q] in
theorem Hist.suffix {N : Net I Q V σ} {i : I} {l h th} (hh : Hist N i (l ++ h) th) :
    ∃ th', Hist N i h th' := by
  induction l generalizing th with
  | nil => exact ⟨_, hh⟩
  | cons a l ih =>
    cases hh with
    | cons h1 _ => exact ih h1

omit [DecidableEq I] [DecidableEq Q] in
/-- A thread never passes the last date, and has nothing left to do after it. -/
theorem Hist.fin {N : Net I Q V σ} {i : I} {h th} (hh : Hist N i h th) :
    th.t ≤ N.steps ∧ (th.t = N.steps → ∃ x, th.p = .ret x) := by
  induction hh with
  | nil =>
    refine ⟨Nat.zero_le _, fun h => ⟨N.init i, ?_⟩⟩
    simp only at h
    simp only [Net.start]; rw [if_neg (by omega)]
  | cons _ l ih =>
    cases l with
    | got t q k v =>
      refine ⟨ih.1, fun h => ?_⟩
      obtain ⟨x, hx⟩ := ih.2 h; cases hx
    | put t q v p =>
      refine ⟨ih.1, fun h => ?_⟩
      obtain ⟨x, hx⟩ := ih.2 h; cases hx
    | next t x hlt =>
      refine ⟨hlt, fun h => ⟨x, ?_⟩⟩
      simp only at h
      simp only [Net.start]; rw [if_neg (by omega)]

theorem Reach.hist {N : Net I Q V σ} {s : St I Q V σ} (h : Reach N s) (i : I) :
    Hist N i (s.hist i) (s.thr i) := by
  induction h with
  | init => exact .nil
  | step _ st ih =>
    cases st with
    | thread j a th' que' hl he =>
      by_cases hij : i = j
      · subst hij
        simpa using Hist.cons ih hl
      · simpa [hij] using ih
    | _ => exact ih

omit [DecidableEq I] in
theorem AtMost.erase_nodup {todo : List Q} (h : todo.Nodup) (q q' : Q) :
    q' ∈ todo.erase q → q' ≠ q ∧ q' ∈ todo := by
  intro hq
  rw [List.Nodup.mem_erase_iff h] at hq
  exact hq

/-- In one local history every (queue, date) is written at most once, and only
owned queues are written. -/
theorem Hist.puts {N : Net I Q V σ} {owned : I → List Q} (W : SingleWriter N owned) {i : I}
    {h th} (hh : Hist N i h th) :
    (∃ todo : List Q, todo.Nodup ∧ todo ⊆ owned i ∧ AtMost th.p todo ∧
      (∀ q t v, Act.put q t v ∈ h → t ≤ th.t ∧ (t = th.t → q ∉ todo))) ∧
    (∀ q t v, Act.put q t v ∈ h → q ∈ owned i) ∧
    (∀ q t v v', Act.put q t v ∈ h → Act.put q t v' ∈ h → v = v') := by
  have hstart : ∀ s t, AtMost (N.start i s t) (owned i) := by
    intro s t
    unfold Net.start
    split
    · exact W.atMost _ _ _
    · simp [AtMost]
  induction hh with
  | nil =>
    refine ⟨⟨owned i, W.nodup i, fun _ h => h, hstart _ _, by simp⟩, by simp, by simp⟩
  | cons h1 l ih =>
    obtain ⟨⟨todo, hn, hsub, ham, hp⟩, hown, huniq⟩ := ih
    cases l with
    | got t q k v =>
      refine ⟨⟨todo, hn, hsub, ?_, ?_⟩, ?_, ?_⟩
      · simp only [AtMost] at ham; exact ham v
      · intro q' t' v' hm; exact hp q' t' v' (by simpa using hm)
      · intro q' t' v' hm; exact hown q' t' v' (by simpa using hm)
      · intro q' t' v1 v2 hm1 hm2
        exact huniq q' t' v1 v2 (by simpa using hm1) (by simpa using hm2)
    | put t q v p =>
      simp only [AtMost] at ham
      refine ⟨⟨todo.erase q, hn.erase q, fun a ha => hsub (List.mem_of_mem_erase ha), ham.2, ?_⟩,
        ?_, ?_⟩
      · intro q' t' v' hm
        simp only [List.mem_cons, Act.put.injEq] at hm
        rcases hm with ⟨rfl, rfl, rfl⟩ | hm
        · exact ⟨Nat.le_refl _, fun _ hq => ((List.Nodup.mem_erase_iff hn).1 hq).1 rfl⟩
        · obtain ⟨h3, h4⟩ := hp q' t' v' hm
          exact ⟨h3, fun e hq => h4 e ((List.Nodup.mem_erase_iff hn).1 hq).2⟩
      · intro q' t' v' hm
        simp only [List.mem_cons, Act.put.injEq] at hm
        rcases hm with ⟨rfl, rfl, rfl⟩ | hm
        · exact hsub ham.1
        · exact hown _ _ _ hm
      · intro q' t' v1 v2 hm1 hm2
        simp only [List.mem_cons, Act.put.injEq] at hm1 hm2
        rcases hm1 with ⟨rfl, rfl, rfl⟩ | hm1
        · rcases hm2 with ⟨-, -, rfl⟩ | hm2
          · rfl
          · exact absurd ham.1 ((hp _ _ _ hm2).2 rfl)
        · rcases hm2 with ⟨rfl, rfl, rfl⟩ | hm2
          · exact absurd ham.1 ((hp _ _ _ hm1).2 rfl)
          · exact huniq _ _ _ _ hm1 hm2
    | next t s ht =>
      refine ⟨⟨owned i, W.nodup i, fun _ h => h, hstart _ _, ?_⟩, ?_, ?_⟩
      · intro q' t' v' hm
        have := hp q' t' v' (by simpa using hm)
        simp only at this ⊢
        exact ⟨by omega, by omega⟩
      · intro q' t' v' hm; exact hown q' t' v' (by simpa using hm)
      · intro q' t' v1 v2 hm1 hm2
        exact huniq q' t' v1 v2 (by simpa using hm1) (by simpa using hm2)

theorem Step.hist_mono {N : Net I Q V σ} {s s' : St I Q V σ} (h : Step N s s') (i : I) :
    s.hist i ⊆ s'.hist i := by
  cases h with
  | thread j a th' que' hl he =>
    intro x hx
    by_cases hij : i = j
    · simp [hij]; right; simpa [hij] using hx
    · simpa [hij] using hx
  | _ => exact fun _ h => h

/-- Queue contents come from published values; keys stay unique; capacity is constant. -/
theorem Reach.store {N : Net I Q V σ} {s : St I Q V σ} (h : Reach N s) :
    (∀ q, (s.que q).items.keys.Nodup ∧ (s.que q).maxsize = N.cap q) ∧
    (∀ q t v, (s.que q).items.get? t = some v → Published s q t v) ∧
    (∀ i q t v, Act.got q t v ∈ s.hist i → Published s q t v) := by
  induction h with
  | init =>
    simp [Net.initial, DQ.new, Dict.keys, Dict.get?]
  | step hr st ih =>
    obtain ⟨hk, hs, hg⟩ := ih
    have hmono : ∀ q t v, Published _ q t v → Published _ q t v :=
      fun q t v ⟨i, hi⟩ => ⟨i, st.hist_mono i hi⟩
    cases st with
    | thread j a th' que' hl he =>
      cases a with
      | got q t v =>
        rw [effect_got] at he
        obtain ⟨he, rfl⟩ := he
        refine ⟨hk, fun q t v h => hmono q t v (hs q t v h), ?_⟩
        intro i q' t' v' hm
        by_cases hij : i = j
        · subst hij
          simp only [if_true, List.mem_cons, Act.got.injEq] at hm
          rcases hm with ⟨rfl, rfl, rfl⟩ | hm
          · exact hmono _ _ _ (hs _ _ _ he)
          · exact hmono _ _ _ (hg _ _ _ _ hm)
        · simp only [hij, if_false] at hm
          exact hmono _ _ _ (hg _ _ _ _ hm)
      | put q t v =>
        rw [effect_put] at he
        obtain ⟨he, rfl⟩ := he
        refine ⟨?_, ?_, ?_⟩
        · intro q'
          by_cases hq : q' = q
          · subst hq
            simp only [if_true, DQ.store]
            exact ⟨Dict.nodup_set _ (hk _).1 _ _, (hk _).2⟩
          · simpa [hq] using hk q'
        · intro q' t' v' hv
          by_cases hq : q' = q
          · subst hq
            simp only [if_true, DQ.store, Dict.get?_set] at hv
            split at hv
            · cases hv; subst_vars
              exact ⟨j, by simp⟩
            · exact hmono _ _ _ (hs _ _ _ hv)
          · simp only [hq, if_false] at hv
            exact hmono _ _ _ (hs _ _ _ hv)
        · intro i q' t' v' hm
          apply hmono
          apply hg i
          by_cases hij : i = j
          · subst hij; simpa using hm
          · simpa [hij] using hm
      | next =>
        simp only [effect] at he
        subst he
        refine ⟨hk, fun q t v h => hmono q t v (hs q t v h), ?_⟩
        intro i q' t' v' hm
        apply hmono
        apply hg i
        by_cases hij : i = j
        · subst hij; simpa using hm
        · simpa [hij] using hm
    | clGet => exact ⟨hk, hs, hg⟩
    | clTurn => exact ⟨hk, hs, hg⟩
    | clNext => exact ⟨hk, hs, hg⟩
    | clClean n q ht hp hq =>
      refine ⟨?_, ?_, hg⟩
      · intro q'
        by_cases hq : q' = q
        · subst hq
          simp only [if_true, Queue.step]
          exact ⟨Dict.nodup_del _ (hk _).1 _, (hk _).2⟩
        · simpa [hq] using hk q'
      · intro q' t' v' hv
        by_cases hq : q' = q
        · subst hq
          simp only [if_true, Queue.step] at hv
          rw [Dict.get?_del _ (hk _).1] at hv
          split at hv
          · cases hv
          · exact hs _ _ _ hv
        · simp only [hq, if_false] at hv
          exact hs _ _ _ hv

omit [DecidableEq I] [DecidableEq Q] in
/-- Local histories do not depend on capacities or on the cleaner. -/
theorem Hist.forget {N : Net I Q V σ} {c : Q → Int} {w : List Q} {i : I} {h th}
    (hh : Hist { N with cap := c, watched := w } i h th) : Hist N i h th := by
  induction hh with
  | nil => exact .nil
  | cons _ l ih =>
    refine .cons ih ?_
    cases l with
    | got => exact .got ..
    | put => exact .put ..
    | next _ _ h => exact .next _ _ h

/-- Histories of the same thread in two executions, possibly with different
capacities and cleaned queues, are comparable. -/
theorem compat {N : Net I Q V σ} {owned : I → List Q} (W : SingleWriter N owned)
    {c : Q → Int} {w : List Q} {s1 s2 : St I Q V σ} (h1 : Reach N s1)
    (h2 : Reach { N with cap := c, watched := w } s2) (i : I) :
    s1.hist i <:+ s2.hist i ∨ s2.hist i <:+ s1.hist i := by
  induction h1 generalizing i with
  | init => exact .inl (List.nil_suffix)
  | @step s s' hr st ih =>
    cases st with
    | thread j a th' que' hl he =>
      by_cases hij : i = j
      · subst hij
        simp only [if_true]
        rcases ih i with hc | hc
        · obtain ⟨l, hl2⟩ := hc
          rcases List.eq_nil_or_concat l with rfl | ⟨l', b, rfl⟩
          · right; rw [← hl2]; simp
          · left
            have hb : a = b := by
              have hist2 := (h2.hist i).forget
              rw [← hl2] at hist2
              simp only [List.concat_eq_append, List.append_assoc, List.cons_append,
                List.nil_append] at hist2
              obtain ⟨th2, hist3⟩ := hist2.suffix
              cases hist3 with
              | cons hist4 l4 =>
                have := hist4.det (hr.hist i); subst this
                rcases hl.act l4 with h | ⟨q, t, v, v', rfl, rfl⟩
                · exact h
                · rw [effect_got] at he
                  obtain ⟨j1, p1⟩ := hr.store.2.1 _ _ _ he.1
                  obtain ⟨j2, p2⟩ := h2.store.2.2 i q t v' (by rw [← hl2]; simp)
                  have hj : j1 = j2 := W.disjoint _ _ q
                    ((hr.hist j1).puts W |>.2.1 _ _ _ p1) ((h2.hist j2).forget.puts W |>.2.1 _ _ _ p2)
                  subst hj
                  have hv : v = v' := by
                    rcases ih j1 with hc | hc
                    · exact ((h2.hist j1).forget.puts W).2.2 _ _ _ _ (hc.subset p1) p2
                    · exact ((hr.hist j1).puts W).2.2 _ _ _ _ p1 (hc.subset p2)
                  rw [hv]
            subst hb
            exact ⟨l', by rw [← hl2]; simp⟩
        · right; exact hc.trans (List.suffix_cons _ _)
      · simpa [hij] using ih i
    | _ => exact ih i

end Verif.Pipeline
