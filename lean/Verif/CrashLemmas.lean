import Verif.Crash
import Verif.NetworkProps
import Verif.PipelineProps

/-! Helper lemmas for runs in which threads die (C136). -/

namespace Verif.Crash
open Verif.Queue Verif.Pipeline

variable {I Q V σ : Type} [DecidableEq I] [DecidableEq Q]
variable {N : Net I Q V σ} {T : Option Nat} {R : I → Nat → Prop}

/-- Underneath, a run with accidents is a run without them that has stopped moving some threads. -/
theorem CStep.under {c c' : CSt I Q V σ} (h : CStep N T R c c') :
    c'.st = c.st ∨ Step N c.st c'.st := by
  cases h with
  | thread i a th' que' hf hl he => exact .inr (.thread _ i a th' que' hl he)
  | cleaner s' hf hs hh => exact .inr hs
  | _ => exact .inl rfl

theorem CSteps.steps {c c' : CSt I Q V σ} (h : CSteps N T R c c') : Steps N c.st c'.st := by
  induction h with
  | refl => exact .refl _
  | tail _ st ih =>
    rcases st.under with h | h
    · rw [h]; exact ih
    · exact ih.tail h

theorem CReach.reach {c : CSt I Q V σ} (h : CReach N T R c) : Reach N c.st :=
  h.steps.reach .init

theorem CSteps.trans {c c' c'' : CSt I Q V σ} (h : CSteps N T R c c') (h' : CSteps N T R c' c'') :
    CSteps N T R c c'' := by
  induction h' with
  | refl => exact h
  | tail _ st ih => exact ih.tail st

theorem CReachIn.reach {n : Nat} {c : CSt I Q V σ} (h : CReachIn N T R n c) : CReach N T R c := by
  induction h with
  | init => exact .refl _
  | step _ st ih => exact CSteps.tail ih st

theorem CReach.toIn {c : CSt I Q V σ} (h : CReach N T R c) : ∃ n, CReachIn N T R n c := by
  unfold CReach at h
  induction h with
  | refl => exact ⟨0, .init⟩
  | tail _ st ih => obtain ⟨n, hn⟩ := ih; exact ⟨_, hn.step st⟩

/-- A dead thread stays where it is. -/
theorem CStep.dead {c c' : CSt I Q V σ} (h : CStep N T R c c') {i : I} (hi : c.fate i ≠ .running) :
    c'.fate i = c.fate i ∧ c'.st.hist i = c.st.hist i ∧ c'.st.thr i = c.st.thr i := by
  cases h with
  | thread j a th' que' hf hl he =>
    have : i ≠ j := by rintro rfl; exact hi hf
    simp [this]
  | cleaner s' hf hs hh =>
    refine ⟨rfl, by simp [hh], ?_⟩
    simp only
    cases hs with
    | thread j a th' que' hl he =>
      have := congrFun hh j
      simp at this
    | _ => rfl
  | raise j hf ht hr =>
    have : i ≠ j := by rintro rfl; exact hi hf
    simp [CSt.kill, this]
  | outGet j d e q k hT hf hp hx =>
    have : i ≠ j := by rintro rfl; exact hi hf
    simp [CSt.kill, this]
  | outPut j d e q v p hT hf hp hx =>
    have : i ≠ j := by rintro rfl; exact hi hf
    simp [CSt.kill, this]
  | outClean d e n q hT hf ht hp hq hx => exact ⟨rfl, rfl, rfl⟩

theorem CSteps.dead {c c' : CSt I Q V σ} (h : CSteps N T R c c') {i : I}
    (hi : c.fate i ≠ .running) :
    c'.fate i = c.fate i ∧ c'.st.hist i = c.st.hist i ∧ c'.st.thr i = c.st.thr i := by
  induction h with
  | refl => exact ⟨rfl, rfl, rfl⟩
  | tail _ st ih =>
    obtain ⟨h1, h2, h3⟩ := ih
    obtain ⟨g1, g2, g3⟩ := st.dead (i := i) (by rw [h1]; exact hi)
    exact ⟨g1.trans h1, g2.trans h2, g3.trans h3⟩

/-- Without a time-out the cleaner does not die. -/
theorem CSteps.cleaner_lives {c c' : CSt I Q V σ} (h : CSteps N none R c c')
    (hc : c.clFate = .running) : c'.clFate = .running := by
  induction h with
  | refl => exact hc
  | tail _ st ih =>
    cases st with
    | outClean d e n q hT => cases hT
    | cleaner s' hf => exact hf
    | _ => exact ih

/-- A thread that an exception has ended was working on a date at which its code may raise; without a
time-out there is no other way to die. -/
theorem CReach.raised_at {c : CSt I Q V σ} (h : CReach N T R c) (i : I) :
    (c.fate i = .raised → R i (c.st.thr i).t) ∧ (T = none → c.fate i ≠ .exited) := by
  unfold CReach at h
  induction h with
  | refl => simp [start]
  | @tail c c' _ st ih =>
    by_cases hi : c.fate i = .running
    · cases st with
      | thread j a th' que' hf hl he => simp [hi]
      | cleaner s' hf hs hh => simp [hi]
      | raise j hf ht hr =>
        by_cases hij : i = j
        · subst hij; simpa [CSt.kill] using hr
        · simp [CSt.kill, hij, hi]
      | outGet j d e q k hT hf hp hx => subst hT; by_cases hij : i = j <;> simp [CSt.kill, hij, hi]
      | outPut j d e q v p hT hf hp hx => subst hT; by_cases hij : i = j <;> simp [CSt.kill, hij, hi]
      | outClean d e n q hT hf ht hp hq hx => simp [hi]
    · obtain ⟨h1, -, h3⟩ := st.dead hi
      rw [h1, h3]; exact ih

/-- What a dead thread had not published stays unpublished. -/
theorem CSteps.never {owned : I → List Q} (W : SingleWriter N owned) {c c' : CSt I Q V σ}
    (hr : CReach N T R c) (h : CSteps N T R c c') {i : I} (hi : c.fate i ≠ .running) {q : Q}
    (hq : q ∈ owned i) (hnp : ∀ v, Act.put q (c.st.thr i).t v ∉ c.st.hist i) {t : Nat}
    (ht : (c.st.thr i).t ≤ t) (v : V) : ¬ Published c'.st q t v := by
  rintro ⟨j, hj⟩
  have hr' : Reach N c'.st := CReach.reach (CSteps.trans hr h)
  have hp := (hr'.hist j).puts W
  have := W.disjoint _ _ _ (hp.2.1 _ _ _ hj) hq
  subst this
  obtain ⟨-, h2, h3⟩ := h.dead hi
  obtain ⟨⟨todo, -, -, -, h4⟩, -⟩ := hp
  have := (h4 _ _ _ hj).1
  rw [h3] at this
  have : t = (c.st.thr j).t := Nat.le_antisymm this ht
  subst this
  rw [h2] at hj
  exact hnp v hj

/-- Then the cleaner does not get past the date at which the thread died. -/
theorem CSteps.cleaner_stuck {owned : I → List Q} (W : SingleWriter N owned) {c c' : CSt I Q V σ}
    (hr : CReach N T R c) (h : CSteps N T R c c') {i : I} (hi : c.fate i ≠ .running) {q : Q}
    (hq : q ∈ owned i) (hw : q ∈ N.watched)
    (hnp : ∀ v, Act.put q (c.st.thr i).t v ∉ c.st.hist i) :
    c'.st.clT ≤ (c.st.thr i).t ∧
      (c'.st.clT = (c.st.thr i).t → ∀ n, c'.st.clPhase ≠ .cleaning n) := by
  have hr' : Reach N c'.st := CReach.reach (CSteps.trans hr h)
  obtain ⟨h1, -, h3⟩ := Network.cleaner_published hr'
  constructor
  · by_contra hlt
    obtain ⟨v, hv⟩ := h1 (c.st.thr i).t (by omega) q hw
    exact h.never W hr hi hq hnp (Nat.le_refl _) v hv
  · intro he n hn
    obtain ⟨v, hv⟩ := h3 n hn q hw
    rw [he] at hv
    exact h.never W hr hi hq hnp (Nat.le_refl _) v hv

/-- Queues with a bound keep to it. -/
theorem size_le {s : St I Q V σ} (h : Reach N s) (q : Q) (hc : 0 < N.cap q) :
    ((s.que q).items.length : Int) ≤ N.cap q := by
  induction h with
  | init => simp [Net.initial, DQ.new]; omega
  | @step s s' hr st ih =>
    have hst := hr.store.1
    cases st with
    | thread j a th' que' hl he =>
      cases a with
      | got q' t v => rw [effect_got] at he; obtain ⟨-, rfl⟩ := he; exact ih
      | next => simp only [effect] at he; subst he; exact ih
      | put q' t v =>
        rw [effect_put] at he
        obtain ⟨hn, rfl⟩ := he
        by_cases hq : q = q'
        · subst hq
          simp only [if_true, DQ.store]
          rw [(hst q).2] at hn
          simp only [DQ.qsize] at hn
          have hk := Dict.keys_set (s.que q).items t v
          have hlen : ((s.que q).items.set t v).length ≤ (s.que q).items.length + 1 := by
            have h1 := congrArg List.length hk
            have h2 : ∀ d : Dict Nat V, d.keys.length = d.length := fun d => by simp [Dict.keys]
            rw [h2] at h1
            rw [h1, ← h2 (s.que q).items]
            split <;> simp
          have : ((s.que q).items.length : Int) ≠ N.cap q := fun h => hn ⟨hc, h⟩
          omega
        · simp only [hq, if_false]; exact ih
    | clClean n q' ht hp hq =>
      by_cases hqq : q = q'
      · subst hqq
        simp only [if_true, Queue.step]
        have := (Dict.keys_del_sublist (s.que q).items s.clT).length_le
        simp only [Dict.keys, List.length_map] at this
        omega
      · simp only [hqq, if_false]; exact ih
    | _ => exact ih

/-- A list that holds `a, a+1, …, b-1` has at least `b - a` entries. -/
theorem length_ge_of_range (l : List Nat) (a b : Nat) (h : ∀ u, a ≤ u → u < b → u ∈ l) :
    b ≤ a + l.length := by
  have : (List.range' a (b - a)).Subperm l :=
    List.subperm_of_subset List.nodup_range' (fun u hu => by
      rw [List.mem_range'_1] at hu
      exact h u hu.1 (by omega))
  have := this.length_le
  simp at this
  omega

/-- Number of dead threads, the cleaner included. -/
def deaths [Fintype I] (c : CSt I Q V σ) : Nat :=
  (∑ i, if c.fate i = .running then 0 else 1) + if c.clFate = .running then 0 else 1

theorem deaths_kill [Fintype I] (c : CSt I Q V σ) (i : I) (f : Fate) (hi : c.fate i = .running)
    (hf : f ≠ .running) : deaths (c.kill i f) = deaths c + 1 := by
  have : (∑ j, if (c.kill i f).fate j = .running then 0 else 1) =
      (∑ j, if c.fate j = .running then 0 else 1) + 1 := by
    have h1 : ∀ j, (if (c.kill i f).fate j = .running then 0 else 1) =
        (if c.fate j = .running then 0 else 1) + if j = i then 1 else 0 := by
      intro j
      by_cases hj : j = i
      · subst hj; simp [CSt.kill, hi, hf]
      · simp [CSt.kill, hj]
    simp only [h1, Finset.sum_add_distrib, Finset.sum_ite_eq', Finset.mem_univ, if_true]
  have h2 : (c.kill i f).clFate = c.clFate := rfl
  simp only [deaths, this, h2]
  omega

omit [DecidableEq I] [DecidableEq Q] in
theorem deaths_le [Fintype I] (c : CSt I Q V σ) : deaths c ≤ Fintype.card I + 1 := by
  have : (∑ i, if c.fate i = .running then 0 else 1) ≤ Fintype.card I := by
    have := Finset.sum_le_card_nsmul Finset.univ
      (fun i => if c.fate i = .running then 0 else 1) 1 (by intro i _; split <;> simp)
    simpa using this
  unfold deaths
  split <;> omega

/-- Steps are steps underneath plus deaths. -/
theorem CReachIn.count [Fintype I] {n : Nat} {c : CSt I Q V σ} (h : CReachIn N T R n c) :
    ∃ m, ReachIn N m c.st ∧ n = m + deaths c := by
  induction h with
  | init => exact ⟨0, .init, by simp [start, deaths]⟩
  | @step n c c' _ st ih =>
    obtain ⟨m, hm, hn⟩ := ih
    cases st with
    | thread i a th' que' hf hl he =>
      refine ⟨m + 1, hm.step (.thread _ i a th' que' hl he), ?_⟩
      simp only [deaths] at hn ⊢; omega
    | cleaner s' hf hs hh =>
      refine ⟨m + 1, hm.step hs, ?_⟩
      simp only [deaths] at hn ⊢; omega
    | raise i hf ht hr =>
      exact ⟨m, hm, by rw [deaths_kill _ _ _ hf (by decide)]; omega⟩
    | outGet i d e q k hT hf hp hx =>
      exact ⟨m, hm, by rw [deaths_kill _ _ _ hf (by decide)]; omega⟩
    | outPut i d e q v p hT hf hp hx =>
      exact ⟨m, hm, by rw [deaths_kill _ _ _ hf (by decide)]; omega⟩
    | outClean d e k q hT hf ht hp hq hx =>
      refine ⟨m, hm, ?_⟩
      simp only [deaths, hf] at hn ⊢
      simp at hn ⊢
      omega

/-- With a time-out a living thread that is not through can do something without raising. -/
theorem live_moves {d : Nat} {c : CSt I Q V σ} {i : I} (hf : c.fate i = .running)
    (ht : (c.st.thr i).t < N.steps) :
    ∃ c', CStep N (some d) (fun _ _ => False) c c' := by
  generalize hth : c.st.thr i = th at ht
  obtain ⟨t, p⟩ := th
  simp only at ht
  cases p with
  | ret x =>
    exact ⟨_, .thread c i .next _ c.st.que hf (by rw [hth]; exact .next t x ht) rfl⟩
  | get q k =>
    cases hv : (c.st.que q).items.get? t with
    | some v =>
      exact ⟨_, .thread c i (.got q t v) _ c.st.que hf (by rw [hth]; exact .got t q k v)
        ((effect_got _ _ _ _ _).2 ⟨hv, rfl⟩)⟩
    | none =>
      refine ⟨_, .outGet c i d d q k rfl hf (by rw [hth]) ?_⟩
      rw [hth]; simp [Queue.step, getLoop, hv]
  | put q v p =>
    by_cases hfull : (c.st.que q).maxsize > 0 ∧ (c.st.que q).qsize = (c.st.que q).maxsize
    · refine ⟨_, .outPut c i d d q v p rfl hf (by rw [hth]) ?_⟩
      rw [hth]; simp [Queue.step, putLoop, hfull.1, hfull.2]
    · exact ⟨_, .thread c i (.put q t v) _ _ hf (by rw [hth]; exact .put t q v p)
        ((effect_put _ _ _ _ _).2 ⟨hfull, rfl⟩)⟩

/-- With a time-out a living cleaner that is not through can do something. -/
theorem cleaner_moves {d : Nat} {c : CSt I Q V σ} (hf : c.clFate = .running)
    (ht : c.st.clT < N.steps) : ∃ c', CStep N (some d) (fun _ _ => False) c c' := by
  cases hph : c.st.clPhase with
  | getting n =>
    cases hq : N.watched[n]? with
    | none => exact ⟨_, .cleaner c _ hf (Step.clTurn c.st n ht hph hq) rfl⟩
    | some q =>
      cases hv : (c.st.que q).items.get? c.st.clT with
      | some v =>
        exact ⟨_, .cleaner c _ hf (Step.clGet c.st n q v ht hph hq ((getWake_value _ _ _).2 hv)) rfl⟩
      | none =>
        refine ⟨_, .outClean c d d n q rfl hf ht hph hq ?_⟩
        simp [Queue.step, getLoop, hv]
  | cleaning n =>
    cases hq : N.watched[n]? with
    | none => exact ⟨_, .cleaner c _ hf (Step.clNext c.st n ht hph hq) rfl⟩
    | some q => exact ⟨_, .cleaner c _ hf (Step.clClean c.st n q ht hph hq) rfl⟩

/-- Fewer accidents, fewer steps. -/
theorem CStep.mono {R' : I → Nat → Prop} (hR : ∀ i t, R i t → R' i t) {c c' : CSt I Q V σ}
    (h : CStep N T R c c') : CStep N T R' c c' := by
  cases h with
  | thread i a th' que' hf hl he => exact .thread c i a th' que' hf hl he
  | cleaner s' hf hs hh => exact .cleaner c s' hf hs hh
  | raise i hf ht hr => exact .raise c i hf ht (hR _ _ hr)
  | outGet i d e q k hT hf hp hx => exact .outGet c i d e q k hT hf hp hx
  | outPut i d e q v p hT hf hp hx => exact .outPut c i d e q v p hT hf hp hx
  | outClean d e n q hT hf ht hp hq hx => exact .outClean c d e n q hT hf ht hp hq hx

/-- As `Inv.can_move`, with the thread that moves: it has not got past the cleaner's date. -/
theorem can_move_who {N : Net I Q V σ} {owned : I → List Q} {rank : Q → Nat}
    (W : WF N owned rank) {s : St I Q V σ} {todo : I → List Q}
    (hr : Reach N s) (inv : Inv N owned rank s todo) (n : Nat) (hph : s.clPhase = .getting n)
    (hT : s.clT < N.steps) :
    ∀ r q, rank q = r → (∃ i, q ∈ owned i) → ¬ Done N owned todo s.thr q s.clT →
      ∃ i a th' que', (s.thr i).t ≤ s.clT ∧ LStep N i (s.thr i) a th' ∧ effect s.que a que' := by
  intro r
  induction r using Nat.strongRecOn with
  | _ r ih =>
    rintro q rfl ⟨i, hi⟩ hnd
    have hle : (s.thr i).t ≤ s.clT := by
      rcases Nat.lt_or_ge s.clT (s.thr i).t with h | h
      · exact absurd ⟨i, hi, .inl h⟩ hnd
      · exact h
    have hlt : (s.thr i).t < N.steps := Nat.lt_of_le_of_lt hle hT
    have hwf := inv.wf i hlt
    generalize hth : s.thr i = th at *
    obtain ⟨t, p⟩ := th
    simp only at *
    cases p with
    | ret x => exact ⟨i, .next, _, s.que, by rw [hth]; exact hle, by rw [hth]; exact .next t x hlt, rfl⟩
    | put q' v p =>
      refine ⟨i, .put q' t v, _, _, by rw [hth]; exact hle, by rw [hth]; exact .put t q' v p,
        (effect_put _ _ _ _ _).2 ⟨?_, rfl⟩⟩
      rintro ⟨hc, hfull⟩
      rw [hr.store.1 q' |>.2] at hc hfull
      by_cases hw : q' ∈ N.watched
      · -- watched queue of the owner: it is empty
        simp only [WFProg] at hwf
        have hown : q' ∈ owned i := inv.tsub i hwf.1
        have hnd' : ∀ t', ¬ (Done N owned todo s.thr q' t' ∧ ¬ Gone N s.clT s.clPhase q' t') := by
          rintro t' ⟨⟨j, hj, h⟩, hg⟩
          have := W.disjoint _ _ _ hj hown; subst this
          rw [hth] at h
          simp only at h
          rcases h with h | ⟨_, _, h⟩
          · exact hg (.inl ⟨by omega, hw⟩)
          · exact h hwf.1
        have hempty : (s.que q').items = [] := by
          cases hit : (s.que q').items with
          | nil => rfl
          | cons a l =>
            exfalso
            apply hnd' a.1
            rw [← inv.store]
            refine ⟨a.2, ?_⟩
            rw [hit]
            simp [Dict.get?]
        simp only [DQ.qsize, hempty, List.length_nil] at hfull
        omega
      · simp only [WFProg] at hwf
        have := W.unwatched_unbounded i q' (inv.tsub i hwf.1) hw
        omega
    | get q' k =>
      obtain ⟨h1, h2⟩ := inv.get_not_past W i q' k (by rw [hth])
      rw [hth] at h1
      simp only at h1
      have htt : t = s.clT := by omega
      subst htt
      simp only [WFProg] at hwf
      by_cases hd : Done N owned todo s.thr q' s.clT
      · have hng : ¬ Gone N s.clT s.clPhase q' s.clT := by
          rintro (⟨h, _⟩ | ⟨_, m, hm, _⟩)
          · omega
          · rw [hph] at hm; cases hm
        obtain ⟨v, hv⟩ := (inv.store q' s.clT).2 ⟨hd, hng⟩
        exact ⟨i, .got q' s.clT v, _, s.que, by rw [hth], by rw [hth]; exact .got _ q' k v,
          (effect_got _ _ _ _ _).2 ⟨hv, rfl⟩⟩
      · refine ih (rank q') (hwf.2.1 q ?_) q' rfl hwf.1 hd
        by_contra hq
        exact hnd ⟨i, hi, .inr ⟨by rw [hth], hlt, hq⟩⟩

/-- Every path of the program reads `q` before it puts anything or ends. -/
def ReadsFirst (q : Q) : Prog Q V σ → Prop
  | .ret _ => False
  | .get q' k => q' = q ∨ ∀ v, ReadsFirst q (k v)
  | .put _ _ _ => False

/-- A thread that reads `q` first at every date has read it at every date it is through with or has put
something at. -/
theorem Hist.readsFirst {q : Q} {i : I} (hq : ∀ s t, t < N.steps → ReadsFirst q (N.body i s t))
    {h : List (Act Q V)} {th : Thr Q V σ} (hh : Hist N i h th) :
    (∀ t < th.t, ∃ v, Act.got q t v ∈ h) ∧
    (th.t < N.steps → (∃ v, Act.got q th.t v ∈ h) ∨ ReadsFirst q th.p) ∧
    ((∃ x, th.p = .ret x) ∨ th.t < N.steps) ∧
    (∀ q' t v, Act.put q' t v ∈ h → ∃ v, Act.got q t v ∈ h) := by
  induction hh with
  | nil =>
    refine ⟨by simp, ?_, ?_, by simp⟩
    · intro ht; right
      simp only at ht
      simp only [Net.start, ht, if_true]
      exact hq _ _ ht
    · by_cases h : 0 < N.steps
      · exact .inr h
      · left; simp [Net.start, h]
  | cons h1 l ih =>
    obtain ⟨i1, i2, i3, i4⟩ := ih
    cases l with
    | got t q' k v =>
      simp only at *
      refine ⟨fun t' ht' => (i1 t' ht').imp fun _ h => List.mem_cons_of_mem _ h, ?_, ?_, ?_⟩
      · intro ht
        rcases i2 ht with ⟨w, hw⟩ | hrf
        · exact .inl ⟨w, List.mem_cons_of_mem _ hw⟩
        · rcases hrf with rfl | hrf
          · exact .inl ⟨v, List.mem_cons_self⟩
          · exact .inr (hrf v)
      · rcases i3 with ⟨x, hx⟩ | h
        · cases hx
        · exact .inr h
      · intro q2 t2 v2 hm
        simp only [List.mem_cons, reduceCtorEq, false_or] at hm
        exact (i4 _ _ _ hm).imp fun _ h => List.mem_cons_of_mem _ h
    | put t q' v p =>
      simp only at *
      have ht : t < N.steps := by
        rcases i3 with ⟨x, hx⟩ | h
        · cases hx
        · exact h
      have hg : ∃ w, Act.got q t w ∈ _ := (i2 ht).resolve_right (by simp [ReadsFirst])
      refine ⟨fun t' ht' => (i1 t' ht').imp fun _ h => List.mem_cons_of_mem _ h, ?_, .inr ht, ?_⟩
      · intro _; exact .inl (hg.imp fun _ h => List.mem_cons_of_mem _ h)
      · intro q2 t2 v2 hm
        rw [List.mem_cons] at hm
        rcases hm with hm | hm
        · cases hm; exact hg.imp fun _ h => List.mem_cons_of_mem _ h
        · exact (i4 _ _ _ hm).imp fun _ h => List.mem_cons_of_mem _ h
    | next t x hlt =>
      simp only at *
      have hg : ∃ w, Act.got q t w ∈ _ := (i2 hlt).resolve_right (by simp [ReadsFirst])
      refine ⟨?_, ?_, ?_, ?_⟩
      · intro t' ht'
        rcases Nat.lt_or_ge t' t with h | h
        · exact (i1 t' h).imp fun _ h => List.mem_cons_of_mem _ h
        · have : t' = t := by omega
          subst this; exact hg.imp fun _ h => List.mem_cons_of_mem _ h
      · intro ht; right
        simp only [Net.start, ht, if_true]
        exact hq _ _ ht
      · by_cases h : t + 1 < N.steps
        · exact .inr h
        · left; simp [Net.start, h]
      · intro q2 t2 v2 hm
        simp only [List.mem_cons, reduceCtorEq, false_or] at hm
        exact (i4 _ _ _ hm).imp fun _ h => List.mem_cons_of_mem _ h

theorem readsFirst_getAll (q : Q) (qs : List Q) (hq : q ∈ qs) (env : Q → Option V)
    (k : (Q → Option V) → Prog Q V σ) : ReadsFirst q (Network.getAll qs env k) := by
  induction qs generalizing env with
  | nil => simp at hq
  | cons a qs ih =>
    simp only [Network.getAll, ReadsFirst]
    by_cases ha : a = q
    · exact .inl ha
    · right
      intro v
      exact ih (by simpa [Ne.symm ha] using hq) _

end Verif.Crash
