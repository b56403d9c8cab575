import Verif.PipelineDet

/-! The serial driver on the same thread bodies, and helper lemmas showing that it is one
particular execution of the threaded system (C06). -/

namespace Verif.Pipeline
open Verif.Queue

variable {I Q V σ : Type} [DecidableEq I] [DecidableEq Q]

/-- Run one module for one date with the values published so far at that date in `env`
(`distribute_single_timestep`, model_framework.py 404-484: modules are called one after the other
and read each other's attributes). `none` when the module needs a value that is not there. -/
def runProg (env : Q → Option V) : Prog Q V σ → Option (σ × (Q → Option V))
  | .ret s => some (s, env)
  | .get q k => match env q with
    | none => none
    | some v => runProg env (k v)
  | .put q v p => runProg (fun q' => if q' = q then some v else env q') p

/-- All modules in `order` for one date. -/
def serialDate (N : Net I Q V σ) (t : Nat) :
    List I → (I → σ) → (Q → Option V) → Option ((I → σ) × (Q → Option V))
  | [], st, env => some (st, env)
  | i :: is, st, env => match runProg env (N.body i (st i) t) with
    | none => none
    | some (x, env') => serialDate N t is (fun j => if j = i then x else st j) env'

/-- Module states after `n` dates of the serial loop (model_framework.py 365-402). -/
def serialRun (N : Net I Q V σ) (order : List I) : Nat → Option (I → σ)
  | 0 => some N.init
  | n + 1 => match serialRun N order n with
    | none => none
    | some st => match serialDate N n order st (fun _ => none) with
      | none => none
      | some (st', _) => some st'

/-- The value the serial loop computes for variable `q` at date `t`. -/
def serialValue (N : Net I Q V σ) (order : List I) (t : Nat) (q : Q) : Option V :=
  match serialRun N order t with
  | none => none
  | some st => match serialDate N t order st (fun _ => none) with
    | none => none
    | some (_, env) => env q

/-- Unbounded queues and no cleaner. -/
def Net.free (N : Net I Q V σ) : Net I Q V σ := { N with cap := fun _ => 0, watched := [] }

omit [DecidableEq I] in
theorem SingleWriter.free {N : Net I Q V σ} {owned : I → List Q} (W : SingleWriter N owned) :
    SingleWriter N.free owned := ⟨W.nodup, W.disjoint, W.atMost⟩

theorem published_unique {N : Net I Q V σ} {owned : I → List Q} (W : SingleWriter N owned)
    {s : St I Q V σ} (h : Reach N s) {q : Q} {t : Nat} {v v' : V}
    (h1 : Published s q t v) (h2 : Published s q t v') : v = v' := by
  obtain ⟨i, h1⟩ := h1
  obtain ⟨j, h2⟩ := h2
  have := W.disjoint _ _ q ((h.hist i).puts W |>.2.1 _ _ _ h1) ((h.hist j).puts W |>.2.1 _ _ _ h2)
  subst this
  exact ((h.hist i).puts W).2.2 _ _ _ _ h1 h2

/-- `env` describes exactly what is published, and available, at date `t`. -/
def Sync (s : St I Q V σ) (t : Nat) (env : Q → Option V) : Prop :=
  ∀ q v, (env q = some v ↔ Published s q t v) ∧
    (Published s q t v → (s.que q).items.get? t = some v)

theorem sim_prog {N : Net I Q V σ} {owned : I → List Q} (W : SingleWriter N owned) (i : I) (t : Nat)
    (p : Prog Q V σ) : ∀ (s : St I Q V σ) (env env' : Q → Option V) (x : σ), Reach N.free s →
      s.thr i = ⟨t, p⟩ → Sync s t env → runProg env p = some (x, env') →
      ∃ s', Reach N.free s' ∧ s'.thr i = ⟨t, .ret x⟩ ∧ (∀ j, j ≠ i → s'.thr j = s.thr j) ∧
        Sync s' t env' ∧ ∀ q t' v, t' ≠ t → (Published s' q t' v ↔ Published s q t' v) := by
  induction p with
  | ret x' =>
    intro s env env' x hr hth hs hp
    simp only [runProg, Option.some.injEq, Prod.mk.injEq] at hp
    obtain ⟨rfl, rfl⟩ := hp
    exact ⟨s, hr, hth, fun _ _ => rfl, hs, fun _ _ _ _ => Iff.rfl⟩
  | get q k ih =>
    intro s env env' x hr hth hs hp
    simp only [runProg] at hp
    split at hp
    · cases hp
    · rename_i v hv
      have hst : Step N.free s _ := Step.thread s i (.got q t v) ⟨t, k v⟩ s.que
        (by rw [hth]; exact .got t q k v)
        ((effect_got _ _ _ _ _).2 ⟨(hs q v).2 ((hs q v).1.1 hv), rfl⟩)
      have hpub : ∀ q' t' v', Published (V := V) (σ := σ) { s with
          thr := fun j => if j = i then ⟨t, k v⟩ else s.thr j
          que := s.que
          hist := fun j => if j = i then .got q t v :: s.hist j else s.hist j } q' t' v' ↔
          Published s q' t' v' := by
        intro q' t' v'
        unfold Published
        apply exists_congr
        intro j
        by_cases hj : j = i <;> simp [hj]
      obtain ⟨s', h1, h2, h3, h4, h5⟩ := ih v _ env env' x (hr.step hst) (by simp)
        (by intro q' v'; rw [hpub]; exact hs q' v') hp
      refine ⟨s', h1, h2, fun j hj => by rw [h3 j hj]; simp [hj], h4, ?_⟩
      intro q' t' v' ht; rw [h5 _ _ _ ht, hpub]
  | put q v p ih =>
    intro s env env' x hr hth hs hp
    simp only [runProg] at hp
    have hst : Step N.free s _ := Step.thread s i (.put q t v) ⟨t, p⟩ _
        (by rw [hth]; exact .put t q v p)
        ((effect_put _ _ _ _ _).2 ⟨by rw [(hr.store.1 q).2]; simp [Net.free], rfl⟩)
    have hpub : ∀ q' t' v', Published (V := V) (σ := σ) { s with
          thr := fun j => if j = i then ⟨t, p⟩ else s.thr j
          que := fun q' => if q' = q then (s.que q).store t v else s.que q'
          hist := fun j => if j = i then .put q t v :: s.hist j else s.hist j } q' t' v' ↔
          (q' = q ∧ t' = t ∧ v' = v) ∨ Published s q' t' v' := by
      intro q' t' v'
      unfold Published
      constructor
      · rintro ⟨j, hj⟩
        by_cases hji : j = i
        · subst hji
          simp only [if_true, List.mem_cons, Act.put.injEq] at hj
          rcases hj with hj | hj
          · exact .inl hj
          · exact .inr ⟨j, hj⟩
        · simp only [hji, if_false] at hj
          exact .inr ⟨j, hj⟩
      · rintro (⟨rfl, rfl, rfl⟩ | ⟨j, hj⟩)
        · exact ⟨i, by simp⟩
        · refine ⟨j, ?_⟩
          by_cases hji : j = i
          · subst hji; simp [hj]
          · simpa [hji] using hj
    have hr' := hr.step hst
    have huniq : ∀ v', Published s q t v' → v' = v := by
      intro v' hv'
      exact published_unique W.free hr' ((hpub q t v').2 (.inr hv'))
        ((hpub q t v).2 (.inl ⟨rfl, rfl, rfl⟩))
    have key := fun hs' => ih _ (fun q' => if q' = q then some v else env q') env' x
      hr' (by simp) hs' hp
    suffices hs' : _ by
      obtain ⟨s', h1, h2, h3, h4, h5⟩ := key hs'
      refine ⟨s', h1, h2, fun j hj => by rw [h3 j hj]; simp [hj], h4, ?_⟩
      intro q' t' v' ht; rw [h5 _ _ _ ht, hpub]
      constructor
      · rintro (⟨_, h, _⟩ | h)
        · exact absurd h ht
        · exact h
      · exact .inr
    · intro q' v'
      rw [hpub]
      by_cases hq : q' = q
      · subst hq
        simp only [if_true, Option.some.injEq, true_and, DQ.store, Dict.get?_set]
        constructor
        · constructor
          · intro h; exact .inl h.symm
          · rintro (h | h)
            · exact h.symm
            · exact (huniq _ h).symm
        · rintro (h | h)
          · rw [h]
          · rw [huniq _ h]
      · simp only [hq, if_false, false_and, false_or]
        exact hs q' v'

theorem sim_date {N : Net I Q V σ} {owned : I → List Q} (W : SingleWriter N owned) (t : Nat)
    (ht : t < N.steps) (order : List I) : ∀ (s : St I Q V σ) (st st' : I → σ)
      (env env' : Q → Option V), order.Nodup → Reach N.free s →
      (∀ i ∈ order, s.thr i = ⟨t, N.start i (st i) t⟩) →
      (∀ i, i ∉ order → s.thr i = ⟨t + 1, N.start i (st i) (t + 1)⟩) → Sync s t env →
      serialDate N t order st env = some (st', env') →
      ∃ s', Reach N.free s' ∧ (∀ i, s'.thr i = ⟨t + 1, N.start i (st' i) (t + 1)⟩) ∧
        Sync s' t env' ∧ ∀ q t' v, t' ≠ t → (Published s' q t' v ↔ Published s q t' v) := by
  induction order with
  | nil =>
    intro s st st' env env' _ hr _ h2 hs hp
    simp only [serialDate, Option.some.injEq, Prod.mk.injEq] at hp
    obtain ⟨rfl, rfl⟩ := hp
    exact ⟨s, hr, fun i => h2 i (by simp), hs, fun _ _ _ _ => Iff.rfl⟩
  | cons i is ih =>
    intro s st st' env env' hnd hr h1 h2 hs hp
    simp only [serialDate] at hp
    rw [List.nodup_cons] at hnd
    split at hp
    · cases hp
    · rename_i x env1 hx
      obtain ⟨s1, r1, r2, r3, r4, r5⟩ := sim_prog W i t (N.body i (st i) t) s env env1 x hr
        (by rw [h1 i (by simp)]; simp [Net.start, ht]) hs hx
      have hst : Step N.free s1 _ := Step.thread s1 i .next ⟨t + 1, N.free.start i x (t + 1)⟩ s1.que
        (by rw [r2]; exact .next t x ht) rfl
      have hpub : ∀ q' t' v', Published (V := V) (σ := σ) { s1 with
          thr := fun j => if j = i then ⟨t + 1, N.free.start i x (t + 1)⟩ else s1.thr j
          que := s1.que
          hist := fun j => if j = i then .next :: s1.hist j else s1.hist j } q' t' v' ↔
          Published s1 q' t' v' := by
        intro q' t' v'
        unfold Published
        apply exists_congr
        intro j
        by_cases hj : j = i <;> simp [hj]
      have key := fun a b c => ih _ (fun j => if j = i then x else st j) st' env1 env'
        hnd.2 (r1.step hst) a b c hp
      suffices h : _ ∧ _ ∧ _ by
        obtain ⟨s2, k1, k2, k3, k4⟩ := key h.1 h.2.1 h.2.2
        refine ⟨s2, k1, k2, k3, ?_⟩
        intro q t' v htt
        rw [k4 _ _ _ htt, hpub, r5 _ _ _ htt]
      refine ⟨?_, ?_, ?_⟩
      · intro j hj
        have hji : j ≠ i := fun h => hnd.1 (h ▸ hj)
        simp only [hji, if_false]
        rw [r3 j hji]
        exact h1 j (by simp [hj])
      · intro j hj
        by_cases hji : j = i
        · subst hji; simp only [if_true]; rfl
        · simp only [hji, if_false]
          rw [r3 j hji]
          exact h2 j (by simp [hji, hj])
      · intro q' v'; rw [hpub]; exact r4 q' v'

theorem sim_run {N : Net I Q V σ} {owned : I → List Q} (W : SingleWriter N owned)
    (order : List I) (hnd : order.Nodup) (hall : ∀ i, i ∈ order) (n : Nat) :
    ∀ (_ : n ≤ N.steps) (st : I → σ), serialRun N order n = some st →
    ∃ s, Reach N.free s ∧ (∀ i, s.thr i = ⟨n, N.start i (st i) n⟩) ∧
      ∀ q t v, Published s q t v ↔ (t < n ∧ serialValue N order t q = some v) := by
  induction n with
  | zero =>
    intro _ st hst
    simp only [serialRun, Option.some.injEq] at hst
    subst hst
    exact ⟨N.free.initial, .init, fun i => rfl, by simp [Published, Net.initial]⟩
  | succ n ih =>
    intro hn st hst
    simp only [serialRun] at hst
    split at hst
    · cases hst
    · rename_i st0 h0
      split at hst
      · cases hst
      · rename_i st1 env h1
        simp only [Option.some.injEq] at hst
        subst hst
        obtain ⟨s, r1, r2, r3⟩ := ih (by omega) st0 h0
        have hs : Sync s n (fun _ => none) := by
          intro q v
          have : ¬ Published s q n v := by rw [r3]; omega
          simp [this]
        obtain ⟨s', k1, k2, k3, k4⟩ := sim_date W n (by omega) order s st0 st1 _ env hnd r1
          (fun i _ => r2 i) (fun i hi => absurd (hall i) hi) hs h1
        · refine ⟨s', k1, k2, ?_⟩
          intro q t v
          by_cases ht : t = n
          · subst ht
            rw [← (k3 q v).1]
            simp only [serialValue, h0, h1]
            simp
          · rw [k4 _ _ _ ht, r3]
            constructor
            · rintro ⟨h, h'⟩; exact ⟨by omega, h'⟩
            · rintro ⟨h, h'⟩; exact ⟨by omega, h'⟩

end Verif.Pipeline
