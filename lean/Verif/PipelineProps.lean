import Verif.PipelineLive
import Verif.PipelineSerial

/-! Properties C06, C07, C08 of the threaded run. -/

namespace Verif.Pipeline
open Verif.Queue

variable {I Q V σ : Type} [DecidableEq I] [DecidableEq Q]

/-! ### A small network used by the examples -/

namespace Demo

/-- Variables of the demonstration network: `d` is a preloaded data queue, `a` and `b` are
distributed variables. -/
inductive DQ3 | d | a | b deriving DecidableEq

/-- Threads: loader of the data queue, a module with carried state reading `d` and writing `a`, a
module which reads `a` and, only if it is positive, `d`, and writes `b`. -/
inductive DI | load | m1 | m2 deriving DecidableEq

instance : Fintype DI := ⟨{.load, .m1, .m2}, by intro x; cases x <;> decide⟩

def body : DI → Int → Nat → Prog DQ3 Int Int
  | .load, s, t => .put .d (3 * t - 4) (.ret s)
  | .m1, s, _ => .get .d fun v => .put .a (s + v) (.ret (s + v))
  | .m2, s, _ => .get .a fun v =>
      if v > 0 then .get .d fun w => .put .b (v * w) (.ret s) else .put .b 0 (.ret s)

/-- The network for a capacity `c` and `n` dates. -/
def net (c : Int) (n : Nat) : Net DI DQ3 Int Int where
  body := body
  init _ := 1
  watched := [.b, .a]
  cap q := if q = .d then 0 else c
  steps := n

def owned : DI → List DQ3
  | .load => [.d]
  | .m1 => [.a]
  | .m2 => [.b]

def rank : DQ3 → Nat
  | .d => 0
  | .a => 1
  | .b => 2

theorem single (c : Int) (n : Nat) : SingleWriter (net c n) owned where
  nodup i := by cases i <;> simp [owned]
  disjoint i j q := by cases i <;> cases j <;> cases q <;> simp [owned]
  atMost i s t := by
    cases i
    · simp [net, body, AtMost, owned]
    · simp [net, body, AtMost, owned]
    · simp only [net, body, AtMost, owned]
      intro v
      split <;> simp [AtMost]

theorem wf (c : Int) (n : Nat) : WF (net c n) owned rank where
  nodup i := by cases i <;> simp [owned]
  disjoint i j q := by cases i <;> cases j <;> cases q <;> simp [owned]
  prog i s t _ := by
    cases i
    · simp [net, body, WFProg, owned]
    · simp only [net, body, WFProg, owned]
      exact ⟨⟨.load, by simp⟩, by simp [rank], by simp, by simp⟩
    · simp only [net, body, WFProg, owned]
      refine ⟨⟨.m1, by simp⟩, by simp [rank], by simp, ?_⟩
      intro v
      split
      · exact ⟨⟨.load, by simp⟩, by simp [rank], by simp, by simp [WFProg]⟩
      · simp [WFProg]
  watched_owned q h := by
    cases q
    · simp [net] at h
    · exact ⟨.m1, by simp [owned]⟩
    · exact ⟨.m2, by simp [owned]⟩
  unwatched_unbounded i q _ h := by cases q <;> simp_all [net]

end Demo

/-! ### C06 -/

/-- C06: two executions — any schedules, any capacities, any set of cleaned queues — never publish
different values for the same variable and date. -/
theorem C06_deterministic {N : Net I Q V σ} {owned : I → List Q} (W : SingleWriter N owned)
    (cap' : Q → Int) (watched' : List Q) {s1 s2 : St I Q V σ}
    (h1 : Reach N s1) (h2 : Reach { N with cap := cap', watched := watched' } s2)
    {q : Q} {t : Nat} {v1 v2 : V}
    (p1 : Published s1 q t v1) (p2 : Published s2 q t v2) : v1 = v2 := by
  obtain ⟨i, p1⟩ := p1
  obtain ⟨j, p2⟩ := p2
  have := W.disjoint _ _ q ((h1.hist i).puts W |>.2.1 _ _ _ p1)
    ((h2.hist j).forget.puts W |>.2.1 _ _ _ p2)
  subst this
  rcases compat W h1 h2 i with hc | hc
  · exact ((h2.hist i).forget.puts W).2.2 _ _ _ _ (hc.subset p1) p2
  · exact ((h1.hist i).puts W).2.2 _ _ _ _ p1 (hc.subset p2)

/-- C06: finished executions are identical thread by thread: the same reads of the same values and
the same puts of the same values in the same order. -/
theorem C06_finished_agree {N : Net I Q V σ} {owned : I → List Q} (W : SingleWriter N owned)
    (cap' : Q → Int) (watched' : List Q) {s1 s2 : St I Q V σ}
    (h1 : Reach N s1) (h2 : Reach { N with cap := cap', watched := watched' } s2)
    (f1 : ∀ i, (s1.thr i).t = N.steps) (f2 : ∀ i, (s2.thr i).t = N.steps)
    (i : I) : s1.hist i = s2.hist i := by
  -- a history of a finished thread cannot be extended
  have key : ∀ (h l : List (Act Q V)) (th th' : Thr Q V σ), Hist N i h th → th.t = N.steps →
      Hist N i (l ++ h) th' → l = [] := by
    intro h l th th' hh ht hh'
    rcases List.eq_nil_or_concat l with rfl | ⟨l', b, rfl⟩
    · rfl
    · exfalso
      simp only [List.concat_eq_append, List.append_assoc, List.cons_append,
        List.nil_append] at hh'
      obtain ⟨th2, h3⟩ := hh'.suffix
      cases h3 with
      | cons h4 l4 =>
        have := h4.det hh; subst this
        have hret := hh.fin.2 ht
        obtain ⟨x, hx⟩ := hret
        cases l4 with
        | got => cases hx
        | put => cases hx
        | next t x hlt => simp only at ht; omega
  rcases compat W h1 h2 i with ⟨l, hl⟩ | ⟨l, hl⟩
  · have := key _ l _ _ (h1.hist i) (f1 i) (by rw [hl]; exact (h2.hist i).forget)
    subst this; simpa using hl
  · have := key _ l _ _ (h2.hist i).forget (f2 i) (by rw [hl]; exact h1.hist i)
    subst this; simpa using hl.symm

/-- C06: whatever a threaded execution publishes is what the serial loop computes, whenever the
serial loop (modules in the given order, each once per date) runs through. -/
theorem C06_agrees_with_serial {N : Net I Q V σ} {owned : I → List Q} (W : SingleWriter N owned)
    (order : List I) (hnd : order.Nodup) (hall : ∀ i, i ∈ order) {st : I → σ}
    (hser : serialRun N order N.steps = some st) {s : St I Q V σ} (hr : Reach N s)
    {q : Q} {t : Nat} {v : V} (hp : Published s q t v) :
    serialValue N order t q = some v := by
  obtain ⟨s2, r1, r2, r3⟩ := sim_run W order hnd hall N.steps (Nat.le_refl _) st hser
  have hpub : Published s2 q t v := by
    obtain ⟨i, hp⟩ := hp
    refine ⟨i, ?_⟩
    rcases compat W hr (c := fun _ => 0) (w := []) r1 i with hc | ⟨l, hl⟩
    · exact hc.subset hp
    · -- the serial run is finished, so its history is not extended
      rcases List.eq_nil_or_concat l with rfl | ⟨l', b, rfl⟩
      · simp only [List.nil_append] at hl
        rw [hl]; exact hp
      · exfalso
        have hh := hr.hist i
        rw [← hl] at hh
        simp only [List.concat_eq_append, List.append_assoc, List.cons_append,
          List.nil_append] at hh
        obtain ⟨th2, h3⟩ := hh.suffix
        cases h3 with
        | cons h4 l4 =>
          have := h4.det (Hist.forget (c := fun _ => 0) (w := []) (r1.hist i))
          rw [r2 i] at this
          subst this
          have hs : N.start i (st i) N.steps = .ret (st i) := by simp [Net.start]
          rw [hs] at l4
          cases l4 with
          | next t x hlt => omega
  exact ((r3 q t v).1 hpub).2

/-- C06: conversely a finished threaded run has published everything the serial loop computes. -/
theorem C06_serial_is_published {N : Net I Q V σ} {owned : I → List Q} (W : SingleWriter N owned)
    (order : List I) (hnd : order.Nodup) (hall : ∀ i, i ∈ order) {st : I → σ}
    (hser : serialRun N order N.steps = some st) {s : St I Q V σ} (hr : Reach N s)
    (hf : ∀ i, (s.thr i).t = N.steps) {q : Q} {t : Nat} (ht : t < N.steps) {v : V}
    (hv : serialValue N order t q = some v) : Published s q t v := by
  obtain ⟨s2, r1, r2, r3⟩ := sim_run W order hnd hall N.steps (Nat.le_refl _) st hser
  obtain ⟨i, hi⟩ := (r3 q t v).2 ⟨ht, hv⟩
  refine ⟨i, ?_⟩
  rw [C06_finished_agree W (fun _ => 0) [] hr r1 hf (fun i => by rw [r2 i]) i]
  exact hi

/-- The hypotheses of C06 hold for a network with carried state and data-dependent reads. -/
example (c c' : Int) (n : Nat) (s1 s2 : St Demo.DI Demo.DQ3 Int Int)
    (h1 : Reach (Demo.net c n) s1) (h2 : Reach (Demo.net c' n) s2) (t : Nat) (v1 v2 : Int)
    (p1 : Published s1 .b t v1) (p2 : Published s2 .b t v2) : v1 = v2 :=
  C06_deterministic (Demo.single c n) (Demo.net c' n).cap (Demo.net c' n).watched h1 h2 p1 p2

/-- The serial loop runs through on the example for 4 dates and computes these values. -/
example : (serialRun (Demo.net 1 4) [.load, .m1, .m2] 4).isSome = true ∧
    (List.range 4).map (fun t => serialValue (Demo.net 1 4) [.load, .m1, .m2] t .b) =
      [some 0, some 0, some 0, some 15] := by
  decide

/-! ### C07 -/

/-- The reads of date `t` recorded in a history. -/
def readsAt (t : Nat) (h : List (Act Q V)) : List (Q × V) :=
  h.filterMap fun
    | .got q t' v => if t' = t then some (q, v) else none
    | _ => none

/-- Continuations of an execution. -/
inductive Steps (N : Net I Q V σ) : St I Q V σ → St I Q V σ → Prop
  | refl (s : St I Q V σ) : Steps N s s
  | tail {s s' s'' : St I Q V σ} : Steps N s s' → Step N s' s'' → Steps N s s''

theorem Steps.reach {N : Net I Q V σ} {s s' : St I Q V σ} (hr : Reach N s) (h : Steps N s s') :
    Reach N s' := by
  induction h with
  | refl => exact hr
  | tail _ st ih => exact ih.step st

theorem Step.gone_mono {N : Net I Q V σ} {s s' : St I Q V σ} (h : Step N s s') :
    s.gone ⊆ s'.gone := by
  cases h with
  | clClean => exact List.subset_cons_self _ _
  | _ => exact fun _ h => h

/-- C07: no thread ever waits for a value the cleaner has removed. -/
theorem C07_never_waits_for_removed {N : Net I Q V σ} {owned : I → List Q} {rank : Q → Nat}
    (W : WF N owned rank) {s : St I Q V σ} (hr : Reach N s) (i : I) (q : Q)
    (k : V → Prog Q V σ) (hp : (s.thr i).p = .get q k) : (q, (s.thr i).t) ∉ s.gone := by
  obtain ⟨todo, inv⟩ := hr.inv W
  obtain ⟨h1, h2⟩ := inv.get_not_past W i q k hp
  rw [inv.gone]
  rintro (⟨h, _⟩ | ⟨h, n, hn, _⟩)
  · omega
  · exact h2 h n hn

/-- C07: from the moment the cleaner has removed date `t` from any one queue, no thread ever
performs another read at date `t` (of any queue) in any continuation of the execution. -/
theorem C07_all_reads_done {N : Net I Q V σ} {owned : I → List Q} {rank : Q → Nat}
    (W : WF N owned rank) {s s' : St I Q V σ} (hr : Reach N s) {q : Q} {t : Nat}
    (hg : (q, t) ∈ s.gone) (hs : Steps N s s') (i : I) :
    readsAt t (s'.hist i) = readsAt t (s.hist i) := by
  induction hs with
  | refl => rfl
  | @tail s1 s2 h1 st ih =>
    have hr1 := h1.reach hr
    have hg1 : (q, t) ∈ s1.gone := by
      clear ih st hr1
      induction h1 with
      | refl => exact hg
      | tail _ st ih => exact st.gone_mono ih
    rw [← ih]
    cases st with
    | thread j a th' que' hl he =>
      by_cases hij : i = j
      · subst hij
        simp only [if_true]
        obtain ⟨todo, inv⟩ := hr1.inv W
        generalize hth : s1.thr i = th at hl
        cases hl with
        | got t' q' k v =>
          obtain ⟨h1, h2⟩ := inv.get_not_past W i q' k (by rw [hth])
          have hne : t' ≠ t := by
            rintro rfl
            rw [hth] at h1 h2
            simp only at h1 h2
            rcases (inv.gone q t').1 hg1 with ⟨h, _⟩ | ⟨h, n, hn, _⟩
            · omega
            · exact h2 h n hn
          simp [readsAt, hne]
        | put => simp [readsAt]
        | next => simp [readsAt]
      · simp [hij]
    | _ => rfl

/-- The cleaner really removes things in the example network: after 10 steps of some schedule date
0 is gone from `b`. -/
example : ∃ s, Reach (Demo.net 1 2) s ∧ (Demo.DQ3.b, 0) ∈ s.gone ∧
    WF (Demo.net 1 2) Demo.owned Demo.rank := by
  have s0 := Reach.init (N := Demo.net 1 2)
  have s1 := s0.step (.thread _ .load (Act.put Demo.DQ3.d 0 (-4)) _ _ (.put 0 _ _ _) ⟨rfl, rfl⟩)
  have s2 := s1.step (.thread _ .m1 (Act.got Demo.DQ3.d 0 (-4)) _ _ (.got 0 _ _ _) ⟨rfl, rfl⟩)
  have s3 := s2.step (.thread _ .m1 (Act.put Demo.DQ3.a 0 (-3)) _ _ (.put 0 _ _ _) ⟨rfl, rfl⟩)
  have s4 := s3.step (.thread _ .m2 (Act.got Demo.DQ3.a 0 (-3)) _ _ (.got 0 _ _ _) ⟨rfl, rfl⟩)
  have s5 := s4.step (.thread _ .m2 (Act.put Demo.DQ3.b 0 0) _ _ (.put 0 _ _ _) ⟨rfl, rfl⟩)
  have s6 := s5.step (.clGet _ 0 Demo.DQ3.b 0 (by decide) rfl rfl rfl)
  have s7 := s6.step (.clGet _ 1 Demo.DQ3.a (-3) (by decide) rfl rfl rfl)
  have s8 := s7.step (.clTurn _ 2 (by decide) rfl rfl)
  have s9 := s8.step (.clClean _ 0 Demo.DQ3.b (by decide) rfl rfl)
  exact ⟨_, s9, List.mem_cons_self, Demo.wf 1 2⟩

/-! ### C08 -/

/-- C08: no deadlock, whatever the schedule and the capacities. -/
theorem C08_no_deadlock {N : Net I Q V σ} {owned : I → List Q} {rank : Q → Nat}
    (W : WF N owned rank) {s : St I Q V σ} (hr : Reach N s) :
    Finished N s ∨ ∃ s', Step N s s' := by
  obtain ⟨todo, inv⟩ := hr.inv W
  exact inv.progress W hr

/-- C08: every execution has a bounded number of steps, so it cannot run forever. `B` bounds the
number of queue operations of one module at one date. -/
theorem C08_bounded_length [Fintype I] {N : Net I Q V σ} {B : Nat}
    (hB : ∀ i s t, t < N.steps → DepthLE (N.body i s t) B) {n : Nat} {s : St I Q V σ}
    (h : ReachIn N n s) :
    n ≤ Fintype.card I * (N.steps * (B + 1)) + N.steps * (2 * N.watched.length + 2) := by
  rw [h.count]
  apply Nat.add_le_add
  · have : ∀ i ∈ Finset.univ, (s.hist i).length ≤ N.steps * (B + 1) := by
      intro i _
      obtain ⟨h1, h2, h3⟩ := (h.reach.hist i).length_le hB
      rcases Nat.lt_or_ge (s.thr i).t N.steps with hlt | hge
      · obtain ⟨d, _, _, hlen⟩ := h3 hlt
        have : ((s.thr i).t + 1) * (B + 1) ≤ N.steps * (B + 1) := Nat.mul_le_mul_right _ hlt
        rw [Nat.succ_mul] at this
        omega
      · exact (h2 (Nat.le_antisymm h1 hge)).2
    have := Finset.sum_le_card_nsmul Finset.univ _ _ this
    simpa using this
  · obtain ⟨h1, h2, h3, h4⟩ := h.cl
    rcases Nat.lt_or_ge s.clT N.steps with hlt | hge
    · have : (s.clT + 1) * (2 * N.watched.length + 2) ≤ N.steps * (2 * N.watched.length + 2) :=
        Nat.mul_le_mul_right _ hlt
      rw [Nat.succ_mul] at this
      simp only [clCount]
      cases hp : s.clPhase with
      | getting n => have := h3 n hp; simp only; omega
      | cleaning n => have := h4 n hp; simp only; omega
    · have he := Nat.le_antisymm h1 hge
      simp only [clCount, h2 he]
      rw [he]; omega

theorem Reach.toIn {N : Net I Q V σ} {s : St I Q V σ} (h : Reach N s) : ∃ n, ReachIn N n s := by
  induction h with
  | init => exact ⟨0, .init⟩
  | step _ st ih => obtain ⟨n, hn⟩ := ih; exact ⟨_, hn.step st⟩

/-- C08: every partial execution can be completed: from every reachable state a finished state is
reached, and an execution that can no longer be continued is finished. -/
theorem C08_terminates [Fintype I] {N : Net I Q V σ} {owned : I → List Q} {rank : Q → Nat}
    (W : WF N owned rank) {B : Nat} (hB : ∀ i s t, t < N.steps → DepthLE (N.body i s t) B)
    {s : St I Q V σ} (hr : Reach N s) :
    (∃ s', Steps N s s' ∧ Finished N s') ∧ ((¬ ∃ s', Step N s s') → Finished N s) := by
  constructor
  · obtain ⟨n, hn⟩ := hr.toIn
    have key : ∀ (m : Nat) (n : Nat) (s : St I Q V σ), ReachIn N n s →
        Fintype.card I * (N.steps * (B + 1)) + N.steps * (2 * N.watched.length + 2) - n ≤ m →
        ∃ s', Steps N s s' ∧ Finished N s' := by
      intro m
      induction m with
      | zero =>
        intro n s hn hm
        rcases C08_no_deadlock W hn.reach with hf | ⟨s', st⟩
        · exact ⟨s, .refl s, hf⟩
        · have := C08_bounded_length hB (hn.step st)
          omega
      | succ m ih =>
        intro n s hn hm
        rcases C08_no_deadlock W hn.reach with hf | ⟨s', st⟩
        · exact ⟨s, .refl s, hf⟩
        · obtain ⟨s'', h1, h2⟩ := ih (n + 1) s' (hn.step st) (by omega)
          refine ⟨s'', ?_, h2⟩
          clear h2 ih
          induction h1 with
          | refl => exact (Steps.refl s).tail st
          | tail _ st' ih => exact ih.tail st'
    exact key _ n s hn (Nat.le_refl _)
  · intro h
    exact (C08_no_deadlock W hr).resolve_right h

/-- The example network satisfies the hypotheses for every capacity, also 1, and every number of
dates. -/
example (c : Int) (n : Nat) (s : St Demo.DI Demo.DQ3 Int Int) (hr : Reach (Demo.net c n) s) :
    ∃ s', Steps (Demo.net c n) s s' ∧ Finished (Demo.net c n) s' :=
  (C08_terminates (Demo.wf c n) (B := 3) (by
    intro i s t _
    cases i
    · simp [Demo.net, Demo.body, DepthLE]
    · simp [Demo.net, Demo.body, DepthLE]
    · simp only [Demo.net, Demo.body, DepthLE]
      refine ⟨2, rfl, fun v => ?_⟩
      split <;> simp [DepthLE]) hr).1

/-- The ordering hypothesis is needed: two modules that read each other's variable at the same date
before writing their own are stuck from the start. -/
example : ∃ N : Net Bool Bool Nat Unit, N.steps = 1 ∧ ¬ Finished N N.initial ∧
    ¬ ∃ s', Step N N.initial s' := by
  refine ⟨⟨fun i _ _ => .get (!i) fun v => .put i v (.ret ()), fun _ => (), [true, false],
    fun _ => 1, 1⟩, rfl, ?_, ?_⟩
  · simp [Finished, Net.initial]
  · rintro ⟨s', st⟩
    generalize hs : Net.initial _ = s at st
    cases st with
    | thread i a th' que' hl he =>
      subst hs
      simp only [Net.initial, Net.start] at hl he
      simp only [Nat.zero_lt_one, if_true] at hl
      cases hl with
      | got t q k v =>
        rw [effect_got] at he
        simp [DQ.new, Dict.get?] at he
    | clGet n q v ht hp hq hv =>
      subst hs
      rw [getWake_value] at hv
      simp [Net.initial, DQ.new, Dict.get?] at hv
    | clTurn n ht hp hq =>
      subst hs
      simp only [Net.initial, Phase.getting.injEq] at hp
      subst hp
      simp at hq
    | clClean n q ht hp hq => subst hs; simp [Net.initial] at hp
    | clNext n ht hp hq => subst hs; simp [Net.initial] at hp

end Verif.Pipeline
