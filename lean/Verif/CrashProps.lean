import Verif.CrashLemmas

/-! Property C136: an exception in one module of a threaded run ends the run with that exception, as it
does in a serial run. -/

namespace Verif.Crash
open Verif.Queue Verif.Pipeline

variable {I Q V σ : Type} [DecidableEq I] [DecidableEq Q]
variable {N : Net I Q V σ} {T : Option Nat} {R : I → Nat → Prop}

/-- Specification: thread `i` has been ended by an exception at the date `t` it was working on, before
it published its variable `q` for that date. -/
structure DiedBefore (c : CSt I Q V σ) (i : I) (t : Nat) (q : Q) : Prop where
  fate : c.fate i = .raised
  date : (c.st.thr i).t = t
  unpublished : ∀ v, ¬ Published c.st q t v

/-- C136 as stated: once a module has raised, the run ends — with the exception, as the serial run does
(for networks in which a run without accidents completes). -/
def C136_full : Prop :=
  ∀ (I Q V σ : Type) (_ : DecidableEq I) (_ : DecidableEq Q) (_ : Fintype I) (N : Net I Q V σ)
    (owned : I → List Q) (rank : Q → Nat), SingleWriter N owned → WF N owned rank →
    ∀ (T : Option Nat) (R : I → Nat → Prop) (c : CSt I Q V σ), CReach N T R c →
      (∃ i, c.fate i = .raised) →
      ∃ c', CSteps N T R c c' ∧ main N c' = .raised

/-- The serial run ends with the exception exactly when some module raises at some date. -/
theorem C136_serial (order : List I) (raises : I → Nat → Bool) (n : Nat) :
    (serialMain order raises n = .raised ↔ ∃ t < n, ∃ i ∈ order, raises i t = true) ∧
      serialMain order raises n ≠ .waiting := by
  unfold serialMain
  constructor
  · split
    · rename_i h
      simpa using h
    · rename_i h
      simpa using h
  · split <;> simp

example : serialMain [true, false] (fun i t => i && t == 2) 4 = .raised ∧
    serialMain [true, false] (fun i t => i && t == 7) 4 = .returned := by decide

/-- C136 fails without a time-out (the default): after a module has died before publishing a variable
the cleaner watches, the main thread never gets out of its `join`s, whatever the other threads do. -/
theorem C136_hang_fails {owned : I → List Q} (W : SingleWriter N owned) {c c' : CSt I Q V σ}
    (hr : CReach N none R c) {i : I} {t : Nat} {q : Q} (hd : DiedBefore c i t q)
    (ht : t < N.steps) (hq : q ∈ owned i) (hw : q ∈ N.watched) (h : CSteps N none R c c') :
    main N c' = .waiting := by
  have hi : c.fate i ≠ .running := by rw [hd.fate]; decide
  have hst := (h.cleaner_stuck W hr hi hq hw (fun v hv => by
    rw [hd.date] at hv; exact hd.unpublished v ⟨i, hv⟩)).1
  have hl : c'.clFate = .running := (CSteps.trans hr h).cleaner_lives rfl
  unfold main
  rw [if_neg]
  rintro ⟨-, h1 | h1⟩
  · exact h1 hl
  · rw [hd.date] at hst; omega

/-- What is missing stays missing, with or without a time-out: the variables the dead module had not
published are never published for that date or any later one. -/
theorem C136_missing {owned : I → List Q} (W : SingleWriter N owned) {c c' : CSt I Q V σ}
    (hr : CReach N T R c) {i : I} {t : Nat} {q : Q} (hd : DiedBefore c i t q)
    (hq : q ∈ owned i) (h : CSteps N T R c c') {t' : Nat} (ht : t ≤ t') (v : V) :
    ¬ Published c'.st q t' v := by
  have hi : c.fate i ≠ .running := by rw [hd.fate]; decide
  exact h.never W hr hi hq (fun v hv => by
    rw [hd.date] at hv; exact hd.unpublished v ⟨i, hv⟩) (by rw [hd.date]; exact ht) v

/-- The other modules stop soon: a module that writes a watched queue of bounded size gets at most that
many dates further than the date of the accident. -/
theorem C136_stops_near {owned : I → List Q} {rank : Q → Nat} (W : SingleWriter N owned)
    (W' : WF N owned rank) {c c' : CSt I Q V σ} (hr : CReach N T R c) {i : I} {t : Nat} {q : Q}
    (hd : DiedBefore c i t q) (hq : q ∈ owned i) (hw : q ∈ N.watched) (h : CSteps N T R c c')
    {j : I} {q' : Q} (hq' : q' ∈ owned j) (hcap : 0 < N.cap q') :
    ((c'.st.thr j).t : Int) ≤ t + N.cap q' := by
  have hi : c.fate i ≠ .running := by rw [hd.fate]; decide
  obtain ⟨hst, hph⟩ := h.cleaner_stuck W hr hi hq hw (fun v hv => by
    rw [hd.date] at hv; exact hd.unpublished v ⟨i, hv⟩)
  rw [hd.date] at hst hph
  have hr' : Reach N c'.st := CReach.reach (CSteps.trans hr h)
  obtain ⟨todo, inv⟩ := hr'.inv W'
  have hsz := size_le hr' q' hcap
  have key : ∀ u, t ≤ u → u < (c'.st.thr j).t → u ∈ (c'.st.que q').items.keys := by
    intro u hu hlt
    have hdone : Done N owned todo c'.st.thr q' u := ⟨j, hq', .inl hlt⟩
    have hng : ¬ Gone N c'.st.clT c'.st.clPhase q' u := by
      rintro (⟨h1, -⟩ | ⟨h1, n, hn, -⟩)
      · omega
      · exact hph (by omega) n hn
    obtain ⟨v, hv⟩ := (inv.store q' u).2 ⟨hdone, hng⟩
    by_contra hk
    rw [(Dict.get?_eq_none_iff _ _).2 hk] at hv
    cases hv
  have := length_ge_of_range _ _ _ key
  simp only [Dict.keys, List.length_map] at this
  omega

/-- Nothing wrong is published: what a run with accidents publishes, for any date and at any time, is
what the serial loop without accidents computes. -/
theorem C136_values {owned : I → List Q} (W : SingleWriter N owned) (order : List I)
    (hnd : order.Nodup) (hall : ∀ i, i ∈ order) {st : I → σ}
    (hser : serialRun N order N.steps = some st) {c : CSt I Q V σ} (hr : CReach N T R c)
    {q : Q} {t : Nat} {v : V} (hp : Published c.st q t v) : serialValue N order t q = some v :=
  C06_agrees_with_serial W order hnd hall hser (CReach.reach hr) hp

/-- No execution goes on for ever, with or without a time-out. -/
theorem C136_bounded [Fintype I] {B : Nat}
    (hB : ∀ i s t, t < N.steps → DepthLE (N.body i s t) B) {n : Nat} {c : CSt I Q V σ}
    (h : CReachIn N T R n c) :
    n ≤ Fintype.card I * (N.steps * (B + 1)) + N.steps * (2 * N.watched.length + 2) +
      (Fintype.card I + 1) := by
  obtain ⟨m, hm, rfl⟩ := h.count
  have := C08_bounded_length hB hm
  have := deaths_le c
  omega

/-- Every run comes to a standstill: from every state it can go on to one in which nothing but further
exceptions can happen. -/
theorem C136_settles [Fintype I] {B : Nat}
    (hB : ∀ i s t, t < N.steps → DepthLE (N.body i s t) B) {c : CSt I Q V σ} (hr : CReach N T R c) :
    ∃ c', CSteps N T R c c' ∧ ∀ c'', ¬ CStep N T (fun _ _ => False) c' c'' := by
  obtain ⟨n, hn⟩ := CReach.toIn hr
  have key : ∀ (m n : Nat) (c : CSt I Q V σ), CReachIn N T R n c →
      Fintype.card I * (N.steps * (B + 1)) + N.steps * (2 * N.watched.length + 2) +
        (Fintype.card I + 1) - n ≤ m →
      ∃ c', CSteps N T R c c' ∧ ∀ c'', ¬ CStep N T (fun _ _ => False) c' c'' := by
    intro m
    induction m with
    | zero =>
      intro n c hn hm
      refine ⟨c, .refl c, fun c' st => ?_⟩
      have := C136_bounded hB (hn.step (st.mono (R' := R) fun _ _ h => h.elim))
      omega
    | succ m ih =>
      intro n c hn hm
      by_cases hs : ∃ c', CStep N T (fun _ _ => False) c c'
      · obtain ⟨c', st⟩ := hs
        have st := st.mono (R' := R) fun _ _ h => h.elim
        obtain ⟨c'', h1, h2⟩ := ih (n + 1) c' (hn.step st) (by omega)
        exact ⟨c'', ((CSteps.refl c).tail st).trans h1, h2⟩
      · exact ⟨c, .refl c, fun c' st => hs ⟨c', st⟩⟩
  exact key _ n c hn (Nat.le_refl _)

/-- Without a time-out the work for the dates before the accident is still done: if the code raises at
dates after `t` only, then at the standstill every watched variable has been published for `t`. -/
theorem C136_before {owned : I → List Q} {rank : Q → Nat} (W : WF N owned rank)
    {c : CSt I Q V σ} (hr : CReach N none R c)
    (hstuck : ∀ c', ¬ CStep N none (fun _ _ => False) c c') {t : Nat} (ht : t < N.steps)
    (hR : ∀ i u, R i u → t < u) {q : Q} (hq : q ∈ N.watched) :
    ∃ v, Published c.st q t v := by
  have hdead : ∀ i, c.fate i ≠ .running → t < (c.st.thr i).t := by
    intro i hi
    obtain ⟨h1, h2⟩ := CReach.raised_at hr i
    cases hf : c.fate i with
    | running => exact absurd hf hi
    | raised => exact hR _ _ (h1 hf)
    | exited => exact absurd hf (h2 rfl)
  have hreach : Reach N c.st := CReach.reach hr
  have hlive : c.clFate = .running := CSteps.cleaner_lives hr rfl
  obtain ⟨todo, inv⟩ := hreach.inv W
  by_contra hno
  have hcl : c.st.clT ≤ t := by
    by_contra hlt
    exact hno ((Network.cleaner_published hreach).1 t (by omega) q hq)
  have hT : c.st.clT < N.steps := by omega
  cases hph : c.st.clPhase with
  | cleaning n =>
    cases hq : N.watched[n]? with
    | none => exact hstuck _ (.cleaner c _ hlive (Step.clNext c.st n hT hph hq) rfl)
    | some q => exact hstuck _ (.cleaner c _ hlive (Step.clClean c.st n q hT hph hq) rfl)
  | getting n =>
    cases hq : N.watched[n]? with
    | none => exact hstuck _ (.cleaner c _ hlive (Step.clTurn c.st n hT hph hq) rfl)
    | some q' =>
      have hmem : q' ∈ N.watched := List.mem_of_getElem? hq
      by_cases hd : Done N owned todo c.st.thr q' c.st.clT
      · have hng : ¬ Gone N c.st.clT c.st.clPhase q' c.st.clT := by
          rintro (⟨h, _⟩ | ⟨_, m, hm, _⟩)
          · omega
          · rw [hph] at hm; cases hm
        obtain ⟨v, hv⟩ := (inv.store q' c.st.clT).2 ⟨hd, hng⟩
        exact hstuck _ (.cleaner c _ hlive
          (Step.clGet c.st n q' v hT hph hq ((getWake_value _ _ _).2 hv)) rfl)
      · obtain ⟨j, a, th', que', h1, h2, h3⟩ := can_move_who W hreach inv n hph hT _ q' rfl
          (W.watched_owned q' hmem) hd
        by_cases hf : c.fate j = .running
        · exact hstuck _ (.thread c j a th' que' hf h2 h3)
        · have := hdead j hf
          omega

/-- With a time-out every run ends, for every network — well formed or not — and whatever raises: unless
the main thread is through with its `join`s, something other than a further exception can happen. -/
theorem C136_timeout_progress {d : Nat} {c : CSt I Q V σ} (hr : CReach N (some d) R c) :
    main N c = .returned ∨ ∃ c', CStep N (some d) (fun _ _ => False) c c' := by
  by_cases hj : Joined N c
  · exact .inl (by unfold main; rw [if_pos hj])
  · right
    have hreach : Reach N c.st := CReach.reach hr
    obtain ⟨k, hk⟩ := Reach.toIn hreach
    have hcl := hk.cl.1
    by_cases h1 : c.clFate = .running ∧ c.st.clT < N.steps
    · exact cleaner_moves h1.1 h1.2
    · have : ∃ i, c.fate i = .running ∧ (c.st.thr i).t < N.steps := by
        by_contra hn
        apply hj
        constructor
        · intro i
          by_cases hf : c.fate i = .running
          · right
            have h2 : ¬ (c.st.thr i).t < N.steps := fun h => hn ⟨i, hf, h⟩
            have h3 := (hreach.hist i).fin.1
            omega
          · exact .inl hf
        · by_cases hf : c.clFate = .running
          · right
            have h2 : ¬ c.st.clT < N.steps := fun h => h1 ⟨hf, h⟩
            omega
          · exact .inl hf
      obtain ⟨i, hf, ht⟩ := this
      exact live_moves hf ht

/-- With a time-out: from every state the end is reached, and the main thread then returns as if all had
gone well. -/
theorem C136_timeout_ends [Fintype I] {B : Nat}
    (hB : ∀ i s t, t < N.steps → DepthLE (N.body i s t) B) {d : Nat} {c : CSt I Q V σ}
    (hr : CReach N (some d) R c) :
    ∃ c', CSteps N (some d) R c c' ∧ main N c' = .returned := by
  obtain ⟨n, hn⟩ := CReach.toIn hr
  have key : ∀ (m n : Nat) (c : CSt I Q V σ), CReachIn N (some d) R n c →
      Fintype.card I * (N.steps * (B + 1)) + N.steps * (2 * N.watched.length + 2) +
        (Fintype.card I + 1) - n ≤ m →
      ∃ c', CSteps N (some d) R c c' ∧ main N c' = .returned := by
    intro m
    induction m with
    | zero =>
      intro n c hn hm
      rcases C136_timeout_progress hn.reach with hf | ⟨c', st⟩
      · exact ⟨c, .refl c, hf⟩
      · have := C136_bounded hB (hn.step (st.mono (R' := R) fun _ _ h => h.elim))
        omega
    | succ m ih =>
      intro n c hn hm
      rcases C136_timeout_progress hn.reach with hf | ⟨c', st⟩
      · exact ⟨c, .refl c, hf⟩
      · have st := st.mono (R' := R) fun _ _ h => h.elim
        obtain ⟨c'', h1, h2⟩ := ih (n + 1) c' (hn.step st) (by omega)
        exact ⟨c'', ((CSteps.refl c).tail st).trans h1, h2⟩
  exact key _ n c hn (Nat.le_refl _)

/-- C136 fails with a time-out as well: the run ends after the exception, but the main thread returns
normally and the variable is missing from the date of the accident on. -/
theorem C136_silent_fails [Fintype I] {owned : I → List Q} (W : SingleWriter N owned) {B : Nat}
    (hB : ∀ i s t, t < N.steps → DepthLE (N.body i s t) B) {d : Nat} {c : CSt I Q V σ}
    (hr : CReach N (some d) R c) {i : I} {t : Nat} {q : Q} (hd : DiedBefore c i t q)
    (hq : q ∈ owned i) :
    ∃ c', CSteps N (some d) R c c' ∧ main N c' = .returned ∧
      ∀ t', t ≤ t' → ∀ v, ¬ Published c'.st q t' v := by
  obtain ⟨c', h1, h2⟩ := C136_timeout_ends hB hr
  exact ⟨c', h1, h2, fun t' ht v => C136_missing W hr hd hq h1 ht v⟩

/-! ### The example network -/

/-- Module `m1` dies at date 0 before it has read anything. -/
def demoDead (c : Int) (n : Nat) : CSt Demo.DI Demo.DQ3 Int Int :=
  (start (Demo.net c n)).kill .m1 .raised

theorem demo_reach (c : Int) (n : Nat) (hn : 0 < n) (T : Option Nat) :
    CReach (Demo.net c n) T (fun i t => i = .m1 ∧ t = 0) (demoDead c n) :=
  CSteps.tail (CSteps.refl _)
    (CStep.raise (start (Demo.net c n)) Demo.DI.m1 rfl hn ⟨rfl, rfl⟩)

theorem demo_died (c : Int) (n : Nat) : DiedBefore (demoDead c n) .m1 0 .a where
  fate := by simp [demoDead, CSt.kill]
  date := rfl
  unpublished := by
    rintro v ⟨i, hi⟩
    simp [demoDead, CSt.kill, start, Net.initial] at hi

/-- The hypotheses are met: for any capacity and any number of dates the example never ends without a
time-out … -/
example (c : Int) (n : Nat) (hn : 0 < n) (c' : CSt Demo.DI Demo.DQ3 Int Int)
    (h : CSteps (Demo.net c n) none (fun i t => i = .m1 ∧ t = 0) (demoDead c n) c') :
    main (Demo.net c n) c' = .waiting :=
  C136_hang_fails (Demo.single c n) (demo_reach c n hn none) (demo_died c n) hn
    (by simp [Demo.owned]) (by simp [Demo.net]) h

/-- … and module `m2` stays within the capacity of its queue. -/
example (n : Nat) (hn : 0 < n) (c' : CSt Demo.DI Demo.DQ3 Int Int)
    (h : CSteps (Demo.net 5 n) none (fun i t => i = .m1 ∧ t = 0) (demoDead 5 n) c') :
    ((c'.st.thr .m2).t : Int) ≤ (0 : Nat) + 5 :=
  C136_stops_near (Demo.single 5 n) (Demo.wf 5 n) (demo_reach 5 n hn none) (demo_died 5 n)
    (by simp [Demo.owned]) (by simp [Demo.net]) h (q' := .b) (by simp [Demo.owned])
    (by simp [Demo.net])

theorem demo_depth (c : Int) (n : Nat) (i : Demo.DI) (s : Int) (t : Nat) (_ : t < n) :
    DepthLE ((Demo.net c n).body i s t) 3 := by
  cases i
  · simp [Demo.net, Demo.body, DepthLE]
  · simp [Demo.net, Demo.body, DepthLE]
  · simp only [Demo.net, Demo.body, DepthLE]
    refine ⟨2, rfl, fun v => ?_⟩
    split <;> simp [DepthLE]

/-- With a time-out it ends normally, and variable `a` is missing throughout. -/
example (c : Int) (n d : Nat) (hn : 0 < n) :
    ∃ c', CSteps (Demo.net c n) (some d) (fun i t => i = .m1 ∧ t = 0) (demoDead c n) c' ∧
      main (Demo.net c n) c' = .returned ∧ ∀ t', 0 ≤ t' → ∀ v, ¬ Published c'.st .a t' v :=
  C136_silent_fails (Demo.single c n) (demo_depth c n) (demo_reach c n hn (some d))
    (demo_died c n) (by simp [Demo.owned])

/-- The example with an accident of `m1` at date 2 and no time-out comes to a standstill with the dates 0
and 1 published. -/
example (c : Int) (n : Nat) (hn : 2 < n) :
    ∃ c', CReach (Demo.net c n) none (fun i t => i = .m1 ∧ t = 2) c' ∧
      ∀ t < 2, ∃ v, Published c'.st .b t v := by
  obtain ⟨c', h1, h2⟩ := C136_settles (N := Demo.net c n) (T := none)
    (R := fun i t => i = Demo.DI.m1 ∧ t = 2)
    (demo_depth c n) (CSteps.refl _)
  refine ⟨c', h1, fun t ht => C136_before (Demo.wf c n) h1 h2 (by simp only [Demo.net]; omega) ?_
    (by simp [Demo.net])⟩
  rintro i u ⟨-, rfl⟩; exact ht

/-- C136 as stated is false. -/
theorem C136_fails : ¬ C136_full := by
  intro h
  obtain ⟨c', h1, h2⟩ := h _ _ _ _ inferInstance inferInstance inferInstance (Demo.net 1 1)
    Demo.owned Demo.rank (Demo.single 1 1) (Demo.wf 1 1) none _ _
    (demo_reach 1 1 (by decide) none) ⟨.m1, (demo_died 1 1).fate⟩
  rw [C136_hang_fails (Demo.single 1 1) (demo_reach 1 1 (by decide) none) (demo_died 1 1)
    (by decide) (by simp [Demo.owned]) (by simp [Demo.net]) h1] at h2
  cases h2

/-- A time-out is not harmless in a run without exceptions either: if the first module is slower than
the time-out, the waiting threads end themselves and the run returns normally with nothing published by
them. -/
theorem C136_slow_fails (c : Int) (d : Nat) :
    ∃ c', CReach (Demo.net c 1) (some d) (fun _ _ => False) c' ∧
      main (Demo.net c 1) c' = .returned ∧ c'.fate .m1 = .exited ∧
      ∀ t v, ¬ Published c'.st .a t v := by
  let c0 : CSt Demo.DI Demo.DQ3 Int Int := start (Demo.net c 1)
  let c1 := c0.kill .m1 .exited
  have h1 : CReach (Demo.net c 1) (some d) (fun _ _ => False) c1 :=
    CSteps.tail (CSteps.refl _)
      (CStep.outGet c0 Demo.DI.m1 d d Demo.DQ3.d (fun v => .put .a (1 + v) (.ret (1 + v))) rfl rfl
      (by simp [c0, start, Net.initial, Net.start, Demo.net, Demo.body])
      (by simp [c0, start, Net.initial, Queue.step, getLoop, DQ.new, Dict.get?]))
  obtain ⟨c', h2, h3⟩ := C136_timeout_ends (demo_depth c 1) h1
  refine ⟨c', CSteps.trans h1 h2, h3, ?_, ?_⟩
  · exact (h2.dead (i := .m1) (by simp [c1, CSt.kill])).1.trans (by simp [c1, CSt.kill])
  · intro t v
    refine h2.never (Demo.single c 1) h1 (i := .m1) (by simp [c1, CSt.kill]) (by simp [Demo.owned])
      ?_ (t := t) ?_ v
    · intro v hv
      simp [c1, CSt.kill, c0, start, Net.initial] at hv
    · simp [c1, CSt.kill, c0, start, Net.initial]

/-! ### The network of SMRF -/

open Verif.Network

/-- In SMRF: a module that raises at date `t` before its `put`s stops the run without a time-out for
ever, in every configuration. -/
theorem C136_network_hang_fails {V σ : Type} (cf : Cfg) (F : Comp V σ) (init : Mod → σ)
    (w : List SVar) (hw : ∀ q, q ∈ w ↔ q ∈ keys cf) (n : Nat) {R : Mod → Nat → Prop}
    {c c' : CSt Mod Var V σ} (hr : CReach (net cf F init w n) none R c) {m : Mod} {t : Nat}
    (ht : t < n) {v : SVar} (hv : v ∈ writes cf m) (hk : v ∈ keys cf)
    (hd : DiedBefore c m t (.smrf v)) (h : CSteps (net cf F init w n) none R c c') :
    main (net cf F init w n) c' = .waiting := by
  have hm : m ≠ .load := by rintro rfl; simp [writes] at hv
  refine C136_hang_fails (net_single cf F init w n) hr hd ht ?_ ?_ h
  · rw [owned_of_ne_load cf m hm]; exact List.mem_map_of_mem hv
  · exact List.mem_map_of_mem ((hw v).2 hk)

/-- In SMRF, with or without a time-out: if one of the variables asked for in the output files was not
published by the module that died at date `t`, the output thread does not finish another record: neither
for `t` nor for any later date. -/
theorem C136_network_output {V σ : Type} (cf : Cfg) (hf : cf.freq = 1) (F : Comp V σ)
    (init : Mod → σ) (w : List SVar) (n : Nat) {R : Mod → Nat → Prop} {c c' : CSt Mod Var V σ}
    (hr : CReach (net cf F init w n) T R c) {m : Mod} {t : Nat} {v : SVar} (hv : v ∈ writes cf m)
    (ho : v ∈ cf.outVars) (hd : DiedBefore c m t (.smrf v))
    (h : CSteps (net cf F init w n) T R c c') {t' : Nat} (ht' : t ≤ t') (x : V) :
    ¬ Published c'.st (.smrf .output) t' x := by
  intro hp
  have hm : m ≠ .load := by rintro rfl; simp [writes] at hv
  have hown : Var.smrf v ∈ owned cf m := by
    rw [owned_of_ne_load cf m hm]; exact List.mem_map_of_mem hv
  have hr' : Reach (net cf F init w n) c'.st := CReach.reach (CSteps.trans hr h)
  obtain ⟨j, hj⟩ := hp
  have hjo : j = .output := by
    have h1 := ((hr'.hist j).puts (net_single cf F init w n)).2.1 _ _ _ hj
    exact (owned_disjoint cf j .output _ h1 (by simp [owned, writes]))
  subst hjo
  have hrf : ∀ s t, t < (net cf F init w n).steps →
      ReadsFirst (Var.smrf v) ((net cf F init w n).body .output s t) := by
    intro s t _
    simp only [net, body, hf, Nat.mod_one, if_true]
    exact readsFirst_getAll _ _ (List.mem_map_of_mem ho) _ _
  obtain ⟨y, hy⟩ := (Hist.readsFirst hrf (hr'.hist .output)).2.2.2 _ _ _ hj
  exact C136_missing (net_single cf F init w n) hr hd hown h ht' y (hr'.store.2.2 _ _ _ _ hy)

/-- In SMRF without a time-out, in the configurations that complete when nothing raises: if modules raise
at dates after `t` only, the record of date `t` is finished when the run has come to a standstill. -/
theorem C136_network_before {V σ : Type} (cf : Cfg) (hc : Supported cf) (F : Comp V σ)
    (init : Mod → σ) (w : List SVar) (hw : ∀ q, q ∈ w ↔ q ∈ keys cf) (n : Nat)
    {R : Mod → Nat → Prop} {c : CSt Mod Var V σ} (hr : CReach (net cf F init w n) none R c)
    (hstuck : ∀ c', ¬ CStep (net cf F init w n) none (fun _ _ => False) c c') {t : Nat}
    (ht : t < n) (hR : ∀ i u, R i u → t < u) : ∃ x, Published c.st (.smrf .output) t x :=
  C136_before (net_wf cf hc F init w hw n) hr hstuck ht hR
    (List.mem_map_of_mem ((hw _).2 (by simp [keys])))

/-- In SMRF with a time-out: the run always ends, also in the configurations in which it would otherwise
wait for ever (C09), and reports success. -/
theorem C136_network_timeout {V σ : Type} (cf : Cfg) (F : Comp V σ) (init : Mod → σ)
    (w : List SVar) (n : Nat) {R : Mod → Nat → Prop} {d : Nat} {c : CSt Mod Var V σ}
    (hr : CReach (net cf F init w n) (some d) R c) :
    ∃ c', CSteps (net cf F init w n) (some d) R c c' ∧ main (net cf F init w n) c' = .returned :=
  C136_timeout_ends (fun i s t _ => net_depth cf F init w n i s t) hr

/-- The configuration used in the examples of C09, where the air temperature raises at date 0: not one
record of the four output variables is finished. -/
example (n : Nat) (hn : 0 < n) (T : Option Nat) (c' : CSt Mod Var Nat Nat)
    (h : CSteps (net demoCfg demoComp (fun _ => 0) (keys demoCfg) n) T (fun m _ => m = .airTemp)
      ((start (net demoCfg demoComp (fun _ => 0) (keys demoCfg) n)).kill .airTemp .raised) c')
    (t' x : Nat) : ¬ Published c'.st (.smrf .output) t' x := by
  refine C136_network_output demoCfg rfl demoComp _ _ n
    (CSteps.tail (CSteps.refl _) (CStep.raise _ Mod.airTemp rfl hn rfl)) (m := .airTemp) (t := 0)
    (v := .airTemp) (by simp [writes]) (by simp [demoCfg]) ⟨?_, rfl, ?_⟩ h (Nat.zero_le _) x
  · simp [CSt.kill]
  · rintro v ⟨i, hi⟩
    simp [CSt.kill, start, Net.initial] at hi

end Verif.Crash
