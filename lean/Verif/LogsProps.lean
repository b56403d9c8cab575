import Verif.Logs

/-!
C160: the log of a run. The first run of a process logs every message of the configured level; a later run in the same process loses the
messages of every module that has logged before.
-/

namespace Verif.Logs

/-- The configured file, or the console. -/
def target (c : Cfg) : Sink := match c.file with | some (_, p) => .file p | none => .console

/-- The configuration can be set up and `l` is the number of its level. -/
def Valid (c : Cfg) (l : Nat) : Prop := severity (c.level.getD "info") = some l ∧ ∀ d p, c.file = some (d, p) → d ≠ ""

/-- A module has written a record with the logger `n`. -/
def Used (h : List Op) (n : String) : Prop := ∃ r : Rec, Op.emit r ∈ h ∧ r.logger = n

/-- A run: the constructor, then messages. -/
def session (c : Cfg) (ms : List Rec) : List Op := .setup c :: ms.map .emit

/-- Claimed: whatever the process did before, a run appends all its messages of the configured level to its log, and nothing elsewhere. -/
def C160_full : Prop := ∀ (old : Sink → List String) (h : List Op) (c : Cfg) (l : Nat) (ms : List Rec) (s : St),
  Valid c l → run (init old) h = .ok s → ∃ s', run (init old) (h ++ session c ms) = .ok s' ∧
    ∀ k, s'.out k = s.out k ++ if k = target c then (ms.filter fun r => l ≤ r.level).map Rec.text else []

/-! ### Auxiliary -/

private theorem run_append (s : St) (a b : List Op) : run s (a ++ b) = match run s a with
    | .error e => .error e
    | .ok s' => run s' b := by
  induction a generalizing s with
  | nil => rfl
  | cons o os ih =>
    simp only [List.cons_append, run]
    cases step s o with
    | error e => rfl
    | ok s' => exact ih s'

private theorem setup_ok {c : Cfg} {l : Nat} (hc : Valid c l) (s : St) :
    setup c s = .ok { s with disabled := s.known ++ s.disabled, level := l, sink := target c } := by
  obtain ⟨h1, h2⟩ := hc
  unfold setup target
  cases hf : c.file with
  | none => simp only [h1]
  | some q =>
    obtain ⟨d, p⟩ := q
    simp only [h1]
    rw [if_neg (h2 d p hf)]

private theorem setup_shape {c : Cfg} {s s' : St} (h : setup c s = .ok s') :
    s'.known = s.known ∧ s'.disabled = s.known ++ s.disabled ∧ s'.out = s.out := by
  unfold setup at h
  split at h
  · split at h
    · cases h
    · split at h
      · cases h
      · cases h; exact ⟨rfl, rfl, rfl⟩
  · split at h
    · cases h
    · cases h; exact ⟨rfl, rfl, rfl⟩

/-- The loggers known are those used; those disabled are among them. -/
private theorem run_known {s s' : St} {h : List Op} (e : run s h = .ok s') (hs : ∀ n, n ∈ s.disabled → n ∈ s.known) :
    (∀ n, n ∈ s'.known ↔ n ∈ s.known ∨ Used h n) ∧ ∀ n, n ∈ s'.disabled → n ∈ s'.known := by
  induction h generalizing s with
  | nil => cases e; exact ⟨fun n => ⟨.inl, fun w => w.elim id fun ⟨_, hr, _⟩ => absurd hr List.not_mem_nil⟩, hs⟩
  | cons o os ih =>
    cases o with
    | setup c =>
      simp only [run, step] at e
      cases hq : setup c s with
      | error x => rw [hq] at e; cases e
      | ok s1 =>
        rw [hq] at e
        obtain ⟨a1, a2, -⟩ := setup_shape hq
        obtain ⟨b1, b2⟩ := ih e (by
          rw [a1, a2]
          intro n hn
          exact (List.mem_append.1 hn).elim id (hs n))
        refine ⟨fun n => ?_, b2⟩
        rw [b1, a1]
        unfold Used
        simp
    | emit r =>
      simp only [run, step] at e
      have k1 : ∀ n, n ∈ (emit r s).known ↔ n ∈ s.known ∨ r.logger = n := by
        intro n
        unfold emit
        simp only
        split_ifs with hr
        · exact ⟨.inl, fun w => w.elim id fun q => q ▸ hr⟩
        · rw [List.mem_cons, or_comm, eq_comm]
      obtain ⟨b1, b2⟩ := ih e fun n hn => (k1 n).2 (.inl (hs n hn))
      refine ⟨fun n => ?_, b2⟩
      rw [b1, k1]
      unfold Used
      constructor
      · rintro ((q | q) | ⟨t, t1, t2⟩)
        · exact .inl q
        · exact .inr ⟨r, List.mem_cons_self, q⟩
        · exact .inr ⟨t, List.mem_cons_of_mem _ t1, t2⟩
      · rintro (q | ⟨t, t1, t2⟩)
        · exact .inl (.inl q)
        · rcases List.mem_cons.1 t1 with t1 | t1
          · cases t1; exact .inl (.inr t2)
          · exact .inr ⟨t, t1, t2⟩

private theorem emits (s : St) (ms : List Rec) : ∃ s', run s (ms.map .emit) = .ok s' ∧
    ∀ k, s'.out k = s.out k ++ if k = s.sink then (ms.filter fun r => decide (s.level ≤ r.level ∧ r.logger ∉ s.disabled)).map Rec.text else [] := by
  induction ms generalizing s with
  | nil => exact ⟨s, rfl, fun k => by simp⟩
  | cons r rs ih =>
    obtain ⟨s', h1, h2⟩ := ih (emit r s)
    refine ⟨s', h1, fun k => ?_⟩
    rw [h2 k]
    have e1 : (emit r s).sink = s.sink := rfl
    have e2 : (emit r s).level = s.level := rfl
    have e3 : (emit r s).disabled = s.disabled := rfl
    rw [e1, e2, e3]
    unfold emit
    simp only
    by_cases hr : r.logger ∈ s.disabled ∨ r.level < s.level
    · rw [if_pos hr, List.filter_cons_of_neg]
      rw [decide_eq_true_eq]
      rintro ⟨a, b⟩
      exact hr.elim b fun q => absurd a (by omega)
    · rw [if_neg hr, List.filter_cons_of_pos]
      · by_cases hk : k = s.sink
        · simp [hk]
        · simp [hk]
      · rw [decide_eq_true_eq]
        exact ⟨by by_contra q; exact hr (.inr (by omega)), fun q => hr (.inl q)⟩

/-! ### What a run logs -/

open Classical in
/-- Whatever happened before, a run appends to its log, in order, the messages of the configured level that come from loggers not used
before it, and writes nothing elsewhere. -/
theorem C160_lines (old : Sink → List String) (h : List Op) (c : Cfg) (l : Nat) (ms : List Rec) (s : St) (hc : Valid c l)
    (hs : run (init old) h = .ok s) : ∃ s', run (init old) (h ++ session c ms) = .ok s' ∧ ∀ k, s'.out k = s.out k ++
      if k = target c then (ms.filter fun r => decide (l ≤ r.level ∧ ¬ Used h r.logger)).map Rec.text else [] := by
  obtain ⟨k1, k2⟩ := run_known hs (by intro n hn; cases hn)
  have kn : ∀ n, n ∈ s.known ++ s.disabled ↔ Used h n := by
    intro n
    rw [List.mem_append]
    constructor
    · rintro (q | q)
      · exact ((k1 n).1 q).elim (fun w => absurd w List.not_mem_nil) id
      · exact ((k1 n).1 (k2 n q)).elim (fun w => absurd w List.not_mem_nil) id
    · exact fun q => .inl ((k1 n).2 (.inr q))
  obtain ⟨s', e1, e2⟩ := emits { s with disabled := s.known ++ s.disabled, level := l, sink := target c } ms
  refine ⟨s', ?_, fun k => ?_⟩
  · rw [run_append, hs]
    show run s (.setup c :: _) = _
    simp only [run, step, setup_ok hc]
    exact e1
  · rw [e2 k]
    simp only [kn]

/-- The first run of a process, or one whose modules have not logged before, logs everything. -/
theorem C160_first_partial (old : Sink → List String) (h : List Op) (c : Cfg) (l : Nat) (ms : List Rec) (s : St) (hc : Valid c l)
    (hs : run (init old) h = .ok s) (hn : ∀ r ∈ ms, ¬ Used h r.logger) : ∃ s', run (init old) (h ++ session c ms) = .ok s' ∧
      ∀ k, s'.out k = s.out k ++ if k = target c then (ms.filter fun r => l ≤ r.level).map Rec.text else [] := by
  obtain ⟨s', e1, e2⟩ := C160_lines old h c l ms s hc hs
  refine ⟨s', e1, fun k => ?_⟩
  rw [e2 k]
  congr 3
  refine List.filter_congr fun r hr => ?_
  simp [hn r hr]

/-- A second run with the same modules logs nothing, whatever its level and file. -/
theorem C160_silent (old : Sink → List String) (h : List Op) (c : Cfg) (l : Nat) (ms : List Rec) (s : St) (hc : Valid c l)
    (hs : run (init old) h = .ok s) (hn : ∀ r ∈ ms, Used h r.logger) :
    ∃ s', run (init old) (h ++ session c ms) = .ok s' ∧ s'.out = s.out := by
  obtain ⟨s', e1, e2⟩ := C160_lines old h c l ms s hc hs
  refine ⟨s', e1, funext fun k => ?_⟩
  rw [e2 k, List.filter_eq_nil_iff.2]
  · simp
  · intro r hr
    simp [hn r hr]

/-- A log file only grows: no run removes what is in it. -/
theorem C160_append (s s' : St) (h : List Op) (e : run s h = .ok s') (k : Sink) : s.out k <+: s'.out k := by
  induction h generalizing s with
  | nil => cases e; exact List.prefix_refl _
  | cons o os ih =>
    cases o with
    | setup c =>
      simp only [run, step] at e
      cases hq : setup c s with
      | error x => rw [hq] at e; cases e
      | ok s1 =>
        rw [hq] at e
        have := ih s1 e
        rwa [(setup_shape hq).2.2] at this
    | emit r =>
      simp only [run, step] at e
      refine List.IsPrefix.trans ?_ (ih _ e)
      unfold emit
      simp only
      split_ifs
      · exact List.prefix_refl _
      · simp only
        split_ifs
        · exact List.prefix_append _ _
        · exact List.prefix_refl _

/-- The constructor fails exactly on a level that Python does not know, or a log file without a directory. -/
theorem C160_setup (c : Cfg) (s : St) : (∃ s', setup c s = .ok s') ↔ ∃ l, Valid c l := by
  constructor
  · rintro ⟨s', h⟩
    unfold setup at h
    unfold Valid
    split at h
    · rename_i d p hf
      split at h
      · cases h
      · rename_i hd
        split at h
        · cases h
        · rename_i l hl
          refine ⟨l, hl, fun d' p' q => ?_⟩
          rw [hf] at q
          cases q
          exact hd
    · rename_i hf
      split at h
      · cases h
      · rename_i l hl
        exact ⟨l, hl, fun d' p' q => by rw [hf] at q; cases q⟩
  · rintro ⟨l, hl⟩
    exact ⟨_, setup_ok hl s⟩

/-! ### The full claim is false -/

/-- A warning of the precipitation module. -/
def warning : Rec := ⟨"smrf.distribute.precipitation", 30, "Setting storm_days to 0"⟩

/-- Logging into a file. -/
def toFile : Cfg := ⟨some "info", some ("output", "output/log.txt")⟩

private theorem toFile_valid : Valid toFile 20 := ⟨by decide, by rintro d p ⟨⟩; decide⟩

/-- Two runs in one process: the warning of the second is lost. -/
theorem C160_fails : ¬ C160_full := by
  intro hf
  obtain ⟨s, h1, -⟩ := C160_lines (fun _ => []) [] toFile 20 [warning] (init fun _ => []) toFile_valid rfl
  obtain ⟨s1, h2, h3⟩ := hf (fun _ => []) _ toFile 20 [warning] s toFile_valid h1
  obtain ⟨s2, h4, h5⟩ := C160_silent (fun _ => []) _ toFile 20 [warning] s toFile_valid h1 (by
    intro r hr
    rw [List.mem_singleton] at hr
    subst hr
    exact ⟨warning, by simp [session], rfl⟩)
  rw [h2] at h4
  cases h4
  have := h3 (target toFile)
  rw [h5, if_pos rfl] at this
  have := congrArg List.length this
  simp [warning] at this

/-- The first run of a process writes its warning. -/
example : ∃ s', run (init fun _ => []) ([] ++ session toFile [warning]) = .ok s' ∧
    ∀ k, s'.out k = [] ++ if k = target toFile then (([warning] : List Rec).filter fun r => 20 ≤ r.level).map Rec.text else [] :=
  C160_first_partial (fun _ => []) [] toFile 20 [warning] (init fun _ => []) toFile_valid rfl
    (by rintro r - ⟨t, ht, -⟩; exact absurd ht List.not_mem_nil)

/-- The levels that the configuration allows, and no level. -/
example : Valid ⟨some "debug", none⟩ 10 ∧ Valid ⟨some "info", none⟩ 20 ∧ Valid ⟨some "error", none⟩ 40 ∧ Valid ⟨none, none⟩ 20 :=
  ⟨⟨by decide, by simp⟩, ⟨by decide, by simp⟩, ⟨by decide, by simp⟩, ⟨by decide, by simp⟩⟩

/-- A log file named without a directory is refused. -/
example (s : St) : setup ⟨none, some ("", "log.txt")⟩ s = .error .noFile := rfl

end Verif.Logs
