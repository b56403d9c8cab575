import Verif.Output
import Verif.QueueLemmas
import Mathlib.Data.List.Induction

/-! Helper lemmas for C12-C15. -/

namespace Verif.Output
open Verif.Queue

theorem threaded_get {D : Type} [DecidableEq D] (f n : Nat) (count : Nat) (ts : List D) (t : D) :
    t ∈ threadedSteps f n count ts ↔ ∃ i, ts[i]? = some t ∧ isOutput f n (count + i) = true := by
  induction ts generalizing count with
  | nil => simp [threadedSteps]
  | cons a ts ih =>
    have hs : (∃ i, (a :: ts)[i]? = some t ∧ isOutput f n (count + i) = true) ↔
        (a = t ∧ isOutput f n count = true) ∨
          ∃ i, ts[i]? = some t ∧ isOutput f n (count + 1 + i) = true := by
      constructor
      · rintro ⟨i, h1, h2⟩
        cases i with
        | zero => simp at h1; exact .inl ⟨h1, h2⟩
        | succ i =>
          refine .inr ⟨i, by simpa using h1, ?_⟩
          rw [show count + 1 + i = count + (i + 1) by omega]; exact h2
      · rintro (⟨rfl, h⟩ | ⟨i, h1, h2⟩)
        · exact ⟨0, by simp, h⟩
        · refine ⟨i + 1, by simpa using h1, ?_⟩
          rw [show count + (i + 1) = count + 1 + i by omega]; exact h2
    rw [hs]
    simp only [threadedSteps]
    split
    · rename_i h
      rw [List.mem_cons, ih]
      simp only [h, and_true, eq_comm (a := a)]
    · rename_i h
      rw [ih]
      simp only [h, and_false, Bool.false_eq_true, false_or]

theorem threaded_eq_filter {D : Type} [DecidableEq D] (f n : Nat) (pre ts : List D)
    (hd : (pre ++ ts).Nodup) :
    threadedSteps f n pre.length ts =
      ts.filter fun t => isOutput f n ((pre ++ ts).idxOf t) := by
  induction ts generalizing pre with
  | nil => simp [threadedSteps]
  | cons a ts ih =>
    have h1 := ih (pre ++ [a]) (by simpa using hd)
    simp only [List.length_append, List.length_singleton, List.append_assoc, List.singleton_append]
      at h1
    have hna : a ∉ pre := by
      intro h
      rw [List.nodup_append] at hd
      exact hd.2.2 a h a (by simp) rfl
    have hidx : (pre ++ a :: ts).idxOf a = pre.length := by
      rw [List.idxOf_append, if_neg hna]; simp
    simp only [threadedSteps, List.filter_cons, hidx, h1]

section
variable {T R : Type} [DecidableEq T]

theorem write_eq_set (ρ : T → T) (file : List (T × R)) (w : T × R) (h : ρ w.1 = w.1) :
    write ρ file w = Dict.set file w.1 w.2 := by
  induction file with
  | nil => simp [write, findTime, Dict.set, h]
  | cons r rs ih =>
    obtain ⟨a, x⟩ := r
    simp only [write, findTime, Dict.set] at *
    by_cases ha : a = w.1
    · simp [ha, h]
    · simp only [ha, if_false]
      rw [← ih]
      cases findTime w.1 rs <;> simp

theorem writes_eq (ρ : T → T) (file ws : List (T × R)) (h : ∀ w ∈ ws, ρ w.1 = w.1) :
    writes ρ file ws = ws.foldl (fun d w => Dict.set d w.1 w.2) file := by
  induction ws generalizing file with
  | nil => rfl
  | cons w ws ih =>
    simp only [writes, List.foldl_cons]
    rw [write_eq_set ρ file w (h w (by simp))]
    exact ih _ fun w hw => h w (by simp [hw])

/-- Insert a time into the time axis. -/
def ins (ts : List T) (t : T) : List T := if t ∈ ts then ts else ts ++ [t]

theorem keys_foldl (file ws : List (T × R)) :
    Dict.keys (ws.foldl (fun d w => Dict.set d w.1 w.2) file) =
      (ws.map Prod.fst).foldl ins (Dict.keys file) := by
  induction ws generalizing file with
  | nil => rfl
  | cons w ws ih =>
    simp only [List.foldl_cons, List.map_cons, ih, Dict.keys_set, ins]

theorem ins_mem (ts : List T) (t : T) : t ∈ ins ts t := by
  unfold ins; split <;> simp [*]

theorem ins_of_mem {ts : List T} {t : T} (h : t ∈ ts) : ins ts t = ts := by simp [ins, h]

theorem foldl_ins_mono (ts l : List T) (x : T) (h : x ∈ ts) : x ∈ l.foldl ins ts := by
  induction l generalizing ts with
  | nil => exact h
  | cons a l ih =>
    refine ih _ ?_
    unfold ins; split <;> simp [h]

theorem foldl_ins_subset (ts l : List T) (h : ∀ x ∈ l, x ∈ ts) : l.foldl ins ts = ts := by
  induction l with
  | nil => rfl
  | cons a l ih =>
    rw [List.foldl_cons, ins_of_mem (h a (by simp))]
    exact ih fun x hx => h x (by simp [hx])

theorem mem_foldl_ins (ts l : List T) (x : T) : x ∈ l.foldl ins ts ↔ x ∈ ts ∨ x ∈ l := by
  induction l generalizing ts with
  | nil => simp
  | cons a l ih =>
    rw [List.foldl_cons, ih]
    unfold ins
    split
    · simp only [List.mem_cons]
      constructor
      · rintro (h | h) <;> simp [h]
      · rintro (h | rfl | h)
        · exact .inl h
        · exact .inl ‹_›
        · exact .inr h
    · simp [or_assoc]

theorem foldl_ins_absorb (ts pre l : List T) :
    (pre ++ l).foldl ins (pre.foldl ins ts) = (pre ++ l).foldl ins ts := by
  rw [List.foldl_append, List.foldl_append]
  congr 1
  exact foldl_ins_subset _ _ fun x hx => (mem_foldl_ins _ _ _).2 (.inr hx)

theorem nodup_foldl_ins (ts l : List T) (h : ts.Nodup) : (l.foldl ins ts).Nodup := by
  induction l generalizing ts with
  | nil => exact h
  | cons a l ih =>
    refine ih _ ?_
    unfold ins
    split
    · exact h
    · rw [List.nodup_append]
      refine ⟨h, by simp, ?_⟩
      intro x hx y hy e
      simp at hy
      subst hy; subst e
      exact absurd hx ‹_›

/-- A dictionary is determined by its keys and its lookups. -/
theorem dict_ext {d d' : Dict T R} (hd : d.keys.Nodup) (hk : d.keys = d'.keys)
    (hg : ∀ t, d.get? t = d'.get? t) : d = d' := by
  induction d generalizing d' with
  | nil =>
    cases d' with
    | nil => rfl
    | cons => simp [Dict.keys] at hk
  | cons p d ih =>
    cases d' with
    | nil => simp [Dict.keys] at hk
    | cons p' d' =>
      obtain ⟨a, x⟩ := p
      obtain ⟨b, y⟩ := p'
      simp only [Dict.keys, List.map_cons, List.cons.injEq] at hk
      obtain ⟨rfl, hk⟩ := hk
      have hxy := hg a
      simp only [Dict.get?, if_true, Option.some.injEq] at hxy
      subst hxy
      simp only [Dict.keys, List.map_cons, List.nodup_cons] at hd
      congr 1
      refine ih hd.2 hk ?_
      intro t
      have := hg t
      simp only [Dict.get?] at this
      by_cases h : a = t
      · subst h
        rw [(Dict.get?_eq_none_iff d a).2 hd.1, (Dict.get?_eq_none_iff d' a).2]
        show a ∉ d'.map Prod.fst
        rw [← hk]; exact hd.1
      · simpa [h] using this

/-- Value of the last write to `t`, if any. -/
def lastWrite (t : T) : List (T × R) → Option R
  | [] => none
  | w :: ws => match lastWrite t ws with
    | some r => some r
    | none => if w.1 = t then some w.2 else none

theorem get?_foldl (file ws : List (T × R)) (t : T) :
    Dict.get? (ws.foldl (fun d w => Dict.set d w.1 w.2) file) t =
      (lastWrite t ws).or (Dict.get? file t) := by
  induction ws generalizing file with
  | nil => simp [lastWrite]
  | cons w ws ih =>
    simp only [List.foldl_cons, ih, lastWrite, Dict.get?_set]
    cases h : lastWrite t ws with
    | some r => simp
    | none =>
      by_cases h2 : w.1 = t
      · simp [h2]
      · simp [h2, Ne.symm h2]

theorem lastWrite_isSome (t : T) (ws : List (T × R)) :
    (∃ r, lastWrite t ws = some r) ↔ t ∈ ws.map Prod.fst := by
  induction ws with
  | nil => simp [lastWrite]
  | cons w ws ih =>
    simp only [lastWrite, List.map_cons, List.mem_cons]
    cases h : lastWrite t ws with
    | some r => simp [h] at ih; simp [ih]
    | none =>
      simp [h] at ih
      by_cases h2 : w.1 = t
      · simp [h2]
      · simp [h2, Ne.symm h2]; exact ih

theorem keys_writeTime (ρ : T → T) (fill : R) (file : List (T × R)) (t : T) (h : ρ t = t) :
    Dict.keys (writeTime ρ fill file t) = ins (Dict.keys file) t ∧
    ∀ t', t' ≠ t → Dict.get? (writeTime ρ fill file t) t' = Dict.get? file t' := by
  induction file with
  | nil =>
    simp only [writeTime, findTime, h, List.nil_append, Dict.keys, List.map_cons, List.map_nil, ins,
      Dict.get?]
    refine ⟨by simp, ?_⟩
    intro t' ht
    simp [Ne.symm ht]
  | cons r rs ih =>
    obtain ⟨a, x⟩ := r
    simp only [writeTime, findTime] at *
    by_cases ha : a = t
    · subst ha
      simp only [if_true, List.modify_zero_cons, h]
      constructor
      · rw [ins_of_mem (by simp [Dict.keys])]
      · intro t' ht; simp [Dict.get?]
    · simp only [ha, if_false]
      cases hf : findTime t rs with
      | none =>
        simp only [hf, Option.map_none] at ih ⊢
        obtain ⟨h1, h2⟩ := ih
        constructor
        · simp only [Dict.keys, List.map_cons, List.cons_append] at h1 ⊢
          rw [h1]
          simp only [ins, List.mem_cons, Ne.symm ha, false_or]
          split <;> simp
        · intro t' ht
          simp only [List.cons_append, Dict.get?, h2 t' ht]
      | some i =>
        simp only [hf, Option.map_some] at ih ⊢
        obtain ⟨h1, h2⟩ := ih
        constructor
        · simp only [List.modify_succ_cons, Dict.keys, List.map_cons] at h1 ⊢
          rw [h1]
          simp only [ins, List.mem_cons, Ne.symm ha, false_or]
          split <;> simp
        · intro t' ht
          simp only [List.modify_succ_cons, Dict.get?, h2 t' ht]
end

/-! ### Catalogue -/

theorem possible_sound (cat : Catalogue) (v m : String) (h : (possible cat).get? v = some m) :
    ∃ vs, (m, vs) ∈ cat ∧ v ∈ vs := by
  have inner : ∀ (m : String) (vs : List String) (d : Dict String String),
      (vs.foldl (fun d v => d.set v m) d).get? v = if v ∈ vs then some m else d.get? v := by
    intro m vs
    induction vs with
    | nil => intro d; simp
    | cons a vs ih =>
      intro d
      rw [List.foldl_cons, ih, Dict.get?_set]
      by_cases h1 : v ∈ vs
      · simp [h1]
      · by_cases h2 : v = a <;> simp [h1, h2]
  have outer : ∀ (cat : Catalogue) (d : Dict String String),
      (cat.foldl (fun d m => m.2.foldl (fun d v => d.set v m.1) d) d).get? v = some m →
      d.get? v = some m ∨ ∃ vs, (m, vs) ∈ cat ∧ v ∈ vs := by
    intro cat
    induction cat with
    | nil => intro d h; exact .inl h
    | cons p cat ih =>
      intro d h
      rw [List.foldl_cons] at h
      rcases ih _ h with h | ⟨vs, h1, h2⟩
      · rw [inner] at h
        split at h
        · cases h
          exact .inr ⟨p.2, by simp, ‹_›⟩
        · exact .inl h
      · exact .inr ⟨vs, by simp [h1], h2⟩
  rcases outer cat [] h with h | h
  · simp [Dict.get?] at h
  · exact h

theorem possible_complete (cat : Catalogue) (v m : String) (vs : List String) (hm : (m, vs) ∈ cat)
    (hv : v ∈ vs) : ∃ m', (possible cat).get? v = some m' := by
  have inner : ∀ (m : String) (vs : List String) (d : Dict String String),
      (vs.foldl (fun d v => d.set v m) d).get? v = if v ∈ vs then some m else d.get? v := by
    intro m vs
    induction vs with
    | nil => intro d; simp
    | cons a vs ih =>
      intro d
      rw [List.foldl_cons, ih, Dict.get?_set]
      by_cases h1 : v ∈ vs
      · simp [h1]
      · by_cases h2 : v = a <;> simp [h1, h2]
  have outer : ∀ (cat : Catalogue) (d : Dict String String),
      ((∃ m', d.get? v = some m') ∨ ∃ m vs, (m, vs) ∈ cat ∧ v ∈ vs) →
      ∃ m', (cat.foldl (fun d m => m.2.foldl (fun d v => d.set v m.1) d) d).get? v = some m' := by
    intro cat
    induction cat with
    | nil => intro d h; rcases h with h | ⟨_, _, h, _⟩; exact h; cases h
    | cons p cat ih =>
      intro d h
      rw [List.foldl_cons]
      refine ih _ ?_
      rw [inner]
      rcases h with ⟨m', h⟩ | ⟨m, vs, h, hv⟩
      · left; split
        · exact ⟨_, rfl⟩
        · exact ⟨_, h⟩
      · rcases List.mem_cons.1 h with rfl | h
        · left; simp [hv]
        · exact .inr ⟨m, vs, h, hv⟩
  exact outer cat [] (.inr ⟨m, vs, hm, hv⟩)

/-- The entry created for a variable of module `m`. -/
def mkEntry (loc v m : String) : Entry :=
  { name := v
    module := if m = "precipitation" then "precip" else m
    outLocation := loc ++ "/" ++ v }

theorem addVariable_get? (cat : Catalogue) (loc : String) (d : Dict String Entry) (a v : String) :
    (addVariable cat loc d a).get? v =
      if v = a then (((possible cat).get? v).map (mkEntry loc v)).or (d.get? v) else d.get? v := by
  unfold addVariable
  by_cases h : v = a
  · subst h
    cases (possible cat).get? v with
    | none => simp
    | some m => simp [Dict.get?_set, mkEntry]
  · cases (possible cat).get? a with
    | none => simp [h]
    | some m => simp [Dict.get?_set, h]

theorem variableDict_get? (cat : Catalogue) (loc : String) (req : List String) (v : String) :
    (variableDict cat loc req).get? v =
      if v ∈ req then ((possible cat).get? v).map (mkEntry loc v) else none := by
  have key : ∀ (req : List String) (d : Dict String Entry),
      (req.foldl (addVariable cat loc) d).get? v =
      if v ∈ req then (((possible cat).get? v).map (mkEntry loc v)).or (d.get? v)
      else d.get? v := by
    intro req
    induction req with
    | nil => intro d; simp
    | cons a req ih =>
      intro d
      rw [List.foldl_cons, ih, addVariable_get?]
      by_cases hva : v = a
      · subst hva
        cases (possible cat).get? v <;> simp
      · simp [hva]
  rw [variableDict, key req []]
  simp [Dict.get?]

theorem variableDict_nodup (cat : Catalogue) (loc : String) (req : List String) :
    (variableDict cat loc req).keys.Nodup := by
  have key : ∀ (req : List String) (d : Dict String Entry), d.keys.Nodup →
      (req.foldl (addVariable cat loc) d).keys.Nodup := by
    intro req
    induction req with
    | nil => intro d h; exact h
    | cons a req ih =>
      intro d h
      rw [List.foldl_cons]
      refine ih _ ?_
      unfold addVariable
      split
      · exact Dict.nodup_set _ h _ _
      · exact h
  exact key req [] (by simp [Dict.keys])

end Verif.Output
