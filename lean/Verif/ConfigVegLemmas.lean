import Verif.ConfigVeg
import Verif.WindProps
import Mathlib.Data.List.Nodup

namespace Verif.ConfigVeg

theorem split_ne_nil (c : Char) (s : Str) : split c s ≠ [] := by
  cases s with
  | nil => simp [split]
  | cons x xs =>
    unfold split
    split
    · simp
    · split <;> simp

theorem split_none (c : Char) (s : Str) (h : c ∉ s) : split c s = [s] := by
  induction s with
  | nil => rfl
  | cons x xs ih =>
    have h1 : x ≠ c := fun e => h (by simp [e])
    have h2 : c ∉ xs := fun e => h (by simp [e])
    unfold split
    rw [if_neg h1, ih h2]

theorem split_append (c : Char) (p s : Str) (h : c ∉ p) : split c (p ++ c :: s) = p :: split c s := by
  induction p with
  | nil => simp [split]
  | cons x xs ih =>
    have h1 : x ≠ c := fun e => h (by simp [e])
    have h2 : c ∉ xs := fun e => h (by simp [e])
    show split c (x :: (xs ++ c :: s)) = _
    rw [split, if_neg h1, ih h2]

theorem split_last (c : Char) (p s : Str) (h : c ∉ s) : (split c (p ++ c :: s)).getLast? = some s := by
  induction p with
  | nil =>
    show (split c (c :: s)).getLast? = _
    unfold split
    rw [if_pos rfl, split_none c s h]
    rfl
  | cons x xs ih =>
    show (split c (x :: (xs ++ c :: s))).getLast? = _
    unfold split
    split
    · obtain ⟨a, l, e⟩ : ∃ a l, split c (xs ++ c :: s) = a :: l := by
        cases h' : split c (xs ++ c :: s) with
        | nil => exact absurd h' (split_ne_nil _ _)
        | cons a l => exact ⟨a, l, rfl⟩
      rw [e] at ih ⊢
      simpa using ih
    · have hlen : 2 ≤ (split c (xs ++ c :: s)).length := by
        clear ih
        induction xs with
        | nil =>
          show 2 ≤ (split c (c :: s)).length
          unfold split
          rw [if_pos rfl, split_none c s h]
          simp
        | cons y ys ih =>
          show 2 ≤ (split c (y :: (ys ++ c :: s))).length
          unfold split
          split
          · simp; omega
          · split
            · rename_i e; rw [e] at ih; simp at ih
            · rename_i e; rw [e] at ih; simpa using ih
      split
      · rename_i e; rw [e] at hlen; simp at hlen
      · rename_i a l e
        rw [e] at ih hlen
        cases l with
        | nil => simp at hlen
        | cons b l => simpa using ih

theorem contains_append (n p s : Str) : contains n (p ++ (n ++ s)) = true := by
  induction p with
  | nil =>
    show contains n (n ++ s) = true
    have h : n.isPrefixOf (n ++ s) = true := by simp
    cases e : n ++ s with
    | nil => rw [e] at h; simpa [contains] using h
    | cons x xs => rw [e] at h; unfold contains; rw [h]; rfl
  | cons x xs ih =>
    show contains n (x :: (xs ++ (n ++ s))) = true
    unfold contains
    rw [ih, Bool.or_true]

theorem build_nodup {V : Type} (key : Str → Except Err Str) (val : Val → Except Err V) (f : Str → Str) (g : Val → V)
    (l : List (Str × Val)) (d : Dict V) (hk : ∀ e ∈ l, key e.1 = .ok (f e.1)) (hv : ∀ e ∈ l, val e.2 = .ok (g e.2))
    (hn : (d.map Prod.fst ++ l.map fun e => f e.1).Nodup) :
    build key val d l = .ok (d ++ l.map fun e => (f e.1, g e.2)) := by
  induction l generalizing d with
  | nil => simp [build]
  | cons e l ih =>
    obtain ⟨m, v⟩ := e
    have h1 := hk (m, v) (by simp)
    have h2 := hv (m, v) (by simp)
    simp only at h1 h2
    unfold build
    rw [h2]; simp only
    rw [h1]; simp only
    have hnot : d.any (fun e => decide (e.1 = f m)) = false := by
      rw [List.any_eq_false]
      intro e he h
      have h := of_decide_eq_true h
      rw [List.nodup_append] at hn
      exact hn.2.2 _ (List.mem_map.2 ⟨e, he, rfl⟩) (f m) (by simp) h
    have hset : Dict.set d (f m) (g v) = d ++ [(f m, g v)] := by
      unfold Dict.set
      rw [hnot]; rfl
    rw [hset, ih]
    · simp
    · exact fun e he => hk e (by simp [he])
    · exact fun e he => hv e (by simp [he])
    · simpa using hn

theorem build_const {V : Type} (key : Str → Except Err Str) (val : Val → Except Err V) (k : Str) (g : Val → V)
    (l : List (Str × Val)) (x : V) (hk : ∀ e ∈ l, key e.1 = .ok k) (hv : ∀ e ∈ l, val e.2 = .ok (g e.2)) :
    ∃ y, build key val [(k, x)] l = .ok [(k, y)] := by
  induction l generalizing x with
  | nil => exact ⟨x, rfl⟩
  | cons e l ih =>
    obtain ⟨m, v⟩ := e
    have h1 := hk (m, v) (by simp)
    have h2 := hv (m, v) (by simp)
    simp only at h1 h2
    unfold build
    rw [h2]; simp only
    rw [h1]; simp only
    have hset : Dict.set [(k, x)] k (g v) = [(k, g v)] := by simp [Dict.set]
    rw [hset]
    exact ih _ (fun e he => hk e (by simp [he])) (fun e he => hv e (by simp [he]))

theorem get_iff {V : Type} (d : Dict V) (hn : (d.map Prod.fst).Nodup) (k : Str) (v : V) :
    d.get? k = some v ↔ (k, v) ∈ d := by
  induction d with
  | nil => simp [Dict.get?]
  | cons e d ih =>
    obtain ⟨k', v'⟩ := e
    simp only [List.map_cons, List.nodup_cons] at hn
    have ih := ih hn.2
    unfold Dict.get? at ih ⊢
    rw [List.find?_cons]
    by_cases h : k' = k
    · subst h
      simp only [decide_true, Option.map_some, List.mem_cons, Prod.mk.injEq, true_and]
      constructor
      · intro h; exact .inl (Option.some.inj h).symm
      · rintro (h | h)
        · rw [h]
        · exact absurd (List.mem_map.2 ⟨_, h, rfl⟩) hn.1
    · simp only [h, decide_false, List.mem_cons, Prod.mk.injEq]
      rw [ih]
      exact ⟨.inr, fun h' => h'.resolve_left fun ⟨a, _⟩ => h a.symm⟩

theorem pyInt_digits (n : Nat) : pyInt (Nat.toDigits 10 n) = .ok n := by
  unfold pyInt
  rw [if_pos, Nat.ofDigitChars_ten_toDigits]
  refine ⟨Nat.toDigits_ne_nil, ?_⟩
  rw [List.all_eq_true]
  intro c hc
  exact Nat.isDigit_of_mem_toDigits (by norm_num) (by norm_num) hc

theorem classes_digits {V W : Type} (l : List W) (f : W → Nat) (g : W → V) :
    classes (l.map fun e => (Nat.toDigits 10 (f e), g e)) = .ok (l.map fun e => (f e, g e)) := by
  induction l with
  | nil => rfl
  | cons e l ih => simp only [List.map_cons, classes, pyInt_digits, ih]

end Verif.ConfigVeg
