import Verif.ConfigVegLemmas

/-!
C108: a vegetation value of the configuration reaches the cells of the class in its name, and no others.
-/

namespace Verif.ConfigVeg

/-- Decimal writing of a class. -/
abbrev num (n : Nat) : Str := Nat.toDigits 10 n

theorem num_inj {m n : Nat} (h : num m = num n) : m = n := by
  have h1 := pyInt_digits m
  rw [show Nat.toDigits 10 m = Nat.toDigits 10 n from h, pyInt_digits] at h1
  exact (Except.ok.inj h1).symm

theorem num_no_underscore (n : Nat) : '_' ∉ num n := Nat.underscore_not_in_toDigits

theorem num_ne_default (n : Nat) : num n ≠ "default".toList := by
  intro h
  have h1 := pyInt_digits n
  rw [show Nat.toDigits 10 n = "default".toList from h] at h1
  have h2 : pyInt "default".toList = .error .valueError := by decide
  rw [h2] at h1; cases h1

/-- The number of a value. -/
def Val.isNum : Val → ℝ → Prop
  | .one x, y => x = y
  | .many l, y => l.head? = some y

theorem first_iff (v : Val) (x : ℝ) : v.first = .ok x ↔ v.isNum x := by
  cases v with
  | one y => simp [Val.first, Val.isNum]
  | many l => cases l <;> simp [Val.first, Val.isNum]

/-- The items of a section are a table `prefix` + class: names are different, every item that contains `word` is the default
or a class, and has a number. -/
structure Table (word pre : Str) (cfg : List (Str × Val)) : Prop where
  nodup : (cfg.map Prod.fst).Nodup
  form : ∀ e ∈ cfg, contains word e.1 = true → e.1 = pre ++ "default".toList ∨ ∃ n, e.1 = pre ++ num n
  num : ∀ e ∈ cfg, contains word e.1 = true → ∃ x, e.2.isNum x

/-- The number of a value that has one. -/
noncomputable def Val.get (v : Val) : ℝ := match v.first with | .ok x => x | .error _ => 0

theorem Val.get_eq {v : Val} {x : ℝ} (h : v.isNum x) : v.get = x := by
  unfold Val.get; rw [(first_iff v x).2 h]

/-- The suffix of a name. -/
def suffix (pre m : Str) : Str := m.drop pre.length

theorem suffix_app (pre s : Str) : suffix pre (pre ++ s) = s := by simp [suffix]

theorem part_one (s : Str) (h : '_' ∉ s) : part 1 ("veg_".toList ++ s) = .ok s := by
  unfold part
  have e : "veg_".toList ++ s = "veg".toList ++ '_' :: s := by simp
  rw [e, split_append _ _ _ (by decide), split_none _ _ h]
  rfl

theorem suffixes_nodup (word pre : Str) (cfg : List (Str × Val)) (t : Table word pre cfg) :
    ((cfg.filter fun e => contains word e.1).map fun e => suffix pre e.1).Nodup := by
  have h1 : ((cfg.filter fun e => contains word e.1).map Prod.fst).Nodup :=
    t.nodup.sublist (List.filter_sublist.map _)
  have h2 : (cfg.filter fun e => contains word e.1).map (fun e => suffix pre e.1) =
      ((cfg.filter fun e => contains word e.1).map Prod.fst).map (suffix pre) := by
    rw [List.map_map]; rfl
  rw [h2]
  refine (List.nodup_map_iff_inj_on h1).2 ?_
  intro a ha b hb hab
  obtain ⟨x, hx, rfl⟩ := List.mem_map.1 ha
  obtain ⟨y, hy, rfl⟩ := List.mem_map.1 hb
  have form : ∀ x ∈ cfg.filter fun e => contains word e.1, x.1 = pre ++ suffix pre x.1 := by
    intro x hx
    obtain ⟨h1, h2⟩ := List.mem_filter.1 hx
    rcases t.form x h1 h2 with h | ⟨n, h⟩ <;> rw [h, suffix_app]
  rw [form x hx, form y hy, hab]

/-- The dictionary of the wind. -/
theorem windVeg_eq (cfg : List (Str × Val)) (t : Table "veg_".toList "veg_".toList cfg) :
    windVeg cfg = .ok ((cfg.filter fun e => contains "veg_".toList e.1).map fun e => (suffix "veg_".toList e.1, e.2.get)) := by
  unfold windVeg
  rw [build_nodup (part 1) Val.first (suffix "veg_".toList) Val.get]
  · rfl
  · intro e he
    obtain ⟨h1, h2⟩ := List.mem_filter.1 he
    rcases t.form e h1 h2 with h | ⟨n, h⟩
    · rw [h, suffix_app]; exact part_one _ (by decide)
    · rw [h, suffix_app]; exact part_one _ (num_no_underscore n)
  · intro e he
    obtain ⟨h1, h2⟩ := List.mem_filter.1 he
    obtain ⟨x, hx⟩ := t.num e h1 h2
    rw [Val.get_eq hx]
    exact (first_iff _ _).2 hx
  · exact suffixes_nodup _ _ cfg t

/-- C108, wind: at every cell the value of its class is added to the maxus, or the default when its class is not configured. -/
theorem C108_wind (cfg : List (Str × Val)) (t : Table "veg_".toList "veg_".toList cfg) (v0 : Val) (dflt : ℝ)
    (h0 : ("veg_default".toList, v0) ∈ cfg) (hd : v0.isNum dflt) :
    ∃ d, windVeg cfg = .ok d ∧ ∀ (cls : Nat) (c : ℝ),
      (∀ v x, ("veg_".toList ++ num cls, v) ∈ cfg → v.isNum x → windAdjust d cls c = .ok (c + x)) ∧
      ((∀ v, ("veg_".toList ++ num cls, v) ∉ cfg) → windAdjust d cls c = .ok (c + dflt)) := by
  refine ⟨_, windVeg_eq cfg t, ?_⟩
  set l := cfg.filter fun e => contains "veg_".toList e.1 with hl
  have hmem : ∀ e, e ∈ l ↔ e ∈ cfg ∧ contains "veg_".toList e.1 = true := by simp [hl]
  have hform : ∀ e ∈ l, e.1 = "veg_".toList ++ "default".toList ∨ ∃ n, e.1 = "veg_".toList ++ num n :=
    fun e he => t.form e ((hmem e).1 he).1 ((hmem e).1 he).2
  have hnd := suffixes_nodup _ _ cfg t
  rw [← hl] at hnd
  have hc : ∀ s : Str, contains "veg_".toList ("veg_".toList ++ s) = true := fun s => contains_append _ [] s
  -- the class numbers
  have hclass : ∃ k : List (Nat × ℝ),
      classes ((l.map fun e => (suffix "veg_".toList e.1, e.2.get)).filter fun e => e.1 ≠ "default".toList) = .ok k ∧
      (k.map Prod.fst).Nodup ∧ ∀ n x, (n, x) ∈ k ↔ ∃ v, ("veg_".toList ++ num n, v) ∈ l ∧ v.get = x := by
    clear_value l
    clear hl hmem
    induction l with
    | nil => exact ⟨[], rfl, List.nodup_nil, by simp⟩
    | cons e l ih =>
      obtain ⟨k, hk, hkn, hki⟩ := ih (fun e he => hform e (by simp [he])) (by simp only [List.map_cons, List.nodup_cons] at hnd; exact hnd.2)
      simp only [List.map_cons, List.nodup_cons] at hnd
      obtain ⟨m, v⟩ := e
      rcases hform (m, v) (by simp) with h | ⟨n, h⟩
      · simp only at h
        subst h
        refine ⟨k, ?_, hkn, ?_⟩
        · rw [List.map_cons, List.filter_cons_of_neg (by simp only [suffix_app]; simp)]
          exact hk
        · intro n x
          rw [hki]
          constructor
          · rintro ⟨w, h1, h2⟩; exact ⟨w, List.mem_cons_of_mem _ h1, h2⟩
          · rintro ⟨w, h1, h2⟩
            rcases List.mem_cons.1 h1 with h1 | h1
            · exact absurd (List.append_cancel_left (congrArg Prod.fst h1)) (num_ne_default n)
            · exact ⟨w, h1, h2⟩
      · simp only at h
        subst h
        refine ⟨(n, v.get) :: k, ?_, ?_, ?_⟩
        · rw [List.map_cons, List.filter_cons_of_pos (by simp only [suffix_app]; exact decide_eq_true (num_ne_default n))]
          simp only [suffix_app, classes, pyInt_digits]
          simp only [hk]
        · rw [List.map_cons, List.nodup_cons]
          refine ⟨?_, hkn⟩
          intro h
          obtain ⟨⟨n', x⟩, h1, h2⟩ := List.mem_map.1 h
          simp only at h2
          subst h2
          obtain ⟨w, h3, -⟩ := (hki _ _).1 h1
          exact hnd.1 (List.mem_map.2 ⟨_, h3, by simp only [suffix_app]⟩)
        · intro n' x
          rw [List.mem_cons, hki, Prod.mk.injEq]
          constructor
          · rintro (⟨rfl, rfl⟩ | ⟨w, h1, h2⟩)
            · exact ⟨v, by simp, rfl⟩
            · exact ⟨w, List.mem_cons_of_mem _ h1, h2⟩
          · rintro ⟨w, h1, h2⟩
            rcases List.mem_cons.1 h1 with h1 | h1
            · left
              have := num_inj (List.append_cancel_left (congrArg Prod.fst h1))
              have h4 : w = v := congrArg Prod.snd h1
              exact ⟨this, by rw [← h2, h4]⟩
            · exact .inr ⟨w, h1, h2⟩
  obtain ⟨k, hk, hkn, hki⟩ := hclass
  have hget : Dict.get? (l.map fun e => (suffix "veg_".toList e.1, e.2.get)) "default".toList = some dflt := by
    rw [get_iff _ (by rw [List.map_map]; exact hnd)]
    refine List.mem_map.2 ⟨("veg_default".toList, v0), (hmem _).2 ⟨h0, hc "default".toList⟩, ?_⟩
    rw [Val.get_eq hd]
    rfl
  intro cls c
  have hadj : windAdjust (l.map fun e => (suffix "veg_".toList e.1, e.2.get)) cls c =
      .ok (Wind.vegAdjust (k.map fun e => ((e.1 : Int), e.2)) dflt cls c) := by
    unfold windAdjust
    rw [hk, hget]
  have hn' : ((k.map fun e => ((e.1 : Int), e.2)).map Prod.fst).Nodup := by
    rw [List.map_map]
    have : (Prod.fst ∘ fun e : Nat × ℝ => ((e.1 : Int), e.2)) = (fun n : Nat => (n : Int)) ∘ Prod.fst := rfl
    rw [this, ← List.map_map]
    exact hkn.map fun a b h => Int.ofNat.inj h
  obtain ⟨g1, g2⟩ := Wind.C84_vegetation (k.map fun e => ((e.1 : Int), e.2)) hn' dflt (cls : Int) c
  refine ⟨fun v x hv hx => ?_, fun hno => ?_⟩
  · rw [hadj, g1 x (List.mem_map.2 ⟨(cls, x), (hki _ _).2 ⟨v, (hmem _).2 ⟨hv, hc _⟩, Val.get_eq hx⟩, rfl⟩)]
  · rw [hadj, g2]
    intro h
    obtain ⟨⟨a, x⟩, h1, h2⟩ := List.mem_map.1 h
    obtain ⟨⟨n, y⟩, h3, h4⟩ := List.mem_map.1 h1
    simp only [Prod.mk.injEq] at h2 h4
    have : n = cls := by have := h4.1.trans h2; exact_mod_cast this
    subst this
    obtain ⟨v, h5, -⟩ := (hki _ _).1 h3
    exact hno v ((hmem _).1 h5).1

/-- C108, albedo: when the last parts of the names are different, each value is found under its last part. -/
theorem C108_albedo (d : Str) (cfg : List (Str × Val))
    (hform : ∀ e ∈ cfg, contains (d ++ ['_']) e.1 = true → ∃ p s, e.1 = p ++ '_' :: s ∧ '_' ∉ s)
    (hdiff : (cfg.filter fun e => contains (d ++ ['_']) e.1).Pairwise fun a b =>
      ∀ p q s, '_' ∉ s → a.1 = p ++ '_' :: s → b.1 = q ++ '_' :: s → False) :
    ∃ t, albedoVeg d cfg = .ok t ∧ ∀ s v, '_' ∉ s → (t.get? s = some v ↔
      ∃ p, (p ++ '_' :: s, v) ∈ cfg ∧ contains (d ++ ['_']) (p ++ '_' :: s) = true) := by
  unfold albedoVeg
  set l := cfg.filter fun e => contains (d ++ ['_']) e.1 with hl
  have hmem : ∀ e, e ∈ l ↔ e ∈ cfg ∧ contains (d ++ ['_']) e.1 = true := by simp [hl]
  let f : Str → Str := fun m => ((split '_' m).getLast?).getD []
  have hf : ∀ p s, '_' ∉ s → f (p ++ '_' :: s) = s := by
    intro p s h
    show ((split '_' (p ++ '_' :: s)).getLast?).getD [] = s
    rw [split_last _ _ _ h]; rfl
  have hn : (l.map fun e => f e.1).Nodup := by
    refine List.pairwise_map.2 (hdiff.imp_of_mem ?_)
    intro a b ha hb h hab
    obtain ⟨p, s, e1, e2⟩ := hform a ((hmem a).1 ha).1 ((hmem a).1 ha).2
    obtain ⟨q, s', e3, e4⟩ := hform b ((hmem b).1 hb).1 ((hmem b).1 hb).2
    rw [e1, e3, hf _ _ e2, hf _ _ e4] at hab
    subst hab
    exact h p q s e2 e1 e3
  refine ⟨l.map fun e => (f e.1, e.2), ?_, ?_⟩
  · rw [build_nodup lastPart Except.ok f id]
    · rfl
    · intro e he
      obtain ⟨p, s, e1, e2⟩ := hform e ((hmem e).1 he).1 ((hmem e).1 he).2
      rw [e1, hf _ _ e2]
      unfold lastPart
      rw [split_last _ _ _ e2]
    · intro e _; rfl
    · exact hn
  · intro s v hs
    rw [get_iff _ (by rw [List.map_map]; exact hn)]
    constructor
    · intro h
      obtain ⟨e, he, h⟩ := List.mem_map.1 h
      obtain ⟨p, s', e1, e2⟩ := hform e ((hmem e).1 he).1 ((hmem e).1 he).2
      rw [e1, hf _ _ e2] at h
      simp only [Prod.mk.injEq] at h
      obtain ⟨rfl, h⟩ := h
      obtain ⟨m, w⟩ := e
      simp only at e1 h
      subst e1 h
      exact ⟨p, (hmem _).1 he⟩
    · rintro ⟨p, h1, h2⟩
      exact List.mem_map.2 ⟨_, (hmem _).2 ⟨h1, h2⟩, by rw [hf _ _ hs]⟩

/-- C108, albedo with the date method, whose items are the only ones with `veg_` (the recipes remove those of the other
method): the value of a class, or of the default, is found under its name. -/
theorem C108_date (cfg : List (Str × Val)) (t : Table "veg_".toList "date_method_veg_".toList cfg) :
    ∃ d, albedoVeg "veg".toList cfg = .ok d ∧
      (∀ n v, d.get? (num n) = some v ↔ ("date_method_veg_".toList ++ num n, v) ∈ cfg) ∧
      ∀ v, d.get? "default".toList = some v ↔ ("date_method_veg_default".toList, v) ∈ cfg := by
  have pre : ∀ s : Str, "date_method_veg_".toList ++ s = "date_method_veg".toList ++ '_' :: s := fun s => by simp
  have form : ∀ e ∈ cfg, contains ("veg".toList ++ ['_']) e.1 = true → ∃ s, e.1 = "date_method_veg_".toList ++ s ∧ '_' ∉ s := by
    intro e he h
    rcases t.form e he h with h | ⟨n, h⟩
    · exact ⟨_, h, by decide⟩
    · exact ⟨_, h, num_no_underscore n⟩
  have last : ∀ p q s s' : Str, '_' ∉ s → p ++ '_' :: s' = q ++ '_' :: s → '_' ∉ s' → s' = s := by
    intro p q s s' h1 h2 h3
    have := split_last '_' p s' h3
    rw [h2, split_last _ _ _ h1] at this
    exact (Option.some.inj this).symm
  obtain ⟨d, h1, h2⟩ := C108_albedo "veg".toList cfg
    (fun e he h => by
      obtain ⟨s, h3, h4⟩ := form e he h
      exact ⟨_, s, by rw [h3, pre], h4⟩)
    (by
      have h1 : ((cfg.filter fun e => contains ("veg".toList ++ ['_']) e.1).map Prod.fst).Nodup :=
        t.nodup.sublist (List.filter_sublist.map _)
      refine (List.pairwise_map.1 h1).imp_of_mem ?_
      intro a b ha hb hab p q s hs e1 e2
      obtain ⟨ha1, ha2⟩ := List.mem_filter.1 ha
      obtain ⟨hb1, hb2⟩ := List.mem_filter.1 hb
      obtain ⟨s1, f1, f2⟩ := form a ha1 ha2
      obtain ⟨s2, f3, f4⟩ := form b hb1 hb2
      have g3 : s1 = s := last _ _ _ _ hs (by rw [← pre, ← f1, e1]) f2
      have g4 : s2 = s := last _ _ _ _ hs (by rw [← pre, ← f3, e2]) f4
      exact hab (by rw [f1, f3, g3, g4]))
  have key : ∀ s v, '_' ∉ s → (d.get? s = some v ↔ ("date_method_veg_".toList ++ s, v) ∈ cfg) := by
    intro s v hs
    rw [h2 s v hs]
    constructor
    · rintro ⟨p, g1, g2⟩
      obtain ⟨s', g3, g4⟩ := form _ g1 g2
      simp only at g3
      have : s' = s := last _ _ _ _ hs (by rw [← pre, ← g3]) g4
      rw [g3, this] at g1
      exact g1
    · intro g
      refine ⟨"date_method_veg".toList, by rw [← pre]; exact g, ?_⟩
      exact contains_append ("veg".toList ++ ['_']) "date_method_".toList s
  exact ⟨d, h1, fun n v => key _ v (num_no_underscore n), fun v => key _ v (by decide)⟩

/-- C108, albedo with the method of Hardy: `albedo`, `default` and the classes are found under their names. -/
theorem C108_hardy (cfg : List (Str × Val)) (hn : (cfg.map Prod.fst).Nodup)
    (hform : ∀ e ∈ cfg, contains "litter_".toList e.1 = true → e.1 = "hardy2000_litter_albedo".toList ∨
      e.1 = "hardy2000_litter_default".toList ∨ ∃ n, e.1 = "hardy2000_litter_veg_".toList ++ num n) :
    ∃ d, albedoVeg "litter".toList cfg = .ok d ∧
      (∀ n v, d.get? (num n) = some v ↔ ("hardy2000_litter_veg_".toList ++ num n, v) ∈ cfg) ∧
      (∀ v, d.get? "default".toList = some v ↔ ("hardy2000_litter_default".toList, v) ∈ cfg) ∧
      ∀ v, d.get? "albedo".toList = some v ↔ ("hardy2000_litter_albedo".toList, v) ∈ cfg := by
  have preV : ∀ s : Str, "hardy2000_litter_veg_".toList ++ s = "hardy2000_litter_veg".toList ++ '_' :: s := fun s => by simp
  have preD : "hardy2000_litter_default".toList = "hardy2000_litter".toList ++ '_' :: "default".toList := by decide
  have preA : "hardy2000_litter_albedo".toList = "hardy2000_litter".toList ++ '_' :: "albedo".toList := by decide
  have hna : ∀ n, num n ≠ "albedo".toList := by
    intro n h
    have h1 := pyInt_digits n
    rw [show Nat.toDigits 10 n = "albedo".toList from h] at h1
    have h2 : pyInt "albedo".toList = .error .valueError := by decide
    rw [h2] at h1; cases h1
  have last : ∀ p q s s' : Str, '_' ∉ s → p ++ '_' :: s' = q ++ '_' :: s → '_' ∉ s' → s' = s := by
    intro p q s s' h1 h2 h3
    have := split_last '_' p s' h3
    rw [h2, split_last _ _ _ h1] at this
    exact (Option.some.inj this).symm
  -- the name is determined by its last part
  have name : ∀ e ∈ cfg, contains ("litter".toList ++ ['_']) e.1 = true → ∀ p s, '_' ∉ s → e.1 = p ++ '_' :: s →
      (s = "albedo".toList ∧ e.1 = "hardy2000_litter_albedo".toList) ∨
      (s = "default".toList ∧ e.1 = "hardy2000_litter_default".toList) ∨
      ∃ n, s = num n ∧ e.1 = "hardy2000_litter_veg_".toList ++ num n := by
    intro e he h p s hs e1
    rcases hform e he h with h | h | ⟨n, h⟩
    · exact .inl ⟨(last _ _ _ _ hs (by rw [← preA, ← h, e1]) (by decide)).symm, h⟩
    · exact .inr (.inl ⟨(last _ _ _ _ hs (by rw [← preD, ← h, e1]) (by decide)).symm, h⟩)
    · exact .inr (.inr ⟨n, (last _ _ _ _ hs (by rw [← preV, ← h, e1]) (num_no_underscore n)).symm, h⟩)
  obtain ⟨d, h1, h2⟩ := C108_albedo "litter".toList cfg
    (fun e he h => by
      rcases hform e he h with h | h | ⟨n, h⟩
      · exact ⟨_, _, by rw [h, preA], by decide⟩
      · exact ⟨_, _, by rw [h, preD], by decide⟩
      · exact ⟨_, _, by rw [h, preV], num_no_underscore n⟩)
    (by
      have h1 : ((cfg.filter fun e => contains ("litter".toList ++ ['_']) e.1).map Prod.fst).Nodup :=
        hn.sublist (List.filter_sublist.map _)
      refine (List.pairwise_map.1 h1).imp_of_mem ?_
      intro a b ha hb hab p q s hs e1 e2
      obtain ⟨ha1, ha2⟩ := List.mem_filter.1 ha
      obtain ⟨hb1, hb2⟩ := List.mem_filter.1 hb
      rcases name a ha1 ha2 p s hs e1 with ⟨f1, f2⟩ | ⟨f1, f2⟩ | ⟨n, f1, f2⟩ <;>
      rcases name b hb1 hb2 q s hs e2 with ⟨g1, g2⟩ | ⟨g1, g2⟩ | ⟨m, g1, g2⟩
      · exact hab (by rw [f2, g2])
      · rw [f1] at g1; exact absurd g1 (by decide)
      · rw [f1] at g1; exact hna m g1.symm
      · rw [f1] at g1; exact absurd g1 (by decide)
      · exact hab (by rw [f2, g2])
      · rw [f1] at g1; exact num_ne_default m g1.symm
      · rw [f1] at g1; exact hna n g1
      · rw [f1] at g1; exact num_ne_default n g1
      · rw [f1] at g1; exact hab (by rw [f2, g2, g1]))
  have hc : ∀ s : Str, contains ("litter".toList ++ ['_']) ("hardy2000_".toList ++ ("litter".toList ++ ['_'] ++ s)) = true :=
    fun s => contains_append ("litter".toList ++ ['_']) "hardy2000_".toList s
  refine ⟨d, h1, fun n v => ?_, fun v => ?_, fun v => ?_⟩
  · rw [h2 _ v (num_no_underscore n)]
    constructor
    · rintro ⟨p, g1, g2⟩
      rcases name _ g1 g2 p _ (num_no_underscore n) rfl with ⟨f1, -⟩ | ⟨f1, -⟩ | ⟨m, f1, f2⟩
      · exact absurd f1 (hna n)
      · exact absurd f1 (num_ne_default n)
      · simp only at f2; rw [f2, ← f1] at g1; exact g1
    · intro g
      exact ⟨_, by rw [← preV]; exact g, by rw [← preV]; exact hc ("veg_".toList ++ num n)⟩
  · rw [h2 _ v (by decide)]
    constructor
    · rintro ⟨p, g1, g2⟩
      rcases name _ g1 g2 p _ (by decide) rfl with ⟨f1, -⟩ | ⟨-, f2⟩ | ⟨m, f1, f2⟩
      · exact absurd f1 (by decide)
      · simp only at f2; rw [f2] at g1; exact g1
      · exact absurd f1.symm (num_ne_default m)
    · intro g
      exact ⟨_, by rw [← preD]; exact g, by rw [← preD]; exact hc "default".toList⟩
  · rw [h2 _ v (by decide)]
    constructor
    · rintro ⟨p, g1, g2⟩
      rcases name _ g1 g2 p _ (by decide) rfl with ⟨-, f2⟩ | ⟨f1, -⟩ | ⟨m, f1, f2⟩
      · simp only at f2; rw [f2] at g1; exact g1
      · exact absurd f1 (by decide)
      · exact absurd f1.symm (hna m)
    · intro g
      exact ⟨_, by rw [← preA]; exact g, by rw [← preA]; exact hc "albedo".toList⟩

/-- C108, albedo, why the recipes matter: with the items of both methods in the section, the value of the second table
replaces that of the first. -/
theorem C108_both_tables (x y : ℝ) :
    (albedoVeg "veg".toList [("date_method_veg_41".toList, .one x), ("hardy2000_litter_veg_41".toList, .one y)]) =
      .ok [("41".toList, .one y)] := by rfl

/-! ### Precipitation -/

theorem part_winstral (s : Str) : part 1 ("winstral_veg_".toList ++ s) = .ok "veg".toList := by
  unfold part
  have e : "winstral_veg_".toList ++ s = "winstral".toList ++ '_' :: ("veg".toList ++ '_' :: s) := by simp
  rw [e, split_append _ _ _ (by decide), split_append _ _ _ (by decide)]
  rfl

/-- The claim of C108 for precipitation: the redistribution uses the configured value of each class. -/
def C108_full : Prop := ∀ cfg : List (Str × Val), Table "winstral_veg_".toList "winstral_veg_".toList cfg →
  ∃ d, precipVeg cfg = .ok d ∧ ∃ l : List (Nat × ℝ),
    (∀ n x, (n, x) ∈ l ↔ ∃ v, ("winstral_veg_".toList ++ num n, v) ∈ cfg ∧ v.isNum x) ∧
    ∀ wcfg dirs tbreak cells, redistribute wcfg d dirs tbreak cells = Precip.distPrecipWind wcfg l dirs tbreak cells

/-- C108, precipitation: holds when no class is configured. -/
theorem C108_precip_partial (cfg : List (Str × Val)) (t : Table "winstral_veg_".toList "winstral_veg_".toList cfg)
    (hno : ∀ n v, ("winstral_veg_".toList ++ num n, v) ∉ cfg) :
    precipVeg cfg = .ok [] ∧ ∀ wcfg dirs tbreak cells,
      redistribute wcfg [] dirs tbreak cells = Precip.distPrecipWind wcfg [] dirs tbreak cells := by
  constructor
  · unfold precipVeg
    have : (cfg.filter fun e => contains "winstral_veg_".toList e.1).filter
        (fun e => e.1 ≠ "winstral_veg_default".toList) = [] := by
      rw [List.filter_eq_nil_iff]
      intro e he
      obtain ⟨h1, h2⟩ := List.mem_filter.1 he
      rcases t.form e h1 h2 with h | ⟨n, h⟩
      · have : e.1 = "winstral_veg_default".toList := h
        simp [this]
      · obtain ⟨m, v⟩ := e
        simp only at h
        rw [h] at h1
        exact absurd h1 (hno n v)
    rw [this]
    rfl
  · intro wcfg dirs tbreak cells
    unfold redistribute
    simp only [classes]
    split
    · rfl
    · rename_i h
      unfold Precip.distPrecipWind
      rw [if_neg h]

/-- C108 fails for precipitation: every class of the configuration is stored under the name `veg`, and the redistribution ends
in an exception at every step, whatever the cells; when all directions are known it is the conversion of `'veg'` to a
number. -/
theorem C108_precip_fails (cfg : List (Str × Val)) (t : Table "winstral_veg_".toList "winstral_veg_".toList cfg) (n : Nat) (v : Val)
    (hn : ("winstral_veg_".toList ++ num n, v) ∈ cfg) :
    ∃ x, precipVeg cfg = .ok [("veg".toList, x)] ∧ ∀ wcfg dirs tbreak cells,
      (∃ e, redistribute wcfg [("veg".toList, x)] dirs tbreak cells = .error e) ∧
      ((∀ c ∈ cells, c.dir ∈ dirs) → redistribute wcfg [("veg".toList, x)] dirs tbreak cells = .error .valueError) := by
  have hd : ∃ x, precipVeg cfg = .ok [("veg".toList, x)] := by
    unfold precipVeg
    set l := (cfg.filter fun e => contains "winstral_veg_".toList e.1).filter
        (fun e => e.1 ≠ "winstral_veg_default".toList) with hl
    have hmem : ∀ e ∈ l, e ∈ cfg ∧ contains "winstral_veg_".toList e.1 = true := fun e he =>
      List.mem_filter.1 (List.mem_filter.1 he).1
    have hk : ∀ e ∈ l, part 1 e.1 = .ok "veg".toList := by
      intro e he
      obtain ⟨h1, h2⟩ := hmem e he
      rcases t.form e h1 h2 with h | ⟨n, h⟩ <;> rw [h] <;> exact part_winstral _
    have hv : ∀ e ∈ l, e.2.first = .ok e.2.get := by
      intro e he
      obtain ⟨h1, h2⟩ := hmem e he
      obtain ⟨x, hx⟩ := t.num e h1 h2
      rw [Val.get_eq hx]
      exact (first_iff _ _).2 hx
    have hin : ("winstral_veg_".toList ++ num n, v) ∈ l := by
      refine List.mem_filter.2 ⟨List.mem_filter.2 ⟨hn, contains_append _ [] _⟩, decide_eq_true ?_⟩
      intro h
      exact num_ne_default n (List.append_cancel_left (show "winstral_veg_".toList ++ num n =
        "winstral_veg_".toList ++ "default".toList from h))
    clear_value l
    cases l with
    | nil => cases hin
    | cons e l =>
      obtain ⟨m, w⟩ := e
      have h1 := hk (m, w) (by simp)
      have h2 := hv (m, w) (by simp)
      simp only at h1 h2
      unfold build
      rw [h2]; simp only
      rw [h1]; simp only
      exact build_const (part 1) Val.first "veg".toList Val.get l w.get (fun e he => hk e (List.mem_cons_of_mem _ he))
        (fun e he => hv e (List.mem_cons_of_mem _ he))
  obtain ⟨x, hx⟩ := hd
  refine ⟨x, hx, fun wcfg dirs tbreak cells => ?_⟩
  have hcl : classes [("veg".toList, x)] = .error .valueError := by
    have : pyInt "veg".toList = .error .valueError := by decide
    simp only [classes, this]
  unfold redistribute
  rw [hcl]
  constructor
  · split
    · exact ⟨_, rfl⟩
    · exact ⟨_, rfl⟩
  · intro h
    rw [if_pos]
    rw [List.all_eq_true]
    intro c hc
    unfold Precip.dirIndex
    rw [List.findIdx?_isSome, List.any_eq_true]
    exact ⟨c.dir, h c hc, by simp⟩

/-- The table of the delivered configuration has at least these items. -/
noncomputable def shipped : List (Str × Val) := [("winstral_veg_default".toList, .one 1), ("winstral_veg_41".toList, .one (7 / 10)),
  ("winstral_veg_42".toList, .one (7 / 10)), ("min".toList, .one 0)]

theorem shipped_table : Table "winstral_veg_".toList "winstral_veg_".toList shipped := by
  refine ⟨by decide, ?_, ?_⟩
  · intro e he h
    simp only [shipped, List.mem_cons, List.not_mem_nil, or_false] at he
    rcases he with rfl | rfl | rfl | rfl
    · exact .inl rfl
    · exact .inr ⟨41, by decide⟩
    · exact .inr ⟨42, by decide⟩
    · exact absurd h (by decide)
  · intro e he _
    simp only [shipped, List.mem_cons, List.not_mem_nil, or_false] at he
    rcases he with rfl | rfl | rfl | rfl <;> exact ⟨_, rfl⟩

/-- C108 fails in the full form. -/
theorem C108_fails : ¬ C108_full := by
  intro h
  obtain ⟨d, h1, l, -, h3⟩ := h shipped shipped_table
  obtain ⟨x, h4, h5⟩ := C108_precip_fails shipped shipped_table 41 (.one (7 / 10)) (by
    show ("winstral_veg_41".toList, Val.one (7 / 10)) ∈ shipped
    simp [shipped])
  rw [h4] at h1
  have h1 := Except.ok.inj h1
  subst h1
  have := (h5 ⟨0, 0, 0, 0, 0⟩ [] (fun _ _ => none) []).2 (by simp)
  rw [h3] at this
  cases this

/-- The table of the wind in the delivered configuration. -/
noncomputable def shippedWind : List (Str × Val) := [("veg_default".toList, .one 0), ("veg_41".toList, .one (33 / 10)),
  ("veg_43".toList, .many [114 / 10]), ("reduction_factor".toList, .one (7 / 10))]

theorem shippedWind_table : Table "veg_".toList "veg_".toList shippedWind := by
  refine ⟨by decide, ?_, ?_⟩
  · intro e he h
    simp only [shippedWind, List.mem_cons, List.not_mem_nil, or_false] at he
    rcases he with rfl | rfl | rfl | rfl
    · exact .inl rfl
    · exact .inr ⟨41, by decide⟩
    · exact .inr ⟨43, by decide⟩
    · exact absurd h (by decide)
  · intro e he _
    simp only [shippedWind, List.mem_cons, List.not_mem_nil, or_false] at he
    rcases he with rfl | rfl | rfl | rfl <;> exact ⟨_, rfl⟩

/-- Class 43 gets its own value, class 11 the default. -/
example : ∃ d, windVeg shippedWind = .ok d ∧ windAdjust d 43 2 = .ok (2 + 114 / 10) ∧ windAdjust d 11 2 = .ok (2 + 0) := by
  obtain ⟨d, h1, h2⟩ := C108_wind shippedWind shippedWind_table (.one 0) 0 (by simp [shippedWind]) rfl
  refine ⟨d, h1, (h2 43 2).1 (.many [114 / 10]) _ ?_ rfl, (h2 11 2).2 ?_⟩
  · show ("veg_43".toList, _) ∈ shippedWind
    simp [shippedWind]
  · intro v h
    have : ("veg_11".toList, v) ∈ shippedWind := h
    simp [shippedWind] at this

/-- The tables of the albedo. -/
example : (albedoVeg "veg".toList [("date_method_veg_default".toList, .one (1 / 4)), ("date_method_veg_41".toList, .one (36 / 100))]) =
    .ok [("default".toList, .one (1 / 4)), ("41".toList, .one (36 / 100))] := by rfl

end Verif.ConfigVeg
