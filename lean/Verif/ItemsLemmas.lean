import Verif.Items
import Mathlib.Tactic.FinCases

/-!
Lemmas about the recipes.
-/

namespace Verif.Items

set_option linter.unusedSimpArgs false
set_option linter.unusedVariables false

/-- The items that a distribution may need are there. -/
def Full (s : Sec) : Prop := ∀ i, common .none .none i ≠ none → ∃ v, s i = some v

/-- The sections that have these items. -/
def Stations (k : Kind) : Prop := ∀ i, common .none .none i ≠ none → core k i ≠ none

theorem stations_of (k : Kind) (h1 : k ≠ .albedo) (h2 : k ≠ .thermal) : Stations k := by
  intro i hi
  cases k with
  | albedo => exact absurd rfl h1
  | thermal => exact absurd rfl h2
  | _ => cases i <;> first | (simp [common] at hi; done) | simp [core, join, common]

theorem present {s : Sec} {i : Item} (h : ∃ v, s i = some v) : s i ≠ none := by
  obtain ⟨v, hv⟩ := h; rw [hv]; simp

/-- `needAll` succeeds when everything is there. -/
theorem needAll_ok {s : Sec} {l : List Item} (h : ∀ i ∈ l, ∃ v, s i = some v) : needAll s l = .ok () := by
  induction l with
  | nil => rfl
  | cons i l ih =>
    obtain ⟨v, hv⟩ := h i (by simp)
    unfold needAll need
    rw [hv]
    exact ih fun j hj => h j (List.mem_cons_of_mem _ hj)

theorem needAll_iff {s : Sec} {l : List Item} : needAll s l = .ok () ↔ ∀ i ∈ l, ∃ v, s i = some v := by
  constructor
  · induction l with
    | nil => intro _ i hi; cases hi
    | cons i l ih =>
      intro h
      unfold needAll need at h
      cases hs : s i with
      | none => rw [hs] at h; simp at h
      | some v =>
        rw [hs] at h
        simp only at h
        intro j hj
        rcases List.mem_cons.1 hj with e | e
        · rw [e]; exact ⟨v, hs⟩
        · exact ih h j e
  · exact needAll_ok

/-- The items that the recipes for every section may change. -/
def touched : List Item := [.gridLocalN, .krigVariogramModel, .krigAnisotropyAngle, .krigAnisotropyScaling, .krigNlags, .krigWeight,
  .krigCoordinatesType, .idwPower, .gridMask, .gridLocal, .gridMethod, .dkNcores, .stations]

theorem recipe_apply (t : Sec → Bool) (a : Sec → Sec) (s : Sec) (i : Item) (h : a s i = s i) : recipe t a s i = s i := by
  unfold recipe; split
  · exact h
  · rfl

theorem remove_apply (l : List Item) (s : Sec) (i : Item) (h : i ∉ l) : remove l s i = s i := by
  unfold remove; rw [if_neg h]

theorem putDefault_apply (over : Bool) (k : Kind) (j : Item) (s : Sec) (i : Item) (h : i ≠ j) : putDefault over k j s i = s i := by
  unfold putDefault put; split
  · exact if_neg h
  · rfl

/-- The other items stay. -/
theorem any_other (over : Bool) (k : Kind) (s : Sec) (i : Item) (h : i ∉ touched) : anyRecipes over k s i = s i := by
  simp only [touched, List.mem_cons, List.not_mem_nil, or_false, not_or] at h
  obtain ⟨h1, h2, h3, h4, h5, h6, h7, h8, h9, h10, h11, h12, h13⟩ := h
  unfold anyRecipes
  rw [recipe_apply, recipe_apply, recipe_apply, recipe_apply, recipe_apply, recipe_apply]
  · exact putDefault_apply _ _ _ _ _ h1
  · exact remove_apply _ _ _ (by simp [*])
  · rw [remove_apply _ _ _ (by simp [*]), putDefault_apply _ _ _ _ _ h12]
  · rw [remove_apply _ _ _ (by simp [*]), putDefault_apply _ _ _ _ _ h8]
  · rw [putDefault_apply _ _ _ _ _ h9, putDefault_apply _ _ _ _ _ h7, putDefault_apply _ _ _ _ _ h6, putDefault_apply _ _ _ _ _ h5,
      putDefault_apply _ _ _ _ _ h4, putDefault_apply _ _ _ _ _ h3, putDefault_apply _ _ _ _ _ h2]
  · rw [remove_apply _ _ _ (by simp [*]), putDefault_apply _ _ _ _ _ h11, putDefault_apply _ _ _ _ _ h10,
      putDefault_apply _ _ _ _ _ h9]

theorem putDefault_self (over : Bool) (k : Kind) (j : Item) (s : Sec) :
    putDefault over k j s j = if over = true ∨ s j = none then core k j else s j := by
  unfold putDefault put; split
  · simp
  · rfl

theorem putDefault_present (over : Bool) (k : Kind) (j : Item) (s : Sec) (i : Item) (hc : core k i ≠ none)
    (h : i = j ∨ ∃ v, s i = some v) : ∃ v, putDefault over k j s i = some v := by
  unfold putDefault put
  obtain ⟨c, hc⟩ := Option.ne_none_iff_exists'.1 hc
  split
  · by_cases e : i = j
    · subst e; simp only [if_true]; exact ⟨c, hc⟩
    · simp only [if_neg e]; exact h.resolve_left e
  · rename_i hn
    simp only [not_or] at hn
    by_cases e : i = j
    · subst e; exact Option.ne_none_iff_exists'.1 hn.2
    · exact h.resolve_left e

theorem recipe_true {t : Sec → Bool} {a : Sec → Sec} {s : Sec} (h : t s = true) : recipe t a s = a s := by
  unfold recipe; rw [if_pos h]

theorem recipe_false {t : Sec → Bool} {a : Sec → Sec} {s : Sec} (h : t s = false) : recipe t a s = s := by
  unfold recipe; rw [h]; rfl

/-- The section after the two recipes for `grid_local`. -/
def localRecipes (over : Bool) (k : Kind) (s : Sec) : Sec :=
  recipe (hasValue .gridLocal (.bool false)) (remove [.gridLocalN])
    (recipe (hasValue .gridLocal (.bool true)) (putDefault over k .gridLocalN) s)

theorem local_other (over : Bool) (k : Kind) (s : Sec) (i : Item) (h : i ≠ .gridLocalN) : localRecipes over k s i = s i := by
  unfold localRecipes
  rw [recipe_apply, recipe_apply]
  · exact putDefault_apply _ _ _ _ _ h
  · exact remove_apply _ _ _ (by simp [h])

theorem local_true (over : Bool) (k : Kind) (s : Sec) (hc : core k .gridLocalN ≠ none) (h : s .gridLocal = some (.bool true)) :
    ∃ v, localRecipes over k s .gridLocalN = some v := by
  unfold localRecipes
  rw [recipe_true (t := hasValue .gridLocal (.bool true)) (by simp [hasValue, h])]
  rw [recipe_false]
  · exact putDefault_present _ _ _ _ _ hc (Or.inl rfl)
  · simp only [hasValue]
    rw [putDefault_apply _ _ _ _ _ (by simp), h]
    simp

theorem any_idw {over : Bool} {k : Kind} {s : Sec} (h : s .distribution = some .idw) :
    anyRecipes over k s = remove [.dkNcores, .krigVariogramModel, .krigAnisotropyAngle, .krigAnisotropyScaling, .krigNlags, .krigWeight,
      .krigCoordinatesType, .gridMask, .gridLocal, .gridMethod] (putDefault over k .idwPower (localRecipes over k s)) := by
  have h0 : localRecipes over k s .distribution = some .idw := by rw [local_other _ _ _ _ (by simp), h]
  unfold anyRecipes
  simp only
  rw [← localRecipes]
  generalize localRecipes over k s = t at h0
  rw [recipe_false (t := hasValue .distribution .dk) (by simp [hasValue, h0]),
    recipe_true (t := hasValue .distribution .idw) (by simp [hasValue, h0]), recipe_false, recipe_false]
  · simp only [hasValue]
    rw [remove_apply _ _ _ (by simp), putDefault_apply _ _ _ _ _ (by simp), h0]; simp
  · rw [recipe_false]
    · simp only [hasValue]
      rw [remove_apply _ _ _ (by simp), putDefault_apply _ _ _ _ _ (by simp), h0]; simp
    · simp only [hasValue]
      rw [remove_apply _ _ _ (by simp), putDefault_apply _ _ _ _ _ (by simp), h0]; simp

theorem any_dk {over : Bool} {k : Kind} {s : Sec} (h : s .distribution = some .dk) :
    anyRecipes over k s = remove [.krigVariogramModel, .krigAnisotropyAngle, .krigAnisotropyScaling,
    .krigNlags, .krigWeight, .krigCoordinatesType, .idwPower, .gridMask, .gridLocal, .gridMethod]
    (putDefault over k .dkNcores (localRecipes over k s)) := by
  have h0 : localRecipes over k s .distribution = some .dk := by rw [local_other _ _ _ _ (by simp), h]
  unfold anyRecipes
  simp only
  rw [← localRecipes]
  generalize localRecipes over k s = t at h0
  rw [recipe_true (t := hasValue .distribution .dk) (by simp [hasValue, h0])]
  have h1 : remove [.krigVariogramModel, .krigAnisotropyAngle, .krigAnisotropyScaling,
    .krigNlags, .krigWeight, .krigCoordinatesType, .idwPower, .gridMask, .gridLocal, .gridMethod]
    (putDefault over k .dkNcores t) .distribution = some .dk := by
    rw [remove_apply _ _ _ (by simp), putDefault_apply _ _ _ _ _ (by simp), h0]
  rw [recipe_false (t := hasValue .distribution .idw) (by simp [hasValue, h1]), recipe_false (t := hasValue .distribution .kriging) (by simp [hasValue, h1]),
    recipe_false (t := hasValue .distribution .grid) (by simp [hasValue, h1])]

theorem any_kriging {over : Bool} {k : Kind} {s : Sec} (h : s .distribution = some .kriging) :
    anyRecipes over k s = putDefault over k .gridMask (putDefault over k .krigCoordinatesType
    (putDefault over k .krigWeight (putDefault over k .krigNlags (putDefault over k .krigAnisotropyScaling
    (putDefault over k .krigAnisotropyAngle (putDefault over k .krigVariogramModel (localRecipes over k s))))))) := by
  have h0 : localRecipes over k s .distribution = some .kriging := by rw [local_other _ _ _ _ (by simp), h]
  unfold anyRecipes
  simp only
  rw [← localRecipes]
  generalize localRecipes over k s = t at h0
  rw [recipe_false (t := hasValue .distribution .dk) (by simp [hasValue, h0]),
    recipe_false (t := hasValue .distribution .idw) (by simp [hasValue, h0]),
    recipe_true (t := hasValue .distribution .kriging) (by simp [hasValue, h0]), recipe_false]
  simp only [hasValue]
  rw [putDefault_apply _ _ _ _ _ (by simp), putDefault_apply _ _ _ _ _ (by simp), putDefault_apply _ _ _ _ _ (by simp),
    putDefault_apply _ _ _ _ _ (by simp), putDefault_apply _ _ _ _ _ (by simp), putDefault_apply _ _ _ _ _ (by simp),
    putDefault_apply _ _ _ _ _ (by simp), h0]
  simp

theorem any_grid {over : Bool} {k : Kind} {s : Sec} (h : s .distribution = some .grid) :
    anyRecipes over k s = remove [.stations, .idwPower, .dkNcores, .krigVariogramModel, .krigAnisotropyAngle,
    .krigAnisotropyScaling, .krigNlags, .krigWeight, .krigCoordinatesType]
    (putDefault over k .gridMethod (putDefault over k .gridLocal (putDefault over k .gridMask (localRecipes over k s)))) := by
  have h0 : localRecipes over k s .distribution = some .grid := by rw [local_other _ _ _ _ (by simp), h]
  unfold anyRecipes
  simp only
  rw [← localRecipes]
  generalize localRecipes over k s = t at h0
  rw [recipe_false (t := hasValue .distribution .dk) (by simp [hasValue, h0]),
    recipe_false (t := hasValue .distribution .idw) (by simp [hasValue, h0]),
    recipe_false (t := hasValue .distribution .kriging) (by simp [hasValue, h0]),
    recipe_true (t := hasValue .distribution .grid) (by simp [hasValue, h0])]


/-- The methods. -/
def isMethod (v : Val) : Prop := v = .idw ∨ v = .dk ∨ v = .grid ∨ v = .kriging

theorem local_present {over : Bool} {k : Kind} {s : Sec} {i : Item} (h : i ≠ .gridLocalN) (hs : ∃ v, s i = some v) :
    ∃ v, localRecipes over k s i = some v := by rw [local_other _ _ _ _ h]; exact hs

/-- Distribution: everything that is read is there. -/
theorem dist_ok (over : Bool) {k : Kind} {s : Sec} (hk : Stations k) (hs : Full s) {m : Val} (hd : s .distribution = some m) (hm : isMethod m)
    {b : Bool} (hl : s .gridLocal = some (.bool b)) :
    initDist (anyRecipes over k s) = .ok () ∧ runDist (anyRecipes over k s) = .ok () := by
  have ho : ∀ i, i ∉ touched → common .none .none i ≠ none → ∃ v, anyRecipes over k s i = some v := fun i h1 h2 => by
    rw [any_other _ _ _ _ h1]; exact hs i h2
  have hdist : anyRecipes over k s .distribution = some m := by rw [any_other _ _ _ _ (by decide), hd]
  obtain ⟨vmin, emin⟩ := ho .min (by decide) (by decide)
  obtain ⟨vmax, emax⟩ := ho .max (by decide) (by decide)
  obtain ⟨vdet, edet⟩ := ho .detrend (by decide) (by decide)
  obtain ⟨vsl, esl⟩ := ho .detrendSlope (by decide) (by decide)
  have hmm : needAll (anyRecipes over k s) [.min, .max] = .ok () := needAll_ok (by
    intro i hi
    fin_cases hi
    · exact ⟨_, emin⟩
    · exact ⟨_, emax⟩)
  unfold initDist runDist
  rw [hmm]
  simp only [need, hdist, edet]
  rcases hm with e | e | e | e <;> subst e <;> simp only
  · have e1 := any_idw (over := over) (k := k) hd
    constructor
    · refine needAll_ok fun i hi => ?_
      fin_cases hi
      rw [e1, remove_apply _ _ _ (by simp)]
      exact putDefault_present _ _ _ _ _ (hk _ (by decide)) (Or.inl rfl)
    · refine needAll_ok fun i hi => ?_
      split at hi
      · fin_cases hi; exact ⟨_, esl⟩
      · cases hi
  · have e1 := any_dk (over := over) (k := k) hd
    refine ⟨trivial, needAll_ok fun i hi => ?_⟩
    fin_cases hi
    · rw [e1, remove_apply _ _ _ (by simp)]
      exact putDefault_present _ _ _ _ _ (hk _ (by decide)) (Or.inl rfl)
    · exact ⟨_, esl⟩
  · have e1 := any_grid (over := over) (k := k) hd
    have p1 : ∃ v, anyRecipes over k s .gridMethod = some v := by
      rw [e1, remove_apply _ _ _ (by simp)]
      exact putDefault_present _ _ _ _ _ (hk _ (by decide)) (Or.inl rfl)
    have p2 : ∃ v, anyRecipes over k s .gridMask = some v := by
      rw [e1, remove_apply _ _ _ (by simp), putDefault_apply _ _ _ _ _ (by simp), putDefault_apply _ _ _ _ _ (by simp)]
      exact putDefault_present _ _ _ _ _ (hk _ (by decide)) (Or.inl rfl)
    have p3 : ∃ v, anyRecipes over k s .gridLocal = some v ∧ (v.truthy = true → s .gridLocal = some (.bool true) ∨ core k .gridLocal = some v) := by
      rw [e1, remove_apply _ _ _ (by simp), putDefault_apply _ _ _ _ _ (by simp)]
      have e2 : putDefault over k .gridMask (localRecipes over k s) .gridLocal = some (.bool b) := by
        rw [putDefault_apply _ _ _ _ _ (by simp), local_other _ _ _ _ (by simp), hl]
      rw [putDefault_self]
      split
      · obtain ⟨c, hc⟩ := Option.ne_none_iff_exists'.1 (hk .gridLocal (by decide))
        exact ⟨c, hc, fun _ => Or.inr hc⟩
      · refine ⟨_, e2, fun ht => Or.inl ?_⟩
        rw [hl]
        simp only [Val.truthy] at ht
        rw [ht]
    obtain ⟨v, e3, ht⟩ := p3
    have hcl : core k .gridLocal = some (.bool false) := by
      cases k <;> first | rfl | exact absurd rfl (hk .gridLocal (by decide))
    constructor
    · unfold initGrid
      simp only [need, e3]
      rw [needAll_ok, needAll_ok]
      · intro i hi; fin_cases hi; exact p2
      · intro i hi
        split at hi
        · rename_i hv
          fin_cases hi
          rcases ht hv with h | h
          · rw [e1, remove_apply _ _ _ (by simp), putDefault_apply _ _ _ _ _ (by simp), putDefault_apply _ _ _ _ _ (by simp),
              putDefault_apply _ _ _ _ _ (by simp)]
            exact local_true over k s (hk _ (by decide)) h
          · rw [hcl] at h
            rw [← Option.some.inj h] at hv
            simp [Val.truthy] at hv
        · cases hi
    · refine needAll_ok fun i hi => ?_
      split at hi
      · fin_cases hi
        · exact ⟨_, esl⟩
        · exact p1
        · exact ⟨_, e3⟩
      · fin_cases hi; exact p1
  · have e1 := any_kriging (over := over) (k := k) hd
    constructor
    · refine needAll_ok fun i hi => ?_
      have key : i ∈ [Item.krigVariogramModel, .krigNlags, .krigWeight, .krigAnisotropyScaling, .krigAnisotropyAngle, .krigCoordinatesType] := hi
      have hc : core k i ≠ none := hk i (by fin_cases hi <;> decide)
      have hp : ∃ v, localRecipes over k s i = some v :=
        local_present (by fin_cases hi <;> simp) (hs i (by fin_cases hi <;> decide))
      rw [e1]
      iterate 7 refine putDefault_present _ _ _ _ _ hc (Or.inr ?_)
      exact hp
    · refine needAll_ok fun i hi => ?_
      fin_cases hi; exact ⟨_, edet⟩

/-- The defaults fill the section. -/
theorem applyDefaults_present (k : Kind) (u : Sec) (i : Item) (h : core k i ≠ none) : ∃ v, applyDefaults k u i = some v := by
  unfold applyDefaults join
  split
  · rename_i v _; exact ⟨v, rfl⟩
  · exact Option.ne_none_iff_exists'.1 h

theorem applyDefaults_absent (k : Kind) (u : Sec) (i : Item) (h : core k i = none) : applyDefaults k u i = u i := by
  unfold applyDefaults join
  split
  · rename_i v e; exact e.symm
  · rename_i e; rw [h, e]

theorem applyDefaults_user (k : Kind) (u : Sec) (i : Item) (P : Val → Prop) (hu : ∀ v, u i = some v → P v) (hc : ∀ v, core k i = some v → P v)
    {v : Val} (h : applyDefaults k u i = some v) : P v := by
  unfold applyDefaults join at h
  split at h
  · rename_i w e; cases h; exact hu _ e
  · exact hc _ h

end Verif.Items
