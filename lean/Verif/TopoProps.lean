import Verif.Topo
import Mathlib.Algebra.Order.Field.Rat
import Mathlib.Algebra.Order.Field.Basic
import Mathlib.Data.List.Nodup
import Mathlib.Tactic.Linarith
import Mathlib.Tactic.NormNum
import Mathlib.Tactic.Ring
import Mathlib.Tactic.FieldSimp
import Mathlib.Tactic.Positivity

/-!
Topographic images (C70), pixels of the stations (C71), cell size and centre of the basin (C95).
-/

namespace Verif.Topo

/-! ### C70 -/

section Images

variable {A B : Type} (toInt toFloat : A → B) (vars : String → Option A)

/-- What an image must hold: the data of the variable of the same name, as integers for the classes of the vegetation
and as numbers otherwise. -/
def Own (v : String) (b : B) : Prop :=
  ∃ a, vars v = some a ∧ (v = "veg_type" → b = toInt a) ∧ (v ≠ "veg_type" → b = toFloat a)

/-- The claim of C70: with all variables present each attribute holds its own data, and a missing variable is an
error. -/
def C70_full : Prop := ∀ (A B : Type) (toInt toFloat : A → B) (vars : String → Option A),
  ((∀ v ∈ images, vars v ≠ none) → ∃ attrs, readImages toInt toFloat vars = some attrs ∧
    attrs.map Prod.fst = images ∧ ∀ p ∈ attrs, Own toInt toFloat vars p.1 p.2) ∧
  ((∃ v ∈ images, vars v = none) → readImages toInt toFloat vars = none)

theorem convert_own {v : String} {a : A} (h : vars v = some a) : Own toInt toFloat vars v (convert toInt toFloat v a) := by
  refine ⟨a, h, fun e => ?_, fun e => ?_⟩
  · simp [convert, e]
  · simp [convert, e]

theorem Own_unique {v : String} {b c : B} (h1 : Own toInt toFloat vars v b) (h2 : Own toInt toFloat vars v c) :
    b = c := by
  obtain ⟨a, ha, p, q⟩ := h1
  obtain ⟨a', ha', p', q'⟩ := h2
  rw [ha] at ha'
  cases ha'
  by_cases hv : v = "veg_type"
  · rw [p hv, p' hv]
  · rw [q hv, q' hv]

theorem readLoop_all (vs : List String) (h : ∀ v ∈ vs, vars v ≠ none) (res : Option B) (attrs : List (String × B)) :
    ∃ new, readLoop toInt toFloat vars vs res attrs = some (attrs ++ new) ∧ new.map Prod.fst = vs ∧
      ∀ p ∈ new, Own toInt toFloat vars p.1 p.2 := by
  induction vs generalizing res attrs with
  | nil => exact ⟨[], by simp [readLoop], rfl, by simp⟩
  | cons v vs ih =>
    cases hv : vars v with
    | none => exact absurd hv (h v (by simp))
    | some a =>
      obtain ⟨new, h1, h2, h3⟩ := ih (fun u hu => h u (by simp [hu])) (some (convert toInt toFloat v a))
        (attrs ++ [(v, convert toInt toFloat v a)])
      refine ⟨(v, convert toInt toFloat v a) :: new, ?_, by simp [h2], ?_⟩
      · simp only [readLoop, hv, h1, List.append_assoc, List.singleton_append]
      · intro p hp
        rcases List.mem_cons.1 hp with rfl | hp
        · exact convert_own toInt toFloat vars hv
        · exact h3 p hp

/-- C70: if all variables are in the file, each attribute holds the data of the variable with that name; missing: a
variable that is not in the file is reported. -/
theorem C70_partial (h : ∀ v ∈ images, vars v ≠ none) : ∃ attrs, readImages toInt toFloat vars = some attrs ∧
    attrs.map Prod.fst = images ∧ ∀ p ∈ attrs, Own toInt toFloat vars p.1 p.2 := by
  obtain ⟨new, h1, h2, h3⟩ := readLoop_all toInt toFloat vars images h none []
  exact ⟨new, by rw [readImages, h1, List.nil_append], h2, h3⟩

theorem readLoop_stale (vs : List String) (res : B) (attrs : List (String × B)) :
    ∃ new, readLoop toInt toFloat vars vs (some res) attrs = some (attrs ++ new) ∧ new.map Prod.fst = vs ∧
      ∀ pre v post, vs = pre ++ v :: post → ∀ b, (∃ p q, new = p ++ (v, b) :: q ∧ p.length = pre.length) →
        (∃ u ps qs, pre ++ [v] = ps ++ u :: qs ∧ Own toInt toFloat vars u b ∧ ∀ w ∈ qs, vars w = none) ∨
        ((∀ w ∈ pre ++ [v], vars w = none) ∧ b = res) := by
  induction vs generalizing res attrs with
  | nil =>
    refine ⟨[], by simp [readLoop], rfl, fun pre v post h => by simp at h⟩
  | cons v vs ih =>
    cases hv : vars v with
    | none =>
      obtain ⟨new, h1, h2, h3⟩ := ih res (attrs ++ [(v, res)])
      refine ⟨(v, res) :: new, ?_, by simp [h2], ?_⟩
      · simp only [readLoop, hv, h1, List.append_assoc, List.singleton_append]
      · intro pre w post he b ⟨p, q, e, hl⟩
        cases pre with
        | nil =>
          simp only [List.nil_append, List.cons.injEq] at he
          obtain ⟨rfl, rfl⟩ := he
          cases p with
          | nil =>
            simp only [List.nil_append, List.cons.injEq, Prod.mk.injEq, true_and] at e
            exact Or.inr ⟨by simp [hv], e.1.symm⟩
          | cons => simp at hl
        | cons x pre =>
          simp only [List.cons_append, List.cons.injEq] at he
          obtain ⟨rfl, he⟩ := he
          cases p with
          | nil => simp at hl
          | cons y p =>
            simp only [List.cons_append, List.cons.injEq] at e
            rcases h3 pre w post he b ⟨p, q, e.2, by simpa using hl⟩ with ⟨u, ps, qs, e1, e2, e3⟩ | ⟨e1, e2⟩
            · exact Or.inl ⟨u, v :: ps, qs, by simp [e1], e2, e3⟩
            · refine Or.inr ⟨?_, e2⟩
              intro z hz
              rw [List.cons_append] at hz
              rcases List.mem_cons.1 hz with rfl | hz
              · exact hv
              · exact e1 z hz
    | some a =>
      obtain ⟨new, h1, h2, h3⟩ := ih (convert toInt toFloat v a) (attrs ++ [(v, convert toInt toFloat v a)])
      refine ⟨(v, convert toInt toFloat v a) :: new, ?_, by simp [h2], ?_⟩
      · simp only [readLoop, hv, h1, List.append_assoc, List.singleton_append]
      · intro pre w post he b ⟨p, q, e, hl⟩
        left
        cases pre with
        | nil =>
          simp only [List.nil_append, List.cons.injEq] at he
          obtain ⟨rfl, rfl⟩ := he
          cases p with
          | nil =>
            simp only [List.nil_append, List.cons.injEq, Prod.mk.injEq, true_and] at e
            exact ⟨v, [], [], rfl, e.1 ▸ convert_own toInt toFloat vars hv, by simp⟩
          | cons => simp at hl
        | cons x pre =>
          simp only [List.cons_append, List.cons.injEq] at he
          obtain ⟨rfl, he⟩ := he
          cases p with
          | nil => simp at hl
          | cons y p =>
            simp only [List.cons_append, List.cons.injEq] at e
            rcases h3 pre w post he b ⟨p, q, e.2, by simpa using hl⟩ with ⟨u, ps, qs, e1, e2, e3⟩ | ⟨e1, e2⟩
            · exact ⟨u, v :: ps, qs, by simp [e1], e2, e3⟩
            · exact ⟨v, [], pre ++ [w], rfl, e2 ▸ convert_own toInt toFloat vars hv, e1⟩

/-- C70: what happens with missing variables. Reading fails only if the elevations are missing; otherwise each
attribute holds the data of the last variable of the list that is in the file, up to its own place. -/
theorem C70_stale : (readImages toInt toFloat vars = none ↔ vars "dem" = none) ∧
    ∀ attrs, readImages toInt toFloat vars = some attrs → attrs.map Prod.fst = images ∧
      ∀ pre v post, images = pre ++ v :: post → ∀ b, (v, b) ∈ attrs →
        ∃ u ps qs, pre ++ [v] = ps ++ u :: qs ∧ Own toInt toFloat vars u b ∧ ∀ w ∈ qs, vars w = none := by
  cases hd : vars "dem" with
  | none =>
    have : readImages toInt toFloat vars = none := by simp [readImages, images, readLoop, hd]
    exact ⟨by simp [this], fun attrs h => by rw [this] at h; cases h⟩
  | some a =>
    obtain ⟨new, h1, h2, h3⟩ := readLoop_stale toInt toFloat vars ["mask", "veg_type", "veg_height", "veg_k", "veg_tau"]
      (convert toInt toFloat "dem" a) [("dem", convert toInt toFloat "dem" a)]
    have e : readImages toInt toFloat vars = some (("dem", convert toInt toFloat "dem" a) :: new) := by
      have : readImages toInt toFloat vars = readLoop toInt toFloat vars
          ["mask", "veg_type", "veg_height", "veg_k", "veg_tau"] (some (convert toInt toFloat "dem" a))
          [("dem", convert toInt toFloat "dem" a)] := by
        simp [readImages, images, readLoop, hd]
      rw [this, h1, List.singleton_append]
    refine ⟨by simp [e], fun attrs h => ?_⟩
    rw [e] at h
    cases h
    refine ⟨by simp [h2, images], fun pre v post he b hb => ?_⟩
    have nd : images.Nodup := by decide
    cases pre with
    | nil =>
      have hv : v = "dem" := by
        simp only [images, List.nil_append, List.cons.injEq] at he
        exact he.1.symm
      subst hv
      rcases List.mem_cons.1 hb with hb | hb
      · exact ⟨"dem", [], [], rfl, (Prod.mk.inj hb).2 ▸ convert_own toInt toFloat vars hd, by simp⟩
      · have : "dem" ∈ new.map Prod.fst := List.mem_map.2 ⟨_, hb, rfl⟩
        rw [h2] at this
        exact absurd this (by decide)
    | cons x pre =>
      simp only [images, List.cons_append, List.cons.injEq] at he
      obtain ⟨rfl, he⟩ := he
      have hne : v ≠ "dem" := by
        rintro rfl
        have : "dem" ∈ pre ++ "dem" :: post := by simp
        rw [← he] at this
        exact absurd this (by decide)
      have hb : (v, b) ∈ new := by
        rcases List.mem_cons.1 hb with hb | hb
        · exact absurd (Prod.mk.inj hb).1 hne
        · exact hb
      obtain ⟨p, q, hpq⟩ := List.append_of_mem hb
      have hlen : p.length = pre.length := by
        have e1 : p.map Prod.fst ++ v :: q.map Prod.fst = pre ++ v :: post := by
          rw [← he, ← h2, hpq]; simp
        have nd' : (pre ++ v :: post).Nodup := by rw [← he]; decide
        have i1 : (pre ++ v :: post).idxOf v = pre.length := by
          rw [List.idxOf_append_of_notMem]
          · simp
          · intro hm
            exact absurd rfl (List.nodup_append.1 nd' |>.2.2 v hm v (by simp))
        have i2 : (pre ++ v :: post).idxOf v = p.length := by
          rw [← e1, List.idxOf_append_of_notMem]
          · simp
          · intro hm
            rw [← e1] at nd'
            exact absurd rfl (List.nodup_append.1 nd' |>.2.2 v hm v (by simp))
        omega
      rcases h3 pre v post he b ⟨p, q, hpq, hlen⟩ with ⟨u, ps, qs, e1, e2, e3⟩ | ⟨e1, e2⟩
      · exact ⟨u, "dem" :: ps, qs, by simp [e1], e2, e3⟩
      · exact ⟨"dem", [], pre ++ [v], by simp, e2 ▸ convert_own toInt toFloat vars hd, e1⟩

end Images

/-- A file without the extinction coefficient of the vegetation. -/
def noVegK : String → Option Nat := fun v =>
  if v = "dem" then some 1 else if v = "mask" then some 2 else if v = "veg_type" then some 3
  else if v = "veg_height" then some 4 else if v = "veg_tau" then some 6 else none

/-- C70 fails: without the extinction coefficient in the file, the heights of the vegetation are used for it. -/
theorem C70_fails : ¬ C70_full := by
  intro h
  have := (h Nat Nat id id noVegK).2 ⟨"veg_k", by decide, by decide⟩
  revert this
  decide

example : readImages id id noVegK =
    some [("dem", 1), ("mask", 2), ("veg_type", 3), ("veg_height", 4), ("veg_k", 4), ("veg_tau", 6)] := by decide

variable {K : Type} [Field K] [LinearOrder K] [IsStrictOrderedRing K]

set_option linter.unusedSectionVars false

/-! ### C71 -/

theorem argmin_spec (l : List K) (h : l ≠ []) : ∃ k b, argmin l = some k ∧ l[k]? = some b ∧
    (∀ (i : Nat) c, l[i]? = some c → b ≤ c) ∧ ∀ (i : Nat) c, i < k → l[i]? = some c → b < c := by
  induction l with
  | nil => exact absurd rfl h
  | cons a l ih =>
    by_cases hl : l = []
    · subst hl
      refine ⟨0, a, rfl, rfl, ?_, fun i c hi => by omega⟩
      intro i c hc
      cases i with
      | zero => simp only [List.getElem?_cons_zero, Option.some.injEq] at hc; exact hc ▸ le_refl a
      | succ i => simp at hc
    · obtain ⟨k, b, h1, h2, h3, h4⟩ := ih hl
      simp only [argmin, h1, h2]
      by_cases hba : b < a
      · rw [if_pos hba]
        refine ⟨k + 1, b, rfl, by simpa using h2, ?_, ?_⟩
        · intro i c hc
          cases i with
          | zero => simp only [List.getElem?_cons_zero, Option.some.injEq] at hc; exact hc ▸ hba.le
          | succ i => exact h3 i c (by simpa using hc)
        · intro i c hi hc
          cases i with
          | zero => simp only [List.getElem?_cons_zero, Option.some.injEq] at hc; exact hc ▸ hba
          | succ i => exact h4 i c (by omega) (by simpa using hc)
      · rw [if_neg hba]
        refine ⟨0, a, rfl, rfl, ?_, fun i c hi => by omega⟩
        intro i c hc
        cases i with
        | zero => simp only [List.getElem?_cons_zero, Option.some.injEq] at hc; exact hc ▸ le_refl a
        | succ i => exact le_trans (not_lt.1 hba) (h3 i c (by simpa using hc))

/-- C71: a station gets a pixel of the axis; no other pixel of the axis is nearer, and those before it are farther
away. An empty axis is an error. -/
theorem C71_nearest (vec : List K) (a : K) : (pixel vec (some a) = none ↔ vec = []) ∧
    ∀ k, pixel vec (some a) = some k → ∃ v, vec[k]? = some v ∧
      (∀ (i : Nat) w, vec[i]? = some w → |v - a| ≤ |w - a|) ∧
      ∀ (i : Nat) w, i < k → vec[i]? = some w → |v - a| < |w - a| := by
  unfold pixel
  simp only
  by_cases hv : vec = []
  · subst hv
    exact ⟨by simp [argmin], fun k h => by simp [argmin] at h⟩
  · obtain ⟨k, b, h1, h2, h3, h4⟩ := argmin_spec (vec.map fun v => |v - a|) (by simpa using hv)
    refine ⟨by simp [h1, hv], fun k' hk => ?_⟩
    rw [h1] at hk
    cases hk
    rw [List.getElem?_map] at h2
    cases hvk : vec[k]? with
    | none => rw [hvk] at h2; cases h2
    | some v =>
      rw [hvk] at h2
      have h2 : |v - a| = b := Option.some.inj h2
      refine ⟨v, rfl, fun i w hw => ?_, fun i w hi hw => ?_⟩
      · rw [h2]; exact h3 i _ (by rw [List.getElem?_map, hw]; rfl)
      · rw [h2]; exact h4 i _ hi (by rw [List.getElem?_map, hw]; rfl)

example : pixel [(0 : ℚ), 10, 20] (some 14) = some 1 := by decide +kernel

/-- C71: on an even axis the pixel of a station inside of the domain contains it: it is at most half a cell away. -/
theorem C71_half_cell (x0 h a : K) (n k : Nat) (hn : 0 < n)
    (ha : x0 - h / 2 ≤ a) (ha' : a ≤ x0 + (n - 1 : K) * h + h / 2)
    (hk : pixel ((List.range n).map fun i : Nat => x0 + (i : K) * h) (some a) = some k) :
    k < n ∧ |x0 + (k : K) * h - a| ≤ h / 2 := by
  obtain ⟨v, hv, hmin, _⟩ := (C71_nearest _ a).2 k hk
  rw [List.getElem?_map] at hv
  have hkn : k < n := by
    by_contra hc
    rw [List.getElem?_eq_none (by simpa using hc)] at hv
    cases hv
  rw [List.getElem?_range hkn] at hv
  have hv : x0 + (k : K) * h = v := Option.some.inj hv
  refine ⟨hkn, ?_⟩
  rw [hv]
  -- some cell of the axis is within half a cell
  have key : ∀ m : Nat, 0 < m → a ≤ x0 + (m - 1 : K) * h + h / 2 → ∃ i < m, |x0 + (i : K) * h - a| ≤ h / 2 := by
    intro m
    induction m with
    | zero => intro h; omega
    | succ m ih =>
      intro _ hm
      push_cast at hm
      by_cases hc : x0 + (m : K) * h - h / 2 ≤ a
      · refine ⟨m, by omega, ?_⟩
        rw [abs_le]
        constructor <;> linarith
      · rw [not_le] at hc
        by_cases h0 : m = 0
        · subst h0; push_cast at hc; linarith
        · obtain ⟨i, hi, h2⟩ := ih (by omega) (by linarith)
          exact ⟨i, by omega, h2⟩
  obtain ⟨i, hi, h2⟩ := key n hn ha'
  refine le_trans (hmin i _ ?_) h2
  rw [List.getElem?_map, List.getElem?_range hi]; rfl

example : ((100 : ℚ) - 10 / 2 ≤ 97) ∧ (97 : ℚ) ≤ 100 + ((4 : Nat) - 1 : ℚ) * 10 + 10 / 2 ∧
    pixel ((List.range 4).map fun i : Nat => (100 : ℚ) + (i : ℚ) * 10) (some 97) = some 0 := by
  refine ⟨by norm_num, by norm_num, by decide +kernel⟩

/-- C71: a station without coordinates gets the first pixel instead of an error. -/
theorem C71_missing (vec : List K) (h : vec ≠ []) : pixel vec none = some 0 := by
  unfold pixel
  simp [h]

/-! ### C95 -/

theorem diffs_length (a : K) (l : List K) : (diffs (a :: l)).length = l.length := by
  induction l generalizing a with
  | nil => rfl
  | cons b l ih => simp [diffs, ih b]

theorem diffs_sum (a : K) (l : List K) : (diffs (a :: l)).sum = (a :: l).getLast (by simp) - a := by
  induction l generalizing a with
  | nil => simp [diffs]
  | cons b l ih =>
    rw [diffs, List.sum_cons, ih b, List.getLast_cons (List.cons_ne_nil b l)]
    ring

/-- C95: the cell size is the length of the axis divided by the number of steps; an axis with less than two values
has none. -/
theorem C95_dx (x : List K) : (dx x = none ↔ x.length ≤ 1) ∧
    ∀ a b l, x = a :: b :: l → dx x = some (((b :: l).getLast (List.cons_ne_nil b l) - a) / ((x.length : K) - 1)) ∧
      dy x = some |((b :: l).getLast (List.cons_ne_nil b l) - a) / ((x.length : K) - 1)| := by
  refine ⟨?_, ?_⟩
  · unfold dx mean
    cases x with
    | nil => simp [diffs]
    | cons a l => rw [diffs_length]; cases l <;> simp
  · rintro a b l rfl
    have e : mean (diffs (a :: b :: l)) =
        some (((b :: l).getLast (List.cons_ne_nil b l) - a) / (((a :: b :: l).length : K) - 1)) := by
      unfold mean
      rw [diffs_length, if_neg (by simp), diffs_sum, List.getLast_cons (List.cons_ne_nil b l)]
      congr 2
      simp
    refine ⟨e, ?_⟩
    unfold dy
    rw [e]; rfl

/-- C95: on an even axis, whichever way it runs, the cell size is the distance of neighbouring cells: with its sign
for the columns, without for the rows. -/
theorem C95_even (x0 h : K) (n : Nat) (hn : 2 ≤ n) :
    dx ((List.range n).map fun i : Nat => x0 + (i : K) * h) = some h ∧
    dy ((List.range n).map fun i : Nat => x0 + (i : K) * h) = some |h| := by
  obtain ⟨m, rfl⟩ : ∃ m, n = m + 2 := ⟨n - 2, by omega⟩
  set x := (List.range (m + 2)).map fun i : Nat => x0 + (i : K) * h with hx
  have hl : x.length = m + 2 := by simp [hx]
  obtain ⟨a, b, l, e⟩ : ∃ a b l, x = a :: b :: l := by
    match x, hl with
    | a :: b :: l, _ => exact ⟨a, b, l, rfl⟩
  have h0 : a = x0 := by
    have : x[0]? = some a := by rw [e]; rfl
    rw [hx, List.getElem?_map, List.getElem?_range (by omega)] at this
    simpa using (Option.some.inj this).symm
  have hlast : x.getLast (by simp [e]) = x0 + ((m + 1 : Nat) : K) * h := by
    rw [List.getLast_eq_getElem]
    simp [hx]
  have hm : ((m : K) + 1) ≠ 0 := by positivity
  have hlast' : (b :: l).getLast (List.cons_ne_nil b l) = x0 + ((m + 1 : Nat) : K) * h := by
    rw [← hlast]
    simp only [e]
    rw [List.getLast_cons (List.cons_ne_nil b l)]
  have hval : ((b :: l).getLast (List.cons_ne_nil b l) - a) / ((x.length : K) - 1) = h := by
    rw [hlast', h0, hl]
    push_cast
    rw [show (m : K) + 2 - 1 = m + 1 by ring, add_sub_cancel_left, mul_div_assoc, mul_div_cancel₀]
    exact hm
  obtain ⟨h1, h2⟩ := (C95_dx x).2 a b l e
  rw [hval] at h1 h2
  exact ⟨h1, h2⟩

theorem mem_inside (mask : Nat → Nat → K) (ny nx i j : Nat) :
    (i, j) ∈ inside mask ny nx ↔ i < ny ∧ j < nx ∧ mask i j = 1 := by
  unfold inside
  simp only [List.mem_flatMap, List.mem_range, List.mem_map, List.mem_filter, decide_eq_true_eq, Prod.mk.injEq]
  constructor
  · rintro ⟨a, ha, b, ⟨hb, hm⟩, rfl, rfl⟩
    exact ⟨ha, hb, hm⟩
  · rintro ⟨h1, h2, h3⟩
    exact ⟨i, h1, j, ⟨h2, h3⟩, rfl, rfl⟩

theorem inside_nodup (mask : Nat → Nat → K) (ny nx : Nat) : (inside mask ny nx).Nodup := by
  unfold inside
  rw [List.nodup_flatMap]
  refine ⟨fun i _ => ?_, ?_⟩
  · refine List.Nodup.map (fun a b h => (Prod.mk.inj h).2) (List.Nodup.filter _ List.nodup_range)
  · refine List.Pairwise.imp_of_mem ?_ (List.nodup_range (n := ny))
    intro a b _ _ hab
    rw [Function.onFun, List.disjoint_left]
    rintro ⟨p, q⟩ h1 h2
    simp only [List.mem_map, Prod.mk.injEq] at h1 h2
    obtain ⟨_, _, rfl, _⟩ := h1
    obtain ⟨_, _, e, _⟩ := h2
    exact hab e.symm

theorem mean_between {l : List K} {m lo hi : K} (h : mean l = some m) (hl : ∀ v ∈ l, lo ≤ v ∧ v ≤ hi) :
    lo ≤ m ∧ m ≤ hi := by
  unfold mean at h
  split at h
  · cases h
  · rename_i hne
    have h := Option.some.inj h
    have hp : (0 : K) < l.length := by exact_mod_cast Nat.pos_of_ne_zero hne
    have key : ∀ l : List K, (∀ v ∈ l, lo ≤ v ∧ v ≤ hi) → lo * l.length ≤ l.sum ∧ l.sum ≤ hi * l.length := by
      intro l
      induction l with
      | nil => simp
      | cons a l ih =>
        intro hv
        obtain ⟨i1, i2⟩ := ih (fun v h => hv v (by simp [h]))
        obtain ⟨a1, a2⟩ := hv a (by simp)
        simp only [List.sum_cons, List.length_cons]
        push_cast
        constructor <;> linarith
    obtain ⟨k1, k2⟩ := key l hl
    rw [← h, le_div_iff₀ hp, div_le_iff₀ hp]
    exact ⟨k1, k2⟩

/-- C95: the centre of the basin is the mean position of the cells with mask 1, each counted once; it lies within
every rectangle that contains these cells. Without such a cell it is NaN. -/
theorem C95_center (x y : Nat → K) (mask : Nat → Nat → K) (ny nx : Nat) :
    ∃ cells : List (Nat × Nat), cells.Nodup ∧ (∀ i j, (i, j) ∈ cells ↔ i < ny ∧ j < nx ∧ mask i j = 1) ∧
      ((center x y mask ny nx = (none, none) ∧ cells = []) ∨
        (cells ≠ [] ∧ ∃ cx cy, center x y mask ny nx = (some cx, some cy) ∧
          cx * cells.length = (cells.map fun p => x p.2).sum ∧ cy * cells.length = (cells.map fun p => y p.1).sum ∧
          ∀ x0 x1 y0 y1, (∀ i j, i < ny → j < nx → mask i j = 1 → x0 ≤ x j ∧ x j ≤ x1 ∧ y0 ≤ y i ∧ y i ≤ y1) →
            x0 ≤ cx ∧ cx ≤ x1 ∧ y0 ≤ cy ∧ cy ≤ y1)) := by
  refine ⟨inside mask ny nx, inside_nodup mask ny nx, mem_inside mask ny nx, ?_⟩
  unfold center
  simp only
  set cells := inside mask ny nx with hc
  by_cases h : cells = []
  · left; simp [h, mean]
  · right
    have hlen : cells.length ≠ 0 := by simpa using h
    have hp : (0 : K) < cells.length := by exact_mod_cast Nat.pos_of_ne_zero hlen
    have e1 : mean (cells.map fun p => x p.2) = some ((cells.map fun p => x p.2).sum / cells.length) := by
      unfold mean; rw [List.length_map, if_neg hlen]
    have e2 : mean (cells.map fun p => y p.1) = some ((cells.map fun p => y p.1).sum / cells.length) := by
      unfold mean; rw [List.length_map, if_neg hlen]
    refine ⟨h, _, _, Prod.ext e1 e2, div_mul_cancel₀ _ hp.ne', div_mul_cancel₀ _ hp.ne', ?_⟩
    intro x0 x1 y0 y1 hb
    have b1 := mean_between e1 (lo := x0) (hi := x1) (fun v hv => by
      obtain ⟨⟨i, j⟩, hm, rfl⟩ := List.mem_map.1 hv
      obtain ⟨q1, q2, q3⟩ := (mem_inside mask ny nx i j).1 hm
      have := hb i j q1 q2 q3
      exact ⟨this.1, this.2.1⟩)
    have b2 := mean_between e2 (lo := y0) (hi := y1) (fun v hv => by
      obtain ⟨⟨i, j⟩, hm, rfl⟩ := List.mem_map.1 hv
      obtain ⟨q1, q2, q3⟩ := (mem_inside mask ny nx i j).1 hm
      have := hb i j q1 q2 q3
      exact this.2.2)
    exact ⟨b1.1, b1.2, b2.1, b2.2⟩

/-- An L-shaped basin. -/
example : center (fun j => (10 * j : ℚ)) (fun i => (100 - 10 * i : ℚ)) (fun i j => if i = 0 ∨ j = 0 then 1 else 0) 2 2 =
    (some (10 / 3), some (290 / 3)) := by
  decide +kernel

end Verif.Topo
