import Verif.Csv
import Mathlib.Data.List.Basic

/-!
Station tables: the selection when loading (C76) and the stations of the modules (C97).
-/

namespace Verif.Csv

/-! ### C76 -/

theorem charUpper_idem (c : Char) : c.toUpper.toUpper = c.toUpper := by
  have h : ∀ c : Char, c.toUpper = c ∨ (c.toUpper.toNat + 32 = c.toNat ∧ c.toNat ≤ 122) := by
    intro c
    unfold Char.toUpper
    split
    · rename_i hc
      right
      obtain ⟨h1, h2⟩ := hc
      have h1 : 97 ≤ c.toNat := h1
      have h2 : c.toNat ≤ 122 := h2
      refine ⟨?_, h2⟩
      show (c.val + ((65 : UInt32) - 97)).toNat + 32 = c.val.toNat
      have h1 : 97 ≤ c.val.toNat := h1
      have h2 : c.val.toNat ≤ 122 := h2
      rw [UInt32.toNat_add]
      have : ((65 : UInt32) - 97).toNat = 2 ^ 32 - 32 := by decide
      rw [this]
      omega
    · exact Or.inl rfl
  rcases h c with h1 | ⟨h1, h2⟩
  · rw [h1, h1]
  · generalize c.toUpper = d at h1
    unfold Char.toUpper
    rw [dif_neg]
    rintro ⟨h3, _⟩
    have h3 : 97 ≤ d.toNat := h3
    omega

theorem upper_idem (s : Name) : upper (upper s) = upper s := by
  unfold upper
  rw [List.map_map]
  exact List.map_congr_left fun c _ => charUpper_idem c

theorem pick_zip {A : Type} (keep : Name → Bool) (cols : List Name) (l : List A) :
    pick keep cols l = ((cols.zip l).filter fun p => keep p.1).map (·.2) := by
  induction cols generalizing l with
  | nil => rfl
  | cons c cols ih =>
    cases l with
    | nil => rfl
    | cons a l =>
      rw [pick, List.zip_cons_cons, List.filter_cons, ih]
      simp only
      by_cases h : keep c <;> simp [h]

theorem pick_map {A : Type} (keep : Name → Bool) (cols : List Name) (l : List A) :
    pick keep (cols.map upper) l = pick (fun c => keep (upper c)) cols l := by
  induction cols generalizing l with
  | nil => rfl
  | cons c cols ih =>
    cases l with
    | nil => rfl
    | cons a l => simp only [List.map_cons, pick, ih]

/-- The times do not decrease. -/
def Sorted {V : Type} (t : Table V) : Prop := t.rows.Pairwise fun r s => r.1 ≤ s.1

theorem take_sorted {V : Type} (stop : Int) (l : List (Int × V)) (h : l.Pairwise fun r s => r.1 ≤ s.1) :
    l.take (l.findIdx fun r => decide (stop < r.1)) = l.filter fun r => decide (r.1 ≤ stop) := by
  induction l with
  | nil => rfl
  | cons a l ih =>
    obtain ⟨h1, h2⟩ := List.pairwise_cons.1 h
    rw [List.findIdx_cons, List.filter_cons]
    by_cases ha : stop < a.1
    · have hf : l.filter (fun r => decide (r.1 ≤ stop)) = [] := by
        rw [List.filter_eq_nil_iff]
        intro r hr
        have := h1 r hr
        simp; omega
      simp [ha, hf, show ¬ a.1 ≤ stop by omega]
    · simp [ha, show a.1 ≤ stop by omega, ih h2]

theorem drop_sorted {V : Type} (start : Int) (n : Nat) (l : List (Int × V)) (h : l.Pairwise fun r s => r.1 ≤ s.1) :
    (l.take n).drop (l.findIdx fun r => decide (start ≤ r.1)) = (l.take n).filter fun r => decide (start ≤ r.1) := by
  induction l generalizing n with
  | nil => simp
  | cons a l ih =>
    obtain ⟨h1, h2⟩ := List.pairwise_cons.1 h
    cases n with
    | zero => simp
    | succ n =>
      rw [List.findIdx_cons, List.take_succ_cons, List.filter_cons]
      by_cases ha : start ≤ a.1
      · have hf : (l.take n).filter (fun r => decide (start ≤ r.1)) = l.take n := by
          rw [List.filter_eq_self]
          intro r hr
          have := h1 r (List.mem_of_mem_take hr)
          simp; omega
        simp [ha, hf]
      · simp [ha, ih n h2]

/-- On an increasing index the slice is the set of rows of the period. -/
theorem slice_rows {V : Type} (start stop : Int) (t : Table V) (h : Sorted t) :
    (t.slice start stop).rows = t.rows.filter fun r => decide (start ≤ r.1 ∧ r.1 ≤ stop) := by
  unfold Table.slice
  simp only
  rw [← List.drop_take, drop_sorted start _ t.rows h, take_sorted stop t.rows h, List.filter_filter]
  congr 1
  funext r
  simp

/-- The station is asked for: there is no list, or a name on the list differs from it at most in case. -/
def Asked (cfg : Option (List Name)) (c : Name) : Prop := ∀ l, cfg = some l → ∃ s ∈ l, upper s = upper c

instance (cfg : Option (List Name)) (c : Name) : Decidable (Asked cfg c) := by
  cases cfg with
  | none => exact isTrue fun l h => by cases h
  | some l =>
    by_cases h : ∃ s ∈ l, upper s = upper c
    · exact isTrue fun l' e => by cases e; exact h
    · exact isFalse fun h' => h (h' l rfl)

theorem contains_iff (l : List Name) (c : Name) :
    (l.map upper).contains (upper c) = decide (Asked (some l) c) := by
  rw [Bool.eq_iff_iff, List.contains_iff_mem, List.mem_map, decide_eq_true_iff]
  exact ⟨fun h l' e => by cases e; exact h, fun h => h l rfl⟩

/-- The table that should be loaded: the columns asked for in the order of the file under their names in capitals, and the
rows of the period, both ends included. -/
def wanted {V : Type} (start stop : Int) (cfg : Option (List Name)) (file : Table V) : Table V where
  cols := (file.cols.filter fun c => decide (Asked cfg c)).map upper
  rows := (file.rows.filter fun r => decide (start ≤ r.1 ∧ r.1 ≤ stop)).map fun r =>
    (r.1, ((file.cols.zip r.2).filter fun p => decide (Asked cfg p.1)).map (·.2))

theorem loaded {V : Type} (start stop : Int) (cfg : Option (List Name)) (file : Table V) (hs : Sorted file)
    (hw : ∀ r ∈ file.rows, r.2.length = file.cols.length) :
    loadVariable start stop (checkStations cfg) file =
      if (wanted start stop cfg file).empty then none else some (wanted start stop cfg file) := by
  unfold loadVariable checkStations
  simp only
  suffices h : (restrict (cfg.map fun l => l.map upper) (⟨file.cols.map upper, file.rows⟩ : Table V)).slice start stop =
      wanted start stop cfg file by
    rw [h]
  have ext : ∀ a b : Table V, a.cols = b.cols → a.rows = b.rows → a = b := by
    intro a b h1 h2
    cases a; cases b
    simp only at h1 h2
    rw [h1, h2]
  cases cfg with
  | none =>
    have ha : ∀ c, decide (Asked none c) = true := fun c => decide_eq_true fun l h => by cases h
    apply ext
    · simp [Table.slice, wanted, ha, restrict]
    · refine (slice_rows start stop _ hs).trans ?_
      unfold wanted
      simp only [ha]
      conv => lhs; rw [← List.map_id (List.filter _ file.rows)]
      apply List.map_congr_left
      intro r hr
      have := hw r (List.mem_filter.1 hr).1
      simp only [List.filter_true]
      rw [show List.map (fun x => x.2) (file.cols.zip r.2) = r.2 from
        List.map_snd_zip (by omega)]
      rfl
  | some l =>
    have hk : ∀ c, (l.map upper).contains (upper c) = decide (Asked (some l) c) := contains_iff l
    apply ext
    · show List.filter _ (file.cols.map upper) = _
      rw [List.filter_map]
      unfold wanted
      congr 1
      congr 1
      funext c
      exact hk c
    · refine (slice_rows start stop _ ?_).trans ?_
      · show List.Pairwise _ (file.rows.map _)
        rw [List.pairwise_map]
        exact hs
      · show List.filter _ (file.rows.map _) = List.map _ _
        rw [List.filter_map]
        apply List.map_congr_left
        intro r _
        rw [pick_map, pick_zip]
        simp only [hk]

/-- C76: with the station names of the configuration, a variable that is loaded consists of exactly the
columns asked for, compared without regard to case, and exactly the rows from the start date to the end date. -/
theorem C76_selection {V : Type} (start stop : Int) (cfg : Option (List Name)) (file t : Table V) (hs : Sorted file)
    (hw : ∀ r ∈ file.rows, r.2.length = file.cols.length)
    (h : loadVariable start stop (checkStations cfg) file = some t) : t = wanted start stop cfg file := by
  rw [loaded start stop cfg file hs hw] at h
  split at h
  · cases h
  · exact (Option.some.inj h).symm

/-- C76: loading fails exactly if no column is asked for or no row is in the period. -/
theorem C76_empty {V : Type} (start stop : Int) (cfg : Option (List Name)) (file : Table V) (hs : Sorted file)
    (hw : ∀ r ∈ file.rows, r.2.length = file.cols.length) :
    loadVariable start stop (checkStations cfg) file = none ↔
      (∀ c ∈ file.cols, ¬ Asked cfg c) ∨ ∀ r ∈ file.rows, ¬ (start ≤ r.1 ∧ r.1 ≤ stop) := by
  rw [loaded start stop cfg file hs hw]
  have : (wanted start stop cfg file).empty = true ↔
      (∀ c ∈ file.cols, ¬ Asked cfg c) ∨ ∀ r ∈ file.rows, ¬ (start ≤ r.1 ∧ r.1 ≤ stop) := by
    unfold Table.empty wanted
    simp only [Bool.or_eq_true, List.isEmpty_iff, List.map_eq_nil_iff, List.filter_eq_nil_iff, decide_eq_true_iff]
  rw [← this]
  split <;> simp_all

/-- C76: all variables are loaded in this way, or the run ends because one of them is empty. -/
theorem C76_all {V : Type} (start stop : Int) (cfg : Option (List Name)) (files : List (String × Table V))
    (hs : ∀ f ∈ files, Sorted f.2) (hw : ∀ f ∈ files, ∀ r ∈ f.2.rows, r.2.length = f.2.cols.length) :
    (load start stop (checkStations cfg) files = none ↔
      ∃ f ∈ files, (∀ c ∈ f.2.cols, ¬ Asked cfg c) ∨ ∀ r ∈ f.2.rows, ¬ (start ≤ r.1 ∧ r.1 ≤ stop)) ∧
    ∀ ts, load start stop (checkStations cfg) files = some ts →
      ts = files.map fun f => (f.1, wanted start stop cfg f.2) := by
  induction files with
  | nil => exact ⟨by simp [load], fun ts h => by simpa [load] using h.symm⟩
  | cons f files ih =>
    obtain ⟨i1, i2⟩ := ih (fun g hg => hs g (by simp [hg])) (fun g hg => hw g (by simp [hg]))
    have hf := hs f (by simp)
    have hwf := hw f (by simp)
    have he := C76_empty start stop cfg f.2 hf hwf
    have hsel := C76_selection start stop cfg f.2
    unfold load at i1 i2 ⊢
    rw [List.mapM_cons]
    cases h : loadVariable start stop (checkStations cfg) f.2 with
    | none =>
      refine ⟨⟨fun _ => ⟨f, by simp, he.1 h⟩, fun _ => rfl⟩, fun ts hts => ?_⟩
      simp at hts
    | some t =>
      have hft := hsel t hf hwf h
      have hnf : ¬ ((∀ c ∈ f.2.cols, ¬ Asked cfg c) ∨ ∀ r ∈ f.2.rows, ¬ (start ≤ r.1 ∧ r.1 ≤ stop)) := by
        intro hc
        rw [he.2 hc] at h
        cases h
      cases h2 : files.mapM fun f => (loadVariable start stop (checkStations cfg) f.2).map fun t => (f.1, t) with
      | none =>
        refine ⟨⟨fun _ => ?_, fun _ => rfl⟩, fun ts hts => ?_⟩
        · obtain ⟨g, hg, hgc⟩ := i1.1 h2
          exact ⟨g, by simp [hg], hgc⟩
        · simp at hts
      | some ts' =>
        constructor
        · constructor
          · intro hc; simp at hc
          · rintro ⟨g, hg, hgc⟩
            rcases List.mem_cons.1 hg with rfl | hg
            · exact absurd hgc hnf
            · rw [i1.2 ⟨g, hg, hgc⟩] at h2
              cases h2
        · intro ts hts
          have := i2 ts' h2
          simp at hts
          rw [← hts, this, hft]
          simp

/-- C76: a column of the loaded table is in the station metadata exactly if the names agree without regard to case. -/
theorem C76_metadata (ids : List Name) (c : Name) :
    upper c ∈ metadataIndex ids ↔ ∃ s ∈ ids, upper s = upper c := by
  unfold metadataIndex
  exact List.mem_map

/-- C76: the comparison needs the conversion of the configuration. Names in small letters that are given to the loader directly are
not found, whatever the table. -/
theorem C76_unchecked {V : Type} (start stop : Int) (l : List Name) (file : Table V) (h : ∀ s ∈ l, upper s ≠ s) :
    loadVariable start stop (some l) file = none := by
  have : ((file.cols.map upper).filter fun c => l.contains c) = [] := by
    rw [List.filter_eq_nil_iff]
    intro c hc hin
    obtain ⟨d, _, rfl⟩ := List.mem_map.1 hc
    rw [List.contains_iff_mem] at hin
    exact h _ hin (upper_idem d)
  unfold loadVariable
  simp only
  rw [if_pos]
  show (List.isEmpty (List.filter (fun c => l.contains c) (file.cols.map upper)) || _) = true
  rw [this]
  rfl

/-- Two of three stations, three of five times. -/
example : (loadVariable 2 4 (checkStations (some ["Ra".toList, "BO".toList]))
    (⟨["ra".toList, "TW".toList, "Bo".toList], [(1, [1, 2, 3]), (2, [4, 5, 6]), (4, [7, 8, 9]), (5, [0, 0, 0])]⟩ :
      Table Nat)).map (fun t => (t.cols, t.rows)) =
    some (["RA".toList, "BO".toList], [(2, [4, 6]), (4, [7, 9])]) := by
  decide +kernel

/-! ### C97 -/

theorem filterAll_other {V : Type} (st : Stations) (l : List (String × String × Table V)) (m : String)
    (h : ∀ x ∈ l, x.2.1 ≠ m) : (filterAll st l).1 m = st m := by
  induction l generalizing st with
  | nil => rfl
  | cons x l ih =>
    obtain ⟨v, m', t⟩ := x
    have hm : m' ≠ m := h (v, m', t) (by simp)
    unfold filterAll
    simp only
    rw [ih _ fun y hy => h y (by simp [hy])]
    unfold filterVariable
    split <;> simp [Ne.symm hm]

theorem filterAll_append {V : Type} (st : Stations) (l l' : List (String × String × Table V)) :
    filterAll st (l ++ l') = ((filterAll (filterAll st l).1 l').1, (filterAll st l).2 ++ (filterAll (filterAll st l).1 l').2) := by
  induction l generalizing st with
  | nil => rfl
  | cons x l ih =>
    obtain ⟨v, m, t⟩ := x
    simp only [List.cons_append, filterAll]
    rw [ih]

theorem filterAll_tables {V : Type} (st : Stations) (l : List (String × String × Table V)) :
    (filterAll st l).2.length = l.length := by
  induction l generalizing st with
  | nil => rfl
  | cons x l ih =>
    obtain ⟨v, m, t⟩ := x
    simp [filterAll, ih]

/-- The columns are in a station list. -/
def Among (st : Option (List Name)) (c : Name) : Prop := ∀ l, st = some l → c ∈ l

theorem filterVariable_cols {V : Type} (st : Stations) (m : String) (t : Table V) :
    (filterVariable st m t).1 m = some (filterVariable st m t).2.cols ∧
    (∀ c, c ∈ (filterVariable st m t).2.cols ↔ c ∈ t.cols ∧ Among (st m) c) ∧
    (filterVariable st m t).2.cols.Sublist t.cols := by
  unfold filterVariable
  cases h : st m with
  | none =>
    simp only
    exact ⟨by simp, fun c => ⟨fun hc => ⟨hc, fun l e => by cases e⟩, fun hc => hc.1⟩, List.Sublist.refl _⟩
  | some l =>
    simp only
    refine ⟨by simp, fun c => ?_, List.filter_sublist⟩
    unfold Table.select
    simp only [List.mem_filter, List.contains_iff_mem]
    exact ⟨fun ⟨h1, h2⟩ => ⟨h1, fun l' e => by cases e; exact h2⟩, fun ⟨h1, h2⟩ => ⟨h1, h2 l rfl⟩⟩

/-- C97: a module with one variable: its stations are the columns of its table that it asked for, in the order of the
table, and the table is restricted to them. -/
theorem C97_single {V : Type} (st : Stations) (pre post : List (String × String × Table V)) (v m : String) (t : Table V)
    (h1 : ∀ x ∈ pre, x.2.1 ≠ m) (h2 : ∀ x ∈ post, x.2.1 ≠ m) :
    ∃ t', (filterAll st (pre ++ (v, m, t) :: post)).2[pre.length]? = some (v, t') ∧
      (filterAll st (pre ++ (v, m, t) :: post)).1 m = some t'.cols ∧
      (∀ c, c ∈ t'.cols ↔ c ∈ t.cols ∧ Among (st m) c) ∧ t'.cols.Sublist t.cols := by
  have hpre := filterAll_other st pre m h1
  rw [filterAll_append]
  set st1 := (filterAll st pre).1
  obtain ⟨f1, f2, f3⟩ := filterVariable_cols st1 m t
  rw [hpre] at f2
  refine ⟨(filterVariable st1 m t).2, ?_, ?_, f2, f3⟩
  · simp only [filterAll]
    rw [List.getElem?_append_right (by rw [filterAll_tables]; exact Nat.le_refl _), filterAll_tables, Nat.sub_self]
    rfl
  · simp only [filterAll]
    rw [filterAll_other _ post m h2, f1]

/-- C97: the wind has two variables. Its stations are those with both a speed and a direction, in the order of the table of the
directions. -/
theorem C97_wind {V : Type} (st : Stations) (pre post : List (String × String × Table V)) (v w m : String)
    (t u : Table V) (h1 : ∀ x ∈ pre, x.2.1 ≠ m) (h2 : ∀ x ∈ post, x.2.1 ≠ m) :
    ∃ t' u' l, (filterAll st (pre ++ (v, m, t) :: (w, m, u) :: post)).2[pre.length]? = some (v, t') ∧
      (filterAll st (pre ++ (v, m, t) :: (w, m, u) :: post)).2[pre.length + 1]? = some (w, u') ∧
      (filterAll st (pre ++ (v, m, t) :: (w, m, u) :: post)).1 m = some l ∧
      (∀ c, c ∈ t'.cols ↔ c ∈ t.cols ∧ Among (st m) c) ∧
      (∀ c, c ∈ l ↔ c ∈ t.cols ∧ c ∈ u.cols ∧ Among (st m) c) ∧ l.Sublist u.cols ∧ u'.cols = l := by
  have hpre := filterAll_other st pre m h1
  rw [filterAll_append]
  set st1 := (filterAll st pre).1
  obtain ⟨f1, f2, f3⟩ := filterVariable_cols st1 m t
  rw [hpre] at f2
  obtain ⟨g1, g2, g3⟩ := filterVariable_cols (filterVariable st1 m t).1 m u
  refine ⟨(filterVariable st1 m t).2, (filterVariable (filterVariable st1 m t).1 m u).2, _, ?_, ?_, ?_, f2, ?_, g3, rfl⟩
  · simp only [filterAll]
    rw [List.getElem?_append_right (by rw [filterAll_tables]; exact Nat.le_refl _), filterAll_tables, Nat.sub_self]
    rfl
  · simp only [filterAll]
    rw [List.getElem?_append_right (by rw [filterAll_tables]; omega), filterAll_tables, Nat.add_sub_cancel_left]
    rfl
  · simp only [filterAll]
    rw [filterAll_other _ post m h2, g1]
  · intro c
    rw [g2, f1]
    constructor
    · rintro ⟨hu, ha⟩
      have := (f2 c).1 (ha _ rfl)
      exact ⟨this.1, hu, this.2⟩
    · rintro ⟨ht, hu, ha⟩
      exact ⟨hu, fun l e => by cases e; exact (f2 c).2 ⟨ht, ha⟩⟩

/-- C97: the selection as the framework runs it, over all its variables: every module ends up with the stations that it asked
for and that have a column of its variable, the wind with those that have both a speed and a direction. -/
theorem C97_run {V : Type} (st : Stations) (t : String → Table V) :
    let r := (filterAll st (moduleVariables.map fun p => (p.1, p.2, t p.1))).1
    (∀ vm ∈ [("air_temp", "air_temp"), ("vapor_pressure", "vapor_pressure"), ("precip", "precipitation"),
        ("cloud_factor", "cloud_factor"), ("thermal", "thermal")],
      ∃ l, r vm.2 = some l ∧ (∀ c, c ∈ l ↔ c ∈ (t vm.1).cols ∧ Among (st vm.2) c) ∧ l.Sublist (t vm.1).cols) ∧
    ∃ l, r "wind" = some l ∧ l.Sublist (t "wind_direction").cols ∧
      ∀ c, c ∈ l ↔ c ∈ (t "wind_speed").cols ∧ c ∈ (t "wind_direction").cols ∧ Among (st "wind") c := by
  set f : String × String → String × String × Table V := fun p => (p.1, p.2, t p.1) with hf
  have single : ∀ (pre post : List (String × String)) (v m : String), moduleVariables = pre ++ (v, m) :: post →
      (∀ x ∈ pre, x.2 ≠ m) → (∀ x ∈ post, x.2 ≠ m) → ∃ l, (filterAll st (moduleVariables.map f)).1 m = some l ∧
        (∀ c, c ∈ l ↔ c ∈ (t v).cols ∧ Among (st m) c) ∧ l.Sublist (t v).cols := by
    intro pre post v m he h1 h2
    obtain ⟨t', -, g2, g3, g4⟩ := C97_single st (pre.map f) (post.map f) v m (t v)
      (fun x hx => by obtain ⟨y, hy, rfl⟩ := List.mem_map.1 hx; exact h1 y hy)
      (fun x hx => by obtain ⟨y, hy, rfl⟩ := List.mem_map.1 hx; exact h2 y hy)
    refine ⟨t'.cols, ?_, g3, g4⟩
    rw [he, List.map_append, List.map_cons]
    exact g2
  refine ⟨?_, ?_⟩
  · intro vm hvm
    simp only [List.mem_cons, List.not_mem_nil, or_false] at hvm
    rcases hvm with rfl | rfl | rfl | rfl | rfl
    · exact single [] _ _ _ rfl (by decide) (by decide)
    · exact single (moduleVariables.take 1) (moduleVariables.drop 2) _ _ rfl (by decide) (by decide)
    · exact single (moduleVariables.take 2) (moduleVariables.drop 3) _ _ rfl (by decide) (by decide)
    · exact single (moduleVariables.take 5) (moduleVariables.drop 6) _ _ rfl (by decide) (by decide)
    · exact single (moduleVariables.take 6) (moduleVariables.drop 7) _ _ rfl (by decide) (by decide)
  · obtain ⟨t', u', l, -, -, g3, -, g5, g6, -⟩ := C97_wind st ((moduleVariables.take 3).map f)
      ((moduleVariables.drop 5).map f) "wind_speed" "wind_direction" "wind" (t "wind_speed") (t "wind_direction")
      (fun x hx => by
        obtain ⟨y, hy, rfl⟩ := List.mem_map.1 hx
        exact (by decide : ∀ y ∈ moduleVariables.take 3, y.2 ≠ "wind") y hy)
      (fun x hx => by
        obtain ⟨y, hy, rfl⟩ := List.mem_map.1 hx
        exact (by decide : ∀ y ∈ moduleVariables.drop 5, y.2 ≠ "wind") y hy)
    exact ⟨l, g3, g6, g5⟩

theorem findIdx_get (cols : List Name) (s : Name) (h : s ∈ cols) :
    ∃ i, cols.findIdx (fun c => c == s) = i ∧ cols[i]? = some s := by
  refine ⟨_, rfl, ?_⟩
  have hlt : cols.findIdx (fun c => c == s) < cols.length :=
    List.findIdx_lt_length_of_exists ⟨s, h, by simp⟩
  rw [List.getElem?_eq_getElem hlt]
  have := List.findIdx_getElem (w := hlt)
  simpa using this

/-- A row holds value `x` for station `s`. -/
def Holds {V : Type} (cols : List Name) (row : List V) (s : Name) (x : V) : Prop :=
  ∃ i : Nat, cols[i]? = some s ∧ row[i]? = some x

/-- C97: the values of a time step are those of the stations, each under its own name; they are found exactly if all stations
have a column. -/
theorem C97_values {V : Type} (cols : List Name) (row : List V) (stations : List Name)
    (hw : row.length = cols.length) :
    ((∃ vals, rowValues cols row stations = some vals) ↔ ∀ s ∈ stations, s ∈ cols) ∧
    ∀ vals, rowValues cols row stations = some vals → vals.length = stations.length ∧
      ∀ (k : Nat) s, stations[k]? = some s → ∃ x, vals[k]? = some x ∧ Holds cols row s x := by
  induction stations with
  | nil => exact ⟨by simp [rowValues], fun vals h => by simp [rowValues] at h; simp [← h]⟩
  | cons s l ih =>
    obtain ⟨i1, i2⟩ := ih
    have e : rowValues cols row (s :: l) = (row[cols.findIdx fun c => c == s]?).bind fun x =>
        (rowValues cols row l).bind fun xs => some (x :: xs) := by
      unfold rowValues
      rw [List.mapM_cons]
      rfl
    rw [e]
    by_cases hs : s ∈ cols
    · obtain ⟨i, hi, hc⟩ := findIdx_get cols s hs
      rw [hi]
      have hil : i < cols.length := by
        by_contra hcon
        rw [List.getElem?_eq_none (by omega)] at hc
        cases hc
      have hr : row[i]? = some row[i] := List.getElem?_eq_getElem (by omega)
      rw [hr]
      cases h2 : rowValues cols row l with
      | none =>
        refine ⟨⟨?_, ?_⟩, ?_⟩
        · rintro ⟨vals, h⟩; simp at h
        · intro hall
          obtain ⟨vals, hv⟩ := i1.2 fun s' hs' => hall s' (by simp [hs'])
          rw [hv] at h2; cases h2
        · intro vals h; simp at h
      | some xs =>
        obtain ⟨j1, j2⟩ := i2 xs h2
        refine ⟨⟨fun _ => ?_, fun _ => ⟨row[i] :: xs, rfl⟩⟩, ?_⟩
        · intro s' hs'
          rcases List.mem_cons.1 hs' with rfl | hs'
          · exact hs
          · exact i1.1 ⟨xs, h2⟩ s' hs'
        · intro vals h
          have h : row[i] :: xs = vals := Option.some.inj h
          subst h
          refine ⟨by simp [j1], fun k s' hk => ?_⟩
          cases k with
          | zero =>
            have : s = s' := Option.some.inj hk
            subst this
            exact ⟨row[i], rfl, i, hc, hr⟩
          | succ k => exact j2 k s' (by simpa using hk)
    · have hi : cols.findIdx (fun c => c == s) = cols.length := by
        rw [List.findIdx_eq_length]
        intro x hx
        by_contra hcon
        have : x = s := by simpa using hcon
        exact hs (this ▸ hx)
      rw [hi, List.getElem?_eq_none (by omega)]
      refine ⟨⟨?_, ?_⟩, ?_⟩
      · rintro ⟨vals, h⟩; simp at h
      · intro hall
        exact absurd (hall s (by simp)) hs
      · intro vals h; simp at h

/-- C97: the stations of a module are found in the metadata exactly if each has an entry there. -/
theorem C97_metadata (l index : List Name) :
    (initStations (some l) index = some l ↔ ∀ s ∈ l, s ∈ index) ∧
    (initStations (some l) index = none ↔ ∃ s ∈ l, s ∉ index) := by
  unfold initStations
  simp only
  by_cases h : l.all (fun s => index.contains s) = true
  · rw [if_pos h]
    rw [List.all_eq_true] at h
    have h' : ∀ s ∈ l, s ∈ index := fun s hs => by simpa using h s hs
    exact ⟨⟨fun _ => h', fun _ => rfl⟩, ⟨fun e => (by cases e), fun ⟨s, hs, hn⟩ => absurd (h' s hs) hn⟩⟩
  · rw [if_neg h]
    have h' : ∃ s ∈ l, s ∉ index := by
      by_contra hc
      apply h
      rw [List.all_eq_true]
      intro s hs
      by_contra hn
      exact hc ⟨s, hs, by simpa using hn⟩
    refine ⟨⟨fun e => (by cases e), fun hall => ?_⟩, ⟨fun _ => h', fun _ => rfl⟩⟩
    obtain ⟨s, hs, hn⟩ := h'
    exact absurd (hall s hs) hn

/-- The claim of C97 for a wind model of its own class: it was created with the same configuration, and its stations are not
touched by the selection. It finds a value for each of its stations in the tables left. -/
def C97_full : Prop := ∀ (speed : Table ℕ) (index : List Name) (row : List ℕ),
  (∀ c ∈ speed.cols, c ∈ index) → row.length = speed.cols.length →
  ∃ l vals, initStations none index = some l ∧ rowValues speed.cols row l = some vals

/-- C97: a wind model of its own class finds all values if every station of the metadata measures wind; missing: stations
without wind. -/
theorem C97_partial {V : Type} (speed : Table V) (index : List Name) (row : List V)
    (hall : ∀ s ∈ index, s ∈ speed.cols) (hw : row.length = speed.cols.length) :
    ∃ vals, rowValues speed.cols row index = some vals ∧ initStations none index = some index :=
  ((C97_values speed.cols row index hw).1.2 hall).imp fun _ h => ⟨h, rfl⟩

/-- C97 fails: a station of the metadata that measures no wind stops a run with the Winstral model. -/
theorem C97_fails : ¬ C97_full := by
  intro h
  obtain ⟨l, vals, h1, h2⟩ := h ⟨["A".toList], []⟩ ["A".toList, "B".toList] [3] (by simp) rfl
  have h1 : ["A".toList, "B".toList] = l := Option.some.inj h1
  subst h1
  have := (C97_values (V := ℕ) ["A".toList] [3] ["A".toList, "B".toList] rfl).1.1 ⟨vals, h2⟩ "B".toList (by simp)
  revert this
  decide

/-- The variables of the framework, with tables: the wind takes the third station, the second has no direction. -/
example : (filterAll (fun _ => none) (moduleVariables.map fun p => (p.1, p.2, (if p.1 = "wind_direction" then
    ⟨["C".toList, "A".toList], []⟩ else ⟨["A".toList, "B".toList, "C".toList], []⟩ : Table Nat)))).1 "wind" =
    some ["C".toList, "A".toList] := by
  decide +kernel

example : rowValues ["A".toList, "B".toList] [4, 7] ["B".toList, "A".toList] = some [7, 4] := by decide +kernel

end Verif.Csv
