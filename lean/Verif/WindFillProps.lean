import Verif.WindFill
import Verif.UtilsProps
import Mathlib.Data.List.Nodup
import Mathlib.Tactic.FieldSimp
import Mathlib.Tactic.Positivity

/-! C106, C107: the measured wind at the stations, and the filling of missing cells of the Winstral model. -/

set_option linter.unusedSectionVars false

namespace Verif.WindFill

open Verif.Utils (cell)

/-! ### C106 -/

section
variable {K : Type} [Field K] [LinearOrder K] [IsStrictOrderedRing K]

theorem cell_setCell (img : Image K) (p : Nat × Nat) (v : Option K) (i j : Nat) :
    cell (setCell img p v) i j = if p = (i, j) then (cell img i j).map fun _ => v else cell img i j := by
  unfold cell setCell
  obtain ⟨y, x⟩ := p
  rw [List.getElem?_modify]
  cases h : img[i]? with
  | none => simp
  | some row =>
    by_cases hy : y = i
    · subst hy
      by_cases hx : x = j
      · subst hx
        rw [if_pos rfl]
        show (if y = y then row.set x v else row)[x]? = row[x]?.map fun _ => v
        rw [if_pos rfl, List.getElem?_set_self']
        rfl
      · simp [hx, List.getElem?_set_ne hx]
    · simp [hy]

theorem fold_other (l : List ((Nat × Nat) × Option K)) (img : Image K) (i j : Nat) (h : ∀ p ∈ l, p.1 ≠ (i, j)) :
    cell (l.foldl (fun m p => setCell m p.1 p.2) img) i j = cell img i j := by
  induction l generalizing img with
  | nil => rfl
  | cons p l ih =>
    rw [List.foldl_cons, ih _ fun q hq => h q (by simp [hq]), cell_setCell, if_neg (h p (by simp))]

theorem fold_own (l : List ((Nat × Nat) × Option K)) (img : Image K) (i j : Nat) (v : Option K)
    (hn : (l.map (·.1)).Nodup) (hm : ((i, j), v) ∈ l) :
    cell (l.foldl (fun m p => setCell m p.1 p.2) img) i j = (cell img i j).map fun _ => v := by
  induction l generalizing img with
  | nil => simp at hm
  | cons p l ih =>
    rw [List.map_cons, List.nodup_cons] at hn
    rw [List.foldl_cons]
    rcases List.mem_cons.1 hm with rfl | hm
    · rw [fold_other l _ i j, cell_setCell, if_pos rfl]
      intro q hq e
      exact hn.1 (List.mem_map.2 ⟨q, hq, e⟩)
    · have hp : p.1 ≠ (i, j) := fun e => hn.1 (List.mem_map.2 ⟨_, hm, e.symm⟩)
      rw [ih _ hn.2 hm, cell_setCell, if_neg hp]

/-- The wind of the image at a pixel. -/
abbrev At (img : Image K) (p : Nat × Nat) : Option (Option K) := cell img p.1 p.2

/-- A pixel of the image. -/
def Inside (img : Image K) (p : Nat × Nat) : Prop := ∃ c, At img p = some c

theorem fill_cell (img out : Image K) (h : fill img = .ok out) (i j : Nat) :
    cell out i j = (cell img i j).map (fillCell (known 0 img) i) := by
  have rows : ∀ (pts : List (Nat × K)) (img : Image K) (k i : Nat), (fillRows pts k img)[i]? =
      img[i]?.map (fillRow pts (k + i)) := by
    intro pts img
    induction img with
    | nil => intro k i; simp [fillRows]
    | cons row rows ih =>
      intro k i
      cases i with
      | zero => simp [fillRows]
      | succ i => simp only [fillRows, List.getElem?_cons_succ]; rw [ih, show k + 1 + i = k + (i + 1) by omega]
  unfold fill at h
  split at h
  · rename_i ha
    cases h
    unfold cell
    cases h1 : img[i]? with
    | none => rfl
    | some row =>
      have hr := List.all_eq_true.1 ha row (List.mem_of_getElem? h1)
      rw [Option.bind_some]
      cases h2 : row[j]? with
      | none => rfl
      | some c =>
        have := List.all_eq_true.1 hr c (List.mem_of_getElem? h2)
        cases c with
        | none => cases this
        | some v => rfl
  · split at h
    · cases h
    · cases h
      unfold cell
      rw [rows]
      cases h1 : img[i]? with
      | none => rfl
      | some row =>
        simp only [Option.map_some, Option.bind_some, fillRow, Nat.zero_add, List.getElem?_map]

/-- The claim of C106: where a station has measured the wind, the image has that wind, put into the limits. -/
def C106_full : Prop := ∀ (lo hi : Option ℚ) (sta : List (Csv.Name × (Nat × Nat))) (speed : List (Csv.Name × Option ℚ))
    (img out : Image ℚ), finish lo hi sta speed img = .ok out → (sta.map (·.2)).Nodup → (sta.map (·.1)).Nodup →
    List.Perm (speed.map (·.1)) (sta.map (·.1)) → ∀ n p v, (n, p) ∈ sta → (n, some v) ∈ speed → Inside img p →
    At out p = some (Utils.clampCell lo hi (some v))

theorem zip_names {A B : Type} (sta : List (Csv.Name × A)) (speed : List (Csv.Name × B))
    (hs : speed.map (·.1) = sta.map (·.1)) (hn : (sta.map (·.1)).Nodup) (n : Csv.Name) (p : A) (v : B)
    (h1 : (n, p) ∈ sta) (h2 : (n, v) ∈ speed) : (p, v) ∈ List.zip (sta.map (·.2)) (speed.map (·.2)) := by
  induction sta generalizing speed with
  | nil => simp at h1
  | cons s sta ih =>
    cases speed with
    | nil => simp at h2
    | cons w speed =>
      rw [List.map_cons, List.map_cons, List.cons.injEq] at hs
      rw [List.map_cons, List.nodup_cons] at hn
      rw [List.map_cons, List.map_cons, List.zip_cons_cons]
      rcases List.mem_cons.1 h1 with rfl | h1
      · rcases List.mem_cons.1 h2 with rfl | h2
        · simp
        · exact absurd (hs.2 ▸ List.mem_map.2 ⟨_, h2, rfl⟩) hn.1
      · rcases List.mem_cons.1 h2 with rfl | h2
        · exact absurd (hs.1 ▸ List.mem_map.2 ⟨_, h1, rfl⟩) hn.1
        · exact List.mem_cons_of_mem _ (ih speed hs.2 hn.2 h1 h2)

/-- C106: if the columns of the wind speeds are in the order of the station metadata, and no two stations share a pixel, every station
that has measured the wind has it in the image. Missing: another order of the columns. -/
theorem C106_partial (lo hi : Option K) (sta : List (Csv.Name × (Nat × Nat))) (speed : List (Csv.Name × Option K))
    (img out : Image K) (h : finish lo hi sta speed img = .ok out) (hp : (sta.map (·.2)).Nodup)
    (hn : (sta.map (·.1)).Nodup) (hs : speed.map (·.1) = sta.map (·.1)) (n : Csv.Name) (p : Nat × Nat) (v : K)
    (h1 : (n, p) ∈ sta) (h2 : (n, some v) ∈ speed) (hi' : Inside img p) :
    At out p = some (Utils.clampCell lo hi (some v)) := by
  have hl : speed.length = sta.length := by simpa using congrArg List.length hs
  unfold finish putStations at h
  rw [if_pos hl] at h
  simp only at h
  have hz : (List.zip (sta.map (·.2)) (speed.map (·.2))).map (·.1) = sta.map (·.2) :=
    List.map_fst_zip (by simp [hl])
  have own := fold_own (List.zip (sta.map (·.2)) (speed.map (·.2))) img p.1 p.2 (some v) (by rw [hz]; exact hp)
    (zip_names sta speed hs hn n p (some v) h1 h2)
  obtain ⟨c, hc⟩ := hi'
  rw [show cell img p.1 p.2 = some c from hc] at own
  generalize List.foldl _ img _ = m at h own
  cases hf : fill m with
  | error e => rw [hf] at h; cases h
  | ok m' =>
    rw [hf] at h
    cases h
    have := fill_cell m m' hf p.1 p.2
    rw [own] at this
    show cell (Utils.setMinMax lo hi m') p.1 p.2 = _
    rw [Utils.cell_setMinMax, this]
    rfl

/-- C106: putting the measured wind into the image fails exactly if there are neither as many speeds as stations nor just one. -/
theorem C106_rejected (sta : List (Csv.Name × (Nat × Nat))) (speed : List (Csv.Name × Option K)) (img : Image K) :
    putStations sta speed img = .error .value ↔ speed.length ≠ sta.length ∧ speed.length ≠ 1 := by
  unfold putStations
  split
  · rename_i h; simp [h]
  · rename_i h
    match speed, h with
    | [], h => simpa using h
    | [s], h => simp
    | s :: s' :: l, h => simp at h ⊢; exact h

/-- C106: cells without a station keep the simulated wind, put into the limits. -/
theorem C106_others (lo hi : Option K) (sta : List (Csv.Name × (Nat × Nat))) (speed : List (Csv.Name × Option K))
    (img out : Image K) (h : finish lo hi sta speed img = .ok out) (p : Nat × Nat) (v : K) (hp : p ∉ sta.map (·.2))
    (hv : At img p = some (some v)) : At out p = some (Utils.clampCell lo hi (some v)) := by
  have key : ∀ m, putStations sta speed img = .ok m → cell m p.1 p.2 = some (some v) := by
    intro m hm
    unfold putStations at hm
    split at hm
    · cases hm
      rw [fold_other _ _ _ _ fun q hq e => hp (by have := (List.of_mem_zip hq).1; rw [e] at this; exact this)]
      exact hv
    · split at hm
      · rename_i s _
        cases hm
        have := fold_other ((sta.map (·.2)).map fun q => (q, s.2)) img p.1 p.2 fun q hq e => by
          obtain ⟨q', hq', rfl⟩ := List.mem_map.1 hq
          have e : q' = (p.1, p.2) := e
          rw [e] at hq'
          exact hp hq'
        rw [List.foldl_map] at this
        rw [this]
        exact hv
      · cases hm
  unfold finish at h
  cases hm : putStations sta speed img with
  | error e => rw [hm] at h; cases h
  | ok m =>
    rw [hm] at h
    simp only at h
    cases hf : fill m with
    | error e => rw [hf] at h; cases h
    | ok m' =>
      rw [hf] at h
      cases h
      have := fill_cell m m' hf p.1 p.2
      rw [key m hm] at this
      show cell (Utils.setMinMax lo hi m') p.1 p.2 = _
      rw [Utils.cell_setMinMax, this]
      rfl

/-- C106 fails: with two columns in the other order the stations exchange their wind. -/
theorem C106_order_fails (a b : Csv.Name) (p q : Nat × Nat) (v w : K) (img : Image K) (hpq : p ≠ q) (hp : Inside img p)
    (hq : Inside img q) : ∃ m, putStations [(a, p), (b, q)] [(b, some w), (a, some v)] img = .ok m ∧
      At m p = some (some w) ∧ At m q = some (some v) := by
  refine ⟨_, rfl, ?_, ?_⟩
  all_goals
    obtain ⟨c, hc⟩ := hp
    obtain ⟨d, hd⟩ := hq
    simp only [List.map_cons, List.map_nil, List.zip_cons_cons, List.zip_nil_right, List.foldl_cons, List.foldl_nil, At]
    rw [cell_setCell, cell_setCell]
  · rw [if_neg (by simpa using Ne.symm hpq), if_pos rfl, show cell img p.1 p.2 = some c from hc]
    rfl
  · rw [if_pos rfl, if_neg (by simpa using hpq), show cell img q.1 q.2 = some d from hd]
    rfl

/-- C106 fails: if a single station has wind, its value is put into the pixels of all stations. -/
theorem C106_single_fails (sta : List (Csv.Name × (Nat × Nat))) (s : Csv.Name) (v : K) (img : Image K) (m : Image K)
    (h : putStations sta [(s, some v)] img = .ok m) (n : Csv.Name) (p : Nat × Nat) (hn : (n, p) ∈ sta) (hp : Inside img p) :
    At m p = some (some v) := by
  have hm : m = (sta.map (·.2)).foldl (fun m p => setCell m p (some v)) img := by
    unfold putStations at h
    split at h
    · rename_i hl
      cases h
      match sta, hl with
      | [t], _ => rfl
    · simp only at h
      cases h
      rfl
  obtain ⟨c, hc⟩ := hp
  have hmem : p ∈ sta.map (·.2) := List.mem_map.2 ⟨_, hn, rfl⟩
  rw [hm]
  clear hm h hn
  generalize sta.map (·.2) = l at hmem
  have keep : ∀ (l : List (Nat × Nat)) (img : Image K), At img p = some (some v) →
      At (l.foldl (fun m p => setCell m p (some v)) img) p = some (some v) := by
    intro l
    induction l with
    | nil => intro img h; exact h
    | cons q l ih =>
      intro img h
      rw [List.foldl_cons]
      apply ih
      unfold At
      rw [cell_setCell, show cell img p.1 p.2 = some (some v) from h]
      split <;> rfl
  induction l generalizing img c with
  | nil => simp at hmem
  | cons q l ih =>
    rw [List.foldl_cons]
    by_cases e : q = p
    · apply keep
      unfold At
      rw [cell_setCell, if_pos e, show cell img p.1 p.2 = some c from hc]
      rfl
    · rcases List.mem_cons.1 hmem with rfl | hmem
      · exact absurd rfl e
      · refine ih _ c ?_ hmem
        unfold At
        rw [cell_setCell, if_neg e]
        exact hc

end

/-- C106 fails in the full form. -/
theorem C106_fails : ¬ C106_full := by
  intro h
  have := h none none [("A".toList, (0, 0)), ("B".toList, (0, 1))] [("B".toList, some 9), ("A".toList, some 1)]
    [[some 5, some 5]] [[some 9, some 1]] (by rfl) (by decide) (by decide) (by decide) "A".toList (0, 0) 1 (by decide)
    (by decide) ⟨_, rfl⟩
  revert this
  decide +kernel

/-- Columns in the order of the metadata; one station in another pixel has no measurement and is filled. -/
example : finish (some 1) (some 20) [("A".toList, (0, 0)), ("B".toList, (1, 1))] [("A".toList, some (30 : ℚ)), ("B".toList, none)]
    [[some 5, some 4], [some 0, some 5]] = .ok [[some 20, some 4], [some 1, some 1]] := by rfl

/-! ### C107 -/

section
variable {K : Type} [Field K] [LinearOrder K] [IsStrictOrderedRing K]

theorem mem_known (img : Image K) (k i : Nat) (v : K) :
    (i, v) ∈ known k img ↔ ∃ y j, i = k + y ∧ cell img y j = some (some v) := by
  induction img generalizing k with
  | nil => simp [known, cell]
  | cons row rows ih =>
    rw [known, List.mem_append, ih]
    constructor
    · rintro (h | ⟨y, j, e, h⟩)
      · obtain ⟨c, hc, h⟩ := List.mem_filterMap.1 h
        cases c with
        | none => cases h
        | some w =>
          obtain ⟨j, hj⟩ := List.mem_iff_getElem?.1 hc
          simp only [Option.map_some, Option.some.injEq, Prod.mk.injEq] at h
          exact ⟨0, j, by omega, by simp [cell, hj, h.2]⟩
      · exact ⟨y + 1, j, by omega, by simpa [cell] using h⟩
    · rintro ⟨y, j, e, h⟩
      cases y with
      | zero =>
        left
        refine List.mem_filterMap.2 ⟨some v, ?_, by simp [e]⟩
        simp only [cell, List.getElem?_cons_zero, Option.bind_some] at h
        exact List.mem_of_getElem? h
      | succ y => exact Or.inr ⟨y, j, by omega, by simpa [cell] using h⟩

/-- A value between two others, in either order. -/
def Between (p q v : K) : Prop := min p q ≤ v ∧ v ≤ max p q

theorem line_between (p q : K) (b a x : Nat) (h1 : b < x) (h2 : x < a) :
    Between p q ((q - p) / ((a : K) - b) * ((x : K) - b) + p) := by
  have hb : (b : K) < x := by exact_mod_cast h1
  have ha : (x : K) < a := by exact_mod_cast h2
  have hd : (0 : K) < (a : K) - b := by linarith
  set t : K := ((x : K) - b) / (a - b) with ht
  have t0 : 0 ≤ t := div_nonneg (by linarith) hd.le
  have t1 : t ≤ 1 := (div_le_one hd).2 (by linarith)
  have e : (q - p) / ((a : K) - b) * ((x : K) - b) + p = (1 - t) * p + t * q := by
    rw [ht]; field_simp; ring
  rw [e]
  constructor
  · have := min_le_left p q; have := min_le_right p q
    nlinarith [mul_nonneg t0 (sub_nonneg.2 (min_le_right p q)), mul_nonneg (sub_nonneg.2 t1) (sub_nonneg.2 (min_le_left p q))]
  · nlinarith [mul_nonneg t0 (sub_nonneg.2 (le_max_right p q)), mul_nonneg (sub_nonneg.2 t1) (sub_nonneg.2 (le_max_left p q))]

theorem interp_between (pts : List (Nat × K)) (x : Nat) (h : pts ≠ []) :
    ∃ v, interp pts x = some v ∧ ∃ p ∈ pts, ∃ q ∈ pts, Between p.2 q.2 v := by
  have self : ∀ v : K, Between v v v := fun v => by simp [Between]
  unfold interp
  cases hb : (pts.filter fun p => decide (p.1 ≤ x)).getLast? with
  | some b =>
    have mb := List.mem_filter.1 (List.mem_of_getLast? hb)
    have hbx : b.1 ≤ x := by simpa using mb.2
    cases ha : (pts.filter fun p => decide (x < p.1)).head? with
    | some a =>
      have ma := List.mem_filter.1 (List.mem_of_head? ha)
      have hax : x < a.1 := by simpa using ma.2
      simp only
      by_cases e : b.1 = x
      · exact ⟨b.2, if_pos e, b, mb.1, b, mb.1, self _⟩
      · exact ⟨_, if_neg e, b, mb.1, a, ma.1, line_between b.2 a.2 b.1 a.1 x (by omega) hax⟩
    | none => exact ⟨b.2, rfl, b, mb.1, b, mb.1, self _⟩
  | none =>
    cases ha : (pts.filter fun p => decide (x < p.1)).head? with
    | some a =>
      have ma := List.mem_filter.1 (List.mem_of_head? ha)
      exact ⟨a.2, rfl, a, ma.1, a, ma.1, self _⟩
    | none =>
      exfalso
      rw [List.getLast?_eq_none_iff, List.filter_eq_nil_iff] at hb
      rw [List.head?_eq_none_iff, List.filter_eq_nil_iff] at ha
      cases pts with
      | nil => exact h rfl
      | cons p l =>
        have h1 := hb p (by simp)
        have h2 := ha p (by simp)
        simp only [decide_eq_true_eq] at h1 h2
        omega

/-- C107: the filling succeeds exactly if a cell has a value or none is missing. -/
theorem C107_succeeds (img : Image K) : (∃ out, fill img = .ok out) ↔
    (∃ i j v, cell img i j = some (some v)) ∨ ∀ i j c, cell img i j = some c → c ≠ none := by
  have hall : (img.all (fun row => row.all Option.isSome) = true) ↔ ∀ i j c, cell img i j = some c → c ≠ none := by
    rw [List.all_eq_true]
    constructor
    · intro h i j c hc
      unfold cell at hc
      cases h1 : img[i]? with
      | none => simp [h1] at hc
      | some row =>
        rw [h1, Option.bind_some] at hc
        have := List.all_eq_true.1 (h row (List.mem_of_getElem? h1)) c (List.mem_of_getElem? hc)
        rintro rfl
        cases this
    · intro h row hr
      rw [List.all_eq_true]
      intro c hc
      obtain ⟨i, hi⟩ := List.mem_iff_getElem?.1 hr
      obtain ⟨j, hj⟩ := List.mem_iff_getElem?.1 hc
      have := h i j c (by simp [cell, hi, hj])
      cases c with
      | none => exact absurd rfl this
      | some v => rfl
  have hk : known 0 img ≠ [] ↔ ∃ i j v, cell img i j = some (some v) := by
    rw [Ne, List.eq_nil_iff_forall_not_mem]
    simp only [not_forall, not_not]
    constructor
    · rintro ⟨⟨i, v⟩, h⟩
      obtain ⟨y, j, _, h⟩ := (mem_known img 0 i v).1 h
      exact ⟨y, j, v, h⟩
    · rintro ⟨i, j, v, h⟩
      exact ⟨(i, v), (mem_known img 0 i v).2 ⟨i, j, by omega, h⟩⟩
  unfold fill
  rw [← hk, ← hall]
  split
  · rename_i h; simp [h]
  · rename_i h
    split
    · rename_i h'; simp [h, h']
    · rename_i h'; simp [h']

/-- C107: afterwards no cell is missing, cells with a value keep it, and a filled value lies between values of the image. -/
theorem C107_filled (img out : Image K) (h : fill img = .ok out) (i j : Nat) (c : Option K) (hc : cell img i j = some c) :
    ∃ v, cell out i j = some (some v) ∧ (∀ w, c = some w → v = w) ∧
      ∃ y x p y' x' q, cell img y x = some (some p) ∧ cell img y' x' = some (some q) ∧ Between p q v := by
  have hf := fill_cell img out h i j
  rw [hc] at hf
  cases c with
  | some w => exact ⟨w, hf, fun u e => by cases e; rfl, i, j, w, i, j, w, hc, hc, by simp [Between]⟩
  | none =>
    have hne : known 0 img ≠ [] := by
      rcases (C107_succeeds img).1 ⟨out, h⟩ with ⟨y, x, v, hv⟩ | hall
      · exact List.ne_nil_of_mem ((mem_known img 0 y v).2 ⟨y, x, by omega, hv⟩)
      · exact absurd rfl (hall i j none hc)
    obtain ⟨v, hv, p, hp, q, hq, hb⟩ := interp_between (known 0 img) i hne
    obtain ⟨y, x, _, h1⟩ := (mem_known img 0 p.1 p.2).1 hp
    obtain ⟨y', x', _, h2⟩ := (mem_known img 0 q.1 q.2).1 hq
    refine ⟨v, ?_, fun w e => (by cases e), y, x, p.2, y', x', q.2, h1, h2, hb⟩
    rw [hf]
    simp only [Option.map_some, fillCell, hv]

/-- The values before and behind a cell, in the order of the rows. -/
def before (img : Image K) (i j : Nat) : List K := ((img.take i).flatten ++ ((img[i]?).getD []).take j).filterMap id
def behind (img : Image K) (i j : Nat) : List K := (((img[i]?).getD []).drop (j + 1) ++ (img.drop (i + 1)).flatten).filterMap id

/-- The claim of C107: a missing cell is interpolated between its neighbours, the last value before it and the first behind it. -/
def C107_full : Prop := ∀ (img out : Image ℚ) (i j : Nat) (v p q : ℚ), fill img = .ok out → cell img i j = some none →
    cell out i j = some (some v) → (before img i j).getLast? = some p → (behind img i j).head? = some q → Between p q v

theorem known_split (img : Image K) (k i : Nat) (row : List (Option K)) (h : img[i]? = some row) :
    known k img = known k (img.take i) ++ (row.filterMap fun c => c.map fun v => (k + i, v)) ++
      known (k + i + 1) (img.drop (i + 1)) := by
  induction img generalizing k i with
  | nil => simp at h
  | cons r rows ih =>
    cases i with
    | zero =>
      simp only [List.getElem?_cons_zero, Option.some.injEq] at h
      subst h
      simp [known]
    | succ i =>
      simp only [List.getElem?_cons_succ] at h
      rw [known, ih (k + 1) i h, List.take_succ_cons, known, List.drop_succ_cons]
      rw [show k + 1 + i = k + (i + 1) by omega]
      simp [List.append_assoc]

theorem known_range (img : Image K) (k : Nat) (p : Nat × K) (h : p ∈ known k img) : k ≤ p.1 ∧ p.1 < k + img.length := by
  obtain ⟨i, v⟩ := p
  obtain ⟨y, j, rfl, hc⟩ := (mem_known img k i v).1 h
  have : y < img.length := by
    by_contra hn
    simp [cell, List.getElem?_eq_none (not_lt.1 hn)] at hc
  simp; omega

theorem known_values (img : Image K) (k : Nat) : (known k img).map (·.2) = img.flatten.filterMap id := by
  induction img generalizing k with
  | nil => rfl
  | cons row rows ih =>
    rw [known, List.map_append, ih, List.flatten_cons, List.filterMap_append, List.map_filterMap]
    congr 1
    apply List.filterMap_congr
    intro c _
    cases c <;> rfl

theorem filter_split (img : Image K) (i : Nat) (row : List (Option K)) (h : img[i]? = some row) :
    ((known 0 img).filter fun p => decide (p.1 ≤ i)) = known 0 (img.take i) ++ (row.filterMap fun c => c.map fun v => (i, v)) ∧
    ((known 0 img).filter fun p => decide (i < p.1)) = known (i + 1) (img.drop (i + 1)) := by
  have hi : i < img.length := by
    by_contra hn
    rw [List.getElem?_eq_none (not_lt.1 hn)] at h
    cases h
  have h1 : ∀ p ∈ known 0 (img.take i), p.1 < i := by
    intro p hp
    have := known_range _ _ p hp
    simp at this; omega
  have h2 : ∀ p ∈ (row.filterMap fun c => c.map fun v => (i, v)), p.1 = i := by
    intro p hp
    obtain ⟨c, _, e⟩ := List.mem_filterMap.1 hp
    cases c with
    | none => cases e
    | some v => cases e; rfl
  have h3 : ∀ p ∈ known (i + 1) (img.drop (i + 1)), i < p.1 := by
    intro p hp
    have := known_range _ _ p hp
    omega
  have e := known_split img 0 i row h
  rw [Nat.zero_add] at e
  rw [e]
  simp only [List.filter_append]
  constructor
  · rw [List.filter_eq_self.2 fun p hp => by have := h1 p hp; simp; omega,
      List.filter_eq_self.2 fun p hp => by have := h2 p hp; simp; omega,
      List.filter_eq_nil_iff.2 fun p hp => by have := h3 p hp; simp; omega, List.append_nil]
  · rw [List.filter_eq_nil_iff.2 fun p hp => by have := h1 p hp; simp; omega,
      List.filter_eq_nil_iff.2 fun p hp => by have := h2 p hp; simp; omega,
      List.filter_eq_self.2 fun p hp => by have := h3 p hp; simp; omega, List.nil_append, List.nil_append]

/-- C107: a row without any value is interpolated between its neighbours. Missing: rows that have a value. -/
theorem C107_partial (img out : Image K) (i j : Nat) (row : List (Option K)) (v p q : K) (h : fill img = .ok out)
    (hr : img[i]? = some row) (hn : ∀ c ∈ row, c = none) (hj : j < row.length)
    (hv : cell out i j = some (some v)) (hp : (before img i j).getLast? = some p) (hq : (behind img i j).head? = some q) :
    Between p q v := by
  have nov : ∀ l : List (Option K), (∀ c ∈ l, c = none) → l.filterMap id = [] := by
    intro l hl
    rw [List.filterMap_eq_nil_iff]
    intro c hc
    rw [hl c hc]
    rfl
  have hb : before img i j = (img.take i).flatten.filterMap id := by
    unfold before
    rw [hr, Option.getD_some, List.filterMap_append, nov (row.take j) fun c hc => hn c (List.mem_of_mem_take hc), List.append_nil]
  have ha : behind img i j = (img.drop (i + 1)).flatten.filterMap id := by
    unfold behind
    rw [hr, Option.getD_some, List.filterMap_append, nov (row.drop (j + 1)) fun c hc => hn c (List.mem_of_mem_drop hc),
      List.nil_append]
  have hc : cell img i j = some none := by
    unfold cell
    rw [hr, Option.bind_some, List.getElem?_eq_getElem hj, hn _ (List.getElem_mem hj)]
  have hf := fill_cell img out h i j
  rw [hc, hv] at hf
  simp only [Option.map_some, fillCell, Option.some.injEq] at hf
  obtain ⟨f1, f2⟩ := filter_split img i row hr
  have hrow : (row.filterMap fun c => c.map fun v => (i, v)) = [] := by
    rw [List.filterMap_eq_nil_iff]
    intro c hc
    rw [hn c hc]
    rfl
  rw [hrow, List.append_nil] at f1
  rw [hb, ← known_values _ 0, List.getLast?_map] at hp
  rw [ha, ← known_values _ (i + 1), List.head?_map] at hq
  obtain ⟨b, eb, rfl⟩ := Option.map_eq_some_iff.1 hp
  obtain ⟨a, ea, rfl⟩ := Option.map_eq_some_iff.1 hq
  have rb := known_range _ _ b (List.mem_of_getLast? eb)
  have ra := known_range _ _ a (List.mem_of_head? ea)
  have hbi : b.1 < i := by simp at rb; omega
  unfold interp at hf
  rw [f1, f2, eb, ea] at hf
  simp only at hf
  rw [if_neg (by omega)] at hf
  rw [Option.some.inj hf]
  exact line_between b.2 a.2 b.1 a.1 i hbi (by omega)

/-- C107 fails: a missing cell of a row with values gets the last value of the row, however far away it is and whatever its
neighbours are. -/
theorem C107_row_fails (img out : Image K) (i j : Nat) (row : List (Option K)) (w : K) (h : fill img = .ok out)
    (hr : img[i]? = some row) (hw : (row.filterMap id).getLast? = some w) (hc : cell img i j = some none) :
    cell out i j = some (some w) := by
  have hf := fill_cell img out h i j
  rw [hc] at hf
  rw [hf]
  simp only [Option.map_some, fillCell, Option.some.injEq]
  obtain ⟨f1, -⟩ := filter_split img i row hr
  have e : (row.filterMap fun c => c.map fun v => (i, v)) = (row.filterMap id).map fun v => (i, v) := by
    rw [List.map_filterMap]
    apply List.filterMap_congr
    intro c _
    cases c <;> rfl
  have hl : ((known 0 img).filter fun p => decide (p.1 ≤ i)).getLast? = some (i, w) := by
    rw [f1, e, List.getLast?_append, List.getLast?_map, hw]
    rfl
  unfold interp
  rw [hl]
  cases (List.filter (fun p => decide (i < p.1)) (known 0 img)).head? <;> simp

end

/-- C107 fails in the full form. -/
theorem C107_fails : ¬ C107_full := by
  intro h
  have := h [[some 0, none, some 10, some 50]] [[some 0, some 50, some 10, some 50]] 0 1 50 0 10 (by rfl) (by rfl) (by rfl)
    (by rfl) (by rfl)
  revert this
  unfold Between
  decide +kernel

/-- A missing row between two others. -/
example : (fill [[some (0 : ℚ), some 4], [none, none], [none, none], [some 10, some 5]]).toOption =
    some [[some 0, some 4], [some 6, some 6], [some 8, some 8], [some 10, some 5]] := by decide +kernel

end Verif.WindFill
