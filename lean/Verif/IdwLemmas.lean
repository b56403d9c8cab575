import Verif.Idw
import Mathlib.Tactic.Linarith
import Mathlib.Tactic.Ring
import Mathlib.Tactic.FieldSimp
import Mathlib.Tactic.LinearCombination

/-! Helper lemmas about `Verif.Idw`. -/

namespace Verif.Idw

/-- Finite sums. -/
theorem sum_fin (l : List ℝ) : Ext.sum (l.map .fin) = .fin l.sum := by
  induction l with
  | nil => rfl
  | cons x l ih =>
    show Ext.add (.fin x) (Ext.sum (l.map .fin)) = _
    rw [ih]; simp [Ext.add]

theorem nansum_fin (l : List ℝ) : Ext.nansum (l.map .fin) = .fin l.sum := by
  unfold Ext.nansum
  rw [List.map_map]
  exact sum_fin l

/-- A cell whose weights are all numbers. -/
theorem cellValue_fin (l : List (ℝ × ℝ)) :
    cellValue (l.map fun wv => (.fin wv.1, wv.2)) =
      Ext.div (.fin (l.map fun wv => wv.1 * wv.2).sum) (.fin (l.map Prod.fst).sum) := by
  unfold cellValue
  rw [List.map_map, List.map_map]
  congr 1
  · rw [← nansum_fin, List.map_map]; rfl
  · rw [← sum_fin, List.map_map]; rfl

theorem dist_zero_iff (g : Cell) (s : Station) : dist g s = 0 ↔ g.x = s.x ∧ g.y = s.y := by
  unfold dist
  rw [Real.sqrt_eq_zero (by positivity)]
  constructor
  · intro h
    have h1 := sq_nonneg (g.x - s.x)
    have h2 := sq_nonneg (g.y - s.y)
    have h3 : (g.x - s.x) ^ 2 = 0 := by linarith
    have h4 : (g.y - s.y) ^ 2 = 0 := by linarith
    exact ⟨sub_eq_zero.1 (pow_eq_zero_iff (by norm_num) |>.1 h3),
      sub_eq_zero.1 (pow_eq_zero_iff (by norm_num) |>.1 h4)⟩
  · rintro ⟨h1, h2⟩
    rw [h1, h2]; ring

theorem dist_nonneg (g : Cell) (s : Station) : 0 ≤ dist g s := Real.sqrt_nonneg _

/-- Weight of a station that is not at the cell. -/
noncomputable def w (p : ℝ) (g : Cell) (s : Station) : ℝ := 1 / dist g s ^ p

theorem w_pos (p : ℝ) (g : Cell) (s : Station) (h : dist g s ≠ 0) : 0 < w p g s := by
  unfold w
  have : 0 < dist g s := lt_of_le_of_ne (dist_nonneg g s) (Ne.symm h)
  have := Real.rpow_pos_of_pos this p
  positivity

/-- Weight and value of the stations with data. -/
noncomputable def pairs (p : ℝ) (sta : List Station) (g : Cell) : List (ℝ × ℝ) :=
  sta.filterMap fun s => s.val.map fun v => (w p g s, v)

/-- No station with data lies at the cell. -/
def Clear (sta : List Station) (g : Cell) : Prop :=
  ∀ s ∈ sta, s.val.isSome → ¬ (g.x = s.x ∧ g.y = s.y)

theorem selected_clear (p m : ℝ) (sta : List Station) (g : Cell) (h : Clear sta g) :
    selected p m sta g = (pairs p sta g).map fun wv => (.fin wv.1, wv.2) := by
  induction sta with
  | nil => rfl
  | cons s sta ih =>
    have ih' := ih fun s' hs' => h s' (List.mem_cons_of_mem _ hs')
    unfold selected pairs at ih' ⊢
    cases hv : s.val with
    | none => simpa [List.filterMap_cons, hv] using ih'
    | some v =>
      have hd : dist g s ≠ 0 := fun h0 =>
        h s List.mem_cons_self (by rw [hv]; rfl) ((dist_zero_iff g s).1 h0)
      simp only [List.filterMap_cons, hv, Option.map_some, List.map_cons, List.cons.injEq]
      refine ⟨?_, ih'⟩
      simp [weight, distance, hd, w]

theorem pairs_pos (p : ℝ) (sta : List Station) (g : Cell) (h : Clear sta g) :
    ∀ wv ∈ pairs p sta g, 0 < wv.1 := by
  intro wv hwv
  unfold pairs at hwv
  rw [List.mem_filterMap] at hwv
  obtain ⟨s, hs, he⟩ := hwv
  cases hv : s.val with
  | none => rw [hv] at he; cases he
  | some v =>
    rw [hv] at he
    simp only [Option.map_some, Option.some.injEq] at he
    rw [← he]
    exact w_pos p g s fun h0 => h s hs (by rw [hv]; rfl) ((dist_zero_iff g s).1 h0)

theorem mem_pairs (p : ℝ) (sta : List Station) (g : Cell) (wv : ℝ × ℝ) :
    wv ∈ pairs p sta g ↔ ∃ s ∈ sta, s.val = some wv.2 ∧ w p g s = wv.1 := by
  unfold pairs
  rw [List.mem_filterMap]
  constructor
  · rintro ⟨s, hs, he⟩
    cases hv : s.val with
    | none => rw [hv] at he; cases he
    | some v =>
      rw [hv] at he
      simp only [Option.map_some, Option.some.injEq] at he
      exact ⟨s, hs, by rw [← he]; exact hv, by rw [← he]⟩
  · rintro ⟨s, hs, hv, hw⟩
    exact ⟨s, hs, by rw [hv, Option.map_some, hw]⟩

theorem sum_pos_of (l : List (ℝ × ℝ)) (h : ∀ wv ∈ l, 0 < wv.1) (hne : l ≠ []) :
    0 < (l.map Prod.fst).sum := by
  induction l with
  | nil => exact absurd rfl hne
  | cons a l ih =>
    rw [List.map_cons, List.sum_cons]
    have ha := h a List.mem_cons_self
    by_cases hl : l = []
    · rw [hl]; simpa using ha
    · have := ih (fun wv hwv => h wv (List.mem_cons_of_mem _ hwv)) hl
      linarith

theorem minimum_isSome (l : List ℝ) : (∃ m, minimum l = some m) ↔ l ≠ [] := by
  cases l with
  | nil => simp [minimum]
  | cons x l => simp [minimum]

theorem allDist_ne (grid : List Cell) (sta : List Station) :
    allDist grid sta ≠ [] ↔ grid ≠ [] ∧ sta ≠ [] := by
  unfold allDist
  cases grid with
  | nil => simp
  | cons g grid => cases sta with
    | nil => simp
    | cons s sta => simp

/-- The value of a clear cell. -/
theorem cell_clear (p m : ℝ) (sta : List Station) (g : Cell) (h : Clear sta g)
    (hk : ∃ s ∈ sta, s.val.isSome) :
    cellValue (selected p m sta g) = .fin (((pairs p sta g).map fun wv => wv.1 * wv.2).sum /
      ((pairs p sta g).map Prod.fst).sum) ∧ 0 < ((pairs p sta g).map Prod.fst).sum := by
  have hne : pairs p sta g ≠ [] := by
    obtain ⟨s, hs, hv⟩ := hk
    obtain ⟨v, hv⟩ := Option.isSome_iff_exists.1 hv
    exact List.ne_nil_of_mem ((mem_pairs p sta g (w p g s, v)).2 ⟨s, hs, hv, rfl⟩)
  have hpos := sum_pos_of _ (pairs_pos p sta g h) hne
  refine ⟨?_, hpos⟩
  rw [selected_clear p m sta g h, cellValue_fin]
  simp [Ext.div, ne_of_gt hpos]

/-- Unfolding of the image. -/
theorem image_get (p : ℝ) (grid : List Cell) (sta : List Station) (img : List Ext)
    (h : calculateIDW p grid sta = .ok img) :
    ∃ m, minimum (allDist grid sta) = some m ∧
      img = grid.map fun g => cellValue (selected p m sta g) := by
  unfold calculateIDW at h
  cases hm : minimum (allDist grid sta) with
  | none => rw [hm] at h; cases h
  | some m => rw [hm] at h; cases h; exact ⟨m, rfl, rfl⟩

theorem calculate_ok (p : ℝ) (grid : List Cell) (sta : List Station) (hg : grid ≠ []) (hs : sta ≠ []) :
    ∃ img, calculateIDW p grid sta = .ok img := by
  obtain ⟨m, hm⟩ := (minimum_isSome _).2 ((allDist_ne grid sta).2 ⟨hg, hs⟩)
  exact ⟨_, by unfold calculateIDW; rw [hm]⟩

/-- The minimum is attained and a lower bound. -/
theorem foldl_min (l : List ℝ) (x : ℝ) :
    (l.foldl min x = x ∨ l.foldl min x ∈ l) ∧ l.foldl min x ≤ x ∧ ∀ y ∈ l, l.foldl min x ≤ y := by
  induction l generalizing x with
  | nil => exact ⟨.inl rfl, le_refl _, by simp⟩
  | cons a l ih =>
    obtain ⟨h1, h2, h3⟩ := ih (min x a)
    refine ⟨?_, le_trans h2 (min_le_left _ _), ?_⟩
    · rcases h1 with h1 | h1
      · rcases min_choice x a with h | h
        · exact .inl (h1.trans h)
        · right; rw [List.foldl_cons, h1, h]; exact List.mem_cons_self
      · exact .inr (List.mem_cons_of_mem _ h1)
    · intro y hy
      rcases List.mem_cons.1 hy with rfl | hy
      · exact le_trans h2 (min_le_right _ _)
      · exact h3 y hy

theorem minimum_spec (l : List ℝ) (m : ℝ) (h : minimum l = some m) : m ∈ l ∧ ∀ y ∈ l, m ≤ y := by
  cases l with
  | nil => cases h
  | cons x l =>
    cases h
    obtain ⟨h1, h2, h3⟩ := foldl_min l x
    refine ⟨?_, ?_⟩
    · rcases h1 with h1 | h1
      · rw [h1]; exact List.mem_cons_self
      · exact List.mem_cons_of_mem _ h1
    · intro y hy
      rcases List.mem_cons.1 hy with rfl | hy
      · exact h2
      · exact h3 y hy

/-- With a station at a cell the replacement value is zero. -/
theorem min_zero (grid : List Cell) (sta : List Station) (m : ℝ)
    (hm : minimum (allDist grid sta) = some m) (g : Cell) (hg : g ∈ grid) (s : Station) (hs : s ∈ sta)
    (h0 : dist g s = 0) : m = 0 := by
  obtain ⟨h1, h2⟩ := minimum_spec _ _ hm
  have : (0 : ℝ) ∈ allDist grid sta := by
    unfold allDist
    rw [List.mem_flatMap]
    exact ⟨g, hg, List.mem_map.2 ⟨s, hs, h0⟩⟩
  have hle := h2 0 this
  unfold allDist at h1
  rw [List.mem_flatMap] at h1
  obtain ⟨g', -, h1⟩ := h1
  obtain ⟨s', -, h1⟩ := List.mem_map.1 h1
  have := dist_nonneg g' s'
  linarith

/-- A float that is a positive number or `+inf`. -/
def PosExt : Ext → Prop
  | .fin x => 0 ≤ x
  | .pinf => True
  | _ => False

theorem posExt_add (a b : Ext) (ha : PosExt a) (hb : PosExt b) :
    PosExt (a.add b) ∧ (a = .pinf ∨ b = .pinf → a.add b = .pinf) ∧
      (a.add b = .pinf → a = .pinf ∨ b = .pinf) := by
  rcases a with a | _ | _ | _ <;> rcases b with b | _ | _ | _ <;> simp_all [PosExt, Ext.add]
  exact add_nonneg ha hb

theorem sum_pinf (l : List Ext) (h : ∀ a ∈ l, PosExt a) :
    PosExt (Ext.sum l) ∧ (.pinf ∈ l → Ext.sum l = .pinf) := by
  induction l with
  | nil => exact ⟨le_refl (0 : ℝ), by simp⟩
  | cons a l ih =>
    obtain ⟨h1, h2⟩ := ih fun b hb => h b (List.mem_cons_of_mem _ hb)
    obtain ⟨h3, h4, -⟩ := posExt_add a (Ext.sum l) (h a List.mem_cons_self) h1
    refine ⟨h3, fun hm => ?_⟩
    rcases List.mem_cons.1 hm with hm | hm
    · exact h4 (.inl hm.symm)
    · exact h4 (.inr (h2 hm))

/-- A sum with an infinite entry is not a number. -/
theorem sum_not_fin (l : List Ext) (h : .pinf ∈ l ∨ .ninf ∈ l ∨ .nan ∈ l) (x : ℝ) : Ext.sum l ≠ .fin x := by
  induction l generalizing x with
  | nil => simp at h
  | cons a l ih =>
    show Ext.add a (Ext.sum l) ≠ .fin x
    rcases a with a | _ | _ | _
    · have h' : Ext.pinf ∈ l ∨ .ninf ∈ l ∨ .nan ∈ l := by simpa using h
      have := ih h'
      cases hs : Ext.sum l with
      | fin y => exact absurd hs (this y)
      | _ => simp [Ext.add]
    all_goals (cases hs : Ext.sum l <;> simp [Ext.add])

theorem div_pinf (a : Ext) : (∀ x, a ≠ .fin x) → Ext.div a .pinf = .nan := by
  intro h
  cases a with
  | fin x => exact absurd rfl (h x)
  | _ => rfl

end Verif.Idw
