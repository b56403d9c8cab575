import Verif.IdwProps
import Verif.KrigeProps
import Verif.WindFillProps
import Mathlib.Data.List.Perm.Basic

/-!
Property C139: the order in which the stations are listed does not matter.
-/

namespace Verif.Order
open Verif.Idw

/-! ### Inverse distance weighting -/

theorem add_comm' (a b : Ext) : a.add b = b.add a := by
  cases a <;> cases b <;> simp only [Ext.add, Ext.fin.injEq]
  ring

theorem add_assoc' (a b c : Ext) : (a.add b).add c = a.add (b.add c) := by
  cases a <;> cases b <;> cases c <;> simp only [Ext.add, Ext.fin.injEq]
  ring

theorem add_left (a b c : Ext) : a.add (b.add c) = b.add (a.add c) := by
  rw [← add_assoc', add_comm' a b, add_assoc']

theorem sum_perm {l l' : List Ext} (h : l.Perm l') : Ext.sum l = Ext.sum l' := by
  unfold Ext.sum
  induction h with
  | nil => rfl
  | cons x _ ih => rw [List.foldr_cons, List.foldr_cons, ih]
  | swap x y l => simp only [List.foldr_cons]; exact add_left y x _
  | trans _ _ h1 h2 => exact h1.trans h2

theorem minimum_spec (l : List ℝ) (m : ℝ) : minimum l = some m ↔ m ∈ l ∧ ∀ x ∈ l, m ≤ x := by
  have key : ∀ (xs : List ℝ) (x : ℝ), xs.foldl min x ∈ x :: xs ∧ ∀ y ∈ x :: xs, xs.foldl min x ≤ y := by
    intro xs
    induction xs with
    | nil => intro x; simp
    | cons a xs ih =>
      intro x
      rw [List.foldl_cons]
      obtain ⟨h1, h2⟩ := ih (min x a)
      constructor
      · rcases List.mem_cons.1 h1 with h | h
        · rw [h]
          rcases min_choice x a with h | h <;> rw [h] <;> simp
        · exact List.mem_cons_of_mem _ (List.mem_cons_of_mem _ h)
      · intro y hy
        have h3 := h2 _ List.mem_cons_self
        rcases List.mem_cons.1 hy with rfl | hy
        · exact h3.trans (min_le_left _ _)
        · rcases List.mem_cons.1 hy with rfl | hy
          · exact h3.trans (min_le_right _ _)
          · exact h2 y (List.mem_cons_of_mem _ hy)
  cases l with
  | nil => simp [minimum]
  | cons x xs =>
    obtain ⟨h1, h2⟩ := key xs x
    unfold minimum
    constructor
    · intro h
      rw [← Option.some.inj h]
      exact ⟨h1, h2⟩
    · rintro ⟨h3, h4⟩
      exact congrArg some (le_antisymm (h2 m h3) (h4 _ h1))

theorem minimum_mem {l l' : List ℝ} (h : ∀ x, x ∈ l ↔ x ∈ l') : minimum l = minimum l' := by
  have : ∀ m, minimum l = some m ↔ minimum l' = some m := by
    intro m
    rw [minimum_spec, minimum_spec, h]
    simp only [h]
  cases h1 : minimum l with
  | some m => exact ((this m).1 h1).symm
  | none =>
    cases h2 : minimum l' with
    | none => rfl
    | some m => rw [(this m).2 h2] at h1; cases h1

theorem cell_perm {l l' : List (Ext × ℝ)} (h : l.Perm l') : cellValue l = cellValue l' := by
  unfold cellValue Ext.nansum
  rw [sum_perm ((h.map _).map _), sum_perm (h.map Prod.fst)]

/-- The image of inverse distance weighting is the same, whatever the order of the stations, in every cell (also cells
at a station, stations without data, no data at all), and so is the error. -/
theorem C139_idw (p : ℝ) (grid : List Cell) (sta sta' : List Station) (h : sta.Perm sta') :
    calculateIDW p grid sta = calculateIDW p grid sta' := by
  unfold calculateIDW
  have hm : minimum (allDist grid sta) = minimum (allDist grid sta') := by
    apply minimum_mem
    intro x
    unfold allDist
    simp only [List.mem_flatMap, List.mem_map, h.mem_iff]
  rw [hm]
  cases minimum (allDist grid sta') with
  | none => rfl
  | some m =>
    simp only
    congr 1
    apply List.map_congr_left
    intro g _
    unfold selected
    exact cell_perm (h.filterMap _)

/-! ### Detrending -/

theorem sse_perm {l l' : List (ℝ × ℝ)} (h : l.Perm l') (pv : ℝ × ℝ) : sse l pv = sse l' pv := (h.map _).sum_eq

/-- Two best lines through points at two different elevations are the same line. -/
theorem least_unique (pts : List (ℝ × ℝ)) (u v : ℝ × ℝ) (hu : ∀ w, sse pts u ≤ sse pts w) (hv : ∀ w, sse pts v ≤ sse pts w)
    (q r : ℝ × ℝ) (hq : q ∈ pts) (hr : r ∈ pts) (hne : q.1 ≠ r.1) : u = v := by
  -- the sum of squares at the midpoint
  have hid : ∀ l : List (ℝ × ℝ), 2 * sse l u + 2 * sse l v = 4 * sse l ((u.1 + v.1) / 2, (u.2 + v.2) / 2) +
      (l.map fun q => ((u.1 - v.1) * q.1 + (u.2 - v.2)) ^ 2).sum := by
    intro l
    unfold sse
    induction l with
    | nil => simp
    | cons a l ih =>
      simp only [List.map_cons, List.sum_cons]
      linear_combination ih
  have h1 := hid pts
  have h2 := hu ((u.1 + v.1) / 2, (u.2 + v.2) / 2)
  have h3 := hv ((u.1 + v.1) / 2, (u.2 + v.2) / 2)
  have hz : ∀ l : List (ℝ × ℝ), 0 ≤ (l.map fun q => ((u.1 - v.1) * q.1 + (u.2 - v.2)) ^ 2).sum := by
    intro l
    apply List.sum_nonneg
    intro x hx
    obtain ⟨y, -, rfl⟩ := List.mem_map.1 hx
    exact sq_nonneg _
  have h0 : (pts.map fun q => ((u.1 - v.1) * q.1 + (u.2 - v.2)) ^ 2).sum = 0 := le_antisymm (by linarith) (hz pts)
  have hall : ∀ l : List (ℝ × ℝ), (l.map fun q => ((u.1 - v.1) * q.1 + (u.2 - v.2)) ^ 2).sum = 0 → ∀ q ∈ l,
      (u.1 - v.1) * q.1 + (u.2 - v.2) = 0 := by
    intro l
    induction l with
    | nil => simp
    | cons a l ih =>
      intro h q hq
      simp only [List.map_cons, List.sum_cons] at h
      have g1 := sq_nonneg ((u.1 - v.1) * a.1 + (u.2 - v.2))
      have g2 := hz l
      rcases List.mem_cons.1 hq with rfl | hq
      · exact pow_eq_zero_iff (by norm_num) |>.1 (by linarith : ((u.1 - v.1) * q.1 + (u.2 - v.2)) ^ 2 = 0)
      · exact ih (by linarith) q hq
  have e1 := hall pts h0 q hq
  have e2 := hall pts h0 r hr
  have e3 : (u.1 - v.1) * (q.1 - r.1) = 0 := by linear_combination e1 - e2
  have e4 : u.1 - v.1 = 0 := (mul_eq_zero.1 e3).resolve_right (sub_ne_zero.2 hne)
  rw [e4] at e1
  exact Prod.ext (by linarith) (by linarith)

/-- Two stations with data at different elevations. -/
def Slope (sta : List Station) : Prop := ∃ s ∈ sta, ∃ t ∈ sta, s.val.isSome = true ∧ t.val.isSome = true ∧ s.z ≠ t.z

theorem fit_perm (fit : List (ℝ × ℝ) → ℝ × ℝ) (hf : LeastSquares fit) (sta sta' : List Station) (h : sta.Perm sta') (hs : Slope sta) :
    fit (points sta) = fit (points sta') := by
  have hp : (points sta).Perm (points sta') := h.filterMap _
  obtain ⟨s, h1, t, h2, v1, v2, hz⟩ := hs
  obtain ⟨a, ha⟩ := Option.isSome_iff_exists.1 v1
  obtain ⟨b, hb⟩ := Option.isSome_iff_exists.1 v2
  refine least_unique (points sta) _ _ (hf _) (fun w => ?_) (s.z, a) (t.z, b) ?_ ?_ hz
  · rw [sse_perm hp, sse_perm hp]; exact hf _ _
  · exact List.mem_filterMap.2 ⟨s, h1, by rw [ha]; rfl⟩
  · exact List.mem_filterMap.2 ⟨t, h2, by rw [hb]; rfl⟩

/-- The image with a trend in elevation removed, for any least-squares fit and any direction of the trend. Missing:
stations all at one elevation, where the least-squares line is not determined. -/
theorem C139_detrended_partial (fit : List (ℝ × ℝ) → ℝ × ℝ) (hf : LeastSquares fit) (flag : Int) (p : ℝ) (grid : List Cell)
    (sta sta' : List Station) (h : sta.Perm sta') (hs : Slope sta) :
    detrendedIDW fit flag p grid sta = detrendedIDW fit flag p grid sta' := by
  unfold detrendedIDW detrend
  simp only
  rw [← fit_perm fit hf sta sta' h hs]
  rw [C139_idw p grid _ _ (h.map _)]

/-! ### Kriging -/

section krige
open Verif.Krige Finset
variable {K : Type} [Field K] [LinearOrder K] [IsStrictOrderedRing K]

/-- `σ` renumbers `0, ..., n - 1`, `τ` is its inverse. -/
structure Renumbers (n : Nat) (σ τ : Nat → Nat) : Prop where
  lt : ∀ i < n, σ i < n
  lt' : ∀ i < n, τ i < n
  left : ∀ i < n, τ (σ i) = i
  right : ∀ i < n, σ (τ i) = i

theorem Renumbers.symm {n : Nat} {σ τ : Nat → Nat} (h : Renumbers n σ τ) : Renumbers n τ σ := ⟨h.lt', h.lt, h.right, h.left⟩

theorem Renumbers.sum {M : Type} [AddCommMonoid M] {n : Nat} {σ τ : Nat → Nat} (h : Renumbers n σ τ) (f : Nat → M) :
    ∑ i ∈ range n, f (σ i) = ∑ i ∈ range n, f i := by
  refine Finset.sum_bij' (fun i _ => σ i) (fun i _ => τ i) ?_ ?_ ?_ ?_ ?_
  · intro i hi; exact mem_range.2 (h.lt i (mem_range.1 hi))
  · intro i hi; exact mem_range.2 (h.lt' i (mem_range.1 hi))
  · intro i hi; exact h.left i (mem_range.1 hi)
  · intro i hi; exact h.right i (mem_range.1 hi)
  · intro i _; rfl

/-- The same numbers of other stations. -/
structure Same (n : Nat) (σ : Nat → Nat) (ad ad' : Nat → Nat → K) (d d' e e' : Nat → K) : Prop where
  ad : ∀ i < n, ∀ j < n, ad' i j = ad (σ i) (σ j)
  d : ∀ i < n, d' i = d (σ i)
  e : ∀ i < n, e' i = e (σ i)

omit [LinearOrder K] [IsStrictOrderedRing K] in
theorem system_order {n : Nat} {σ τ : Nat → Nat} (hσ : Renumbers n σ τ) {ad ad' : Nat → Nat → K} {d d' : Nat → K}
    (had : ∀ i < n, ∀ j < n, ad' i j = ad (σ i) (σ j)) (hd : ∀ i < n, d' i = d (σ i)) {flag flag' : Nat → Bool}
    (hf : ∀ i < n, flag' i = flag (σ i)) {w : Nat → K} {mu : K} (h : System n ad d flag w mu) :
    System n ad' d' flag' (w ∘ σ) mu := by
  refine ⟨fun m hm hfm => ?_, ?_, fun i hi hfi => ?_⟩
  · rw [hd m hm, ← h.1 (σ m) (hσ.lt m hm) (by rw [← hf m hm]; exact hfm), ← hσ.sum fun k => ad (σ m) k * w k]
    congr 1
    refine Finset.sum_congr rfl fun k hk => ?_
    rw [had m hm k (mem_range.1 hk)]; rfl
  · rw [← h.2.1, ← hσ.sum w]; rfl
  · exact h.2.2 (σ i) (hσ.lt i hi) (by rw [← hf i hi]; exact hfi)

omit [LinearOrder K] [IsStrictOrderedRing K] in
theorem degenerate_order {n : Nat} {σ τ : Nat → Nat} (hσ : Renumbers n σ τ) {ad ad' : Nat → Nat → K}
    (had : ∀ i < n, ∀ j < n, ad' i j = ad (σ i) (σ j)) {flag flag' : Nat → Bool}
    (hf : ∀ i < n, flag' i = flag (σ i)) (h : Degenerate n ad' flag') : Degenerate n ad flag := by
  obtain ⟨v, nu, h1, h2, h3, h4⟩ := h
  have hs := hσ.symm
  refine ⟨v ∘ τ, nu, ?_, fun m hm hfm => ?_, ?_, fun i hi hfi => ?_⟩
  · rcases h1 with h1 | ⟨i, hi, h1⟩
    · exact .inl h1
    · refine .inr ⟨σ i, hσ.lt i hi, ?_⟩
      rw [Function.comp, hσ.left i hi]; exact h1
  · have := h2 (τ m) (hσ.lt' m hm) (by rw [hf _ (hσ.lt' m hm), hσ.right m hm]; exact hfm)
    rw [← hs.sum fun k => ad' (τ m) k * v k] at this
    rw [← this]
    congr 1
    refine Finset.sum_congr rfl fun k hk => ?_
    rw [had _ (hσ.lt' m hm) _ (hσ.lt' k (mem_range.1 hk)), hσ.right m hm, hσ.right k (mem_range.1 hk)]; rfl
  · rw [← h3, ← hs.sum v]; rfl
  · exact h4 (τ i) (hσ.lt' i hi) (by rw [hf _ (hσ.lt' i hi), hσ.right i hi]; exact hfi)

omit [IsStrictOrderedRing K] in
theorem elim_order {n : Nat} {σ τ : Nat → Nat} (hσ : Renumbers n σ τ) {ad ad' : Nat → Nat → K} {d d' e e' : Nat → K}
    (hs : Same n σ ad ad' d d' e e') {flag : Nat → Bool} {w : Nat → K} (h : Elim n ad d e flag w) :
    ∀ flag' : Nat → Bool, (∀ i < n, flag' i = flag (σ i)) → Elim n ad' d' e' flag' (w ∘ σ) := by
  induction h with
  | done sys reg stop =>
    intro flag' hf
    refine .done (system_order hσ hs.ad hs.d hf sys) (fun h => reg (degenerate_order hσ hs.ad hf h)) fun i hi hw => ?_
    rw [hs.e i hi]
    exact stop (σ i) (hσ.lt i hi) hw
  | @drop flag v w mu m sys reg hm hfm neg pos top rest ih =>
    intro flag' hf
    have hτ := hσ.lt' m hm
    have hst := hσ.right m hm
    refine .drop (τ m) (system_order hσ hs.ad hs.d hf sys) (fun h => reg (degenerate_order hσ hs.ad hf h)) hτ
      (by rw [hf _ hτ, hst]; exact hfm) (by rw [Function.comp, hst]; exact neg) (by rw [hs.e _ hτ, hst]; exact pos)
      (fun i hi hw => ?_) (ih _ fun i hi => ?_)
    · rw [hs.e i hi, hs.e _ hτ, hst]
      exact top (σ i) (hσ.lt i hi) hw
    · unfold Lu.put
      by_cases hi' : i = τ m
      · rw [if_pos hi', if_pos (by rw [hi', hst])]
      · rw [if_neg hi', if_neg (fun h => hi' (by rw [← h, hσ.left i hi])), hf i hi]

/-- Stations above sea level have different elevations. -/
def Heights (n : Nat) (e : Nat → K) : Prop := ∀ i < n, ∀ j < n, 0 < e i → e i = e j → i = j

theorem elim_unique {n : Nat} {ad : Nat → Nat → K} {d e : Nat → K} (he : Heights n e) {flag : Nat → Bool} {w : Nat → K}
    (h : Elim n ad d e flag w) : ∀ w', Elim n ad d e flag w' → ∀ i < n, w' i = w i := by
  induction h with
  | @done flag w mu sys reg stop =>
    intro w' h'
    cases h' with
    | done sys' reg' stop' => exact system_unique n ad d flag _ _ _ _ sys sys' reg
    | drop m sys' reg' hm hf neg pos top rest =>
      have := system_unique n ad d flag _ _ _ _ sys sys' reg m hm
      rw [this] at neg
      exact absurd pos (not_lt.2 (stop m hm neg))
  | @drop flag v w mu m sys reg hm hfm neg pos top rest ih =>
    intro w' h'
    cases h' with
    | done sys' reg' stop' =>
      have := system_unique n ad d flag _ _ _ _ sys sys' reg m hm
      rw [← this] at neg
      exact absurd pos (not_lt.2 (stop' m hm neg))
    | @drop _ v' _ mu' m' sys' reg' hm' hf' neg' pos' top' rest' =>
      have hu := system_unique n ad d flag _ _ _ _ sys sys' reg
      have h1 := top m' hm' (by rw [← hu m' hm']; exact neg')
      have h2 := top' m hm (by rw [hu m hm]; exact neg)
      have h3 : m' = m := he m' hm' m hm pos' (le_antisymm h1 h2)
      rw [h3] at rest'
      exact ih w' rest'

/-- The kriging weights of the stations in another order are the same weights in that order, if the stations above sea
level have different elevations. Missing: stations of equal elevation, of which the one listed first is dropped
(`C139_tie_fails`). -/
theorem C139_weights_partial (mem mem' : Mem K) (n : Nat) (σ τ : Nat → Nat) (hσ : Renumbers n σ τ) (ad ad' : Nat → Nat → K)
    (d d' e e' w w' : Nat → K) (hs : Same n σ ad ad' d d' e e') (hd : ∀ m < n, 0 ≤ d m) (he : Heights n e)
    (h : krige mem n ad d e = .weights w) (h' : krige mem' n ad' d' e' = .weights w') (i : Nat) (hi : i < n) :
    w' i = w (σ i) := by
  obtain ⟨flag, hall, hel⟩ := C56_order mem n ad d e w hd h
  obtain ⟨flag', hall', hel'⟩ := C56_order mem' n ad' d' e' w' (fun m hm => by rw [hs.d m hm]; exact hd _ (hσ.lt m hm)) h'
  have h1 := elim_order hσ hs hel flag' fun j hj => by rw [hall' j hj, hall _ (hσ.lt j hj)]
  have he' : Heights n e' := by
    intro i hi j hj hp hij
    rw [hs.e i hi, hs.e j hj] at hij
    rw [hs.e i hi] at hp
    have := he _ (hσ.lt i hi) _ (hσ.lt j hj) hp hij
    rw [← hσ.left i hi, this, hσ.left j hj]
  exact elim_unique he' h1 w' hel' i hi

end krige

/-! ### Kriged images -/

section images
open Verif.Krige Finset

theorem perm_renumbers {α : Type} {l l' : List α} (h : l.Perm l') :
    ∃ σ τ, Renumbers l.length σ τ ∧ ∀ i < l.length, l'[i]? = l[σ i]? := by
  induction h with
  | nil => exact ⟨id, id, ⟨fun _ h => h, fun _ h => h, fun _ _ => rfl, fun _ _ => rfl⟩, fun _ _ => rfl⟩
  | @cons a l l' _ ih =>
    obtain ⟨σ, τ, h1, h2⟩ := ih
    refine ⟨fun i => match i with | 0 => 0 | i + 1 => σ i + 1, fun i => match i with | 0 => 0 | i + 1 => τ i + 1, ⟨?_, ?_, ?_, ?_⟩, ?_⟩
    · intro i hi
      cases i with
      | zero => exact hi
      | succ i => have := h1.lt i (by simpa using hi); simpa using this
    · intro i hi
      cases i with
      | zero => exact hi
      | succ i => have := h1.lt' i (by simpa using hi); simpa using this
    · intro i hi
      cases i with
      | zero => rfl
      | succ i => simp only [h1.left i (by simpa using hi)]
    · intro i hi
      cases i with
      | zero => rfl
      | succ i => simp only [h1.right i (by simpa using hi)]
    · intro i hi
      cases i with
      | zero => rfl
      | succ i => simpa using h2 i (by simpa using hi)
  | swap a b l =>
    refine ⟨fun i => match i with | 0 => 1 | 1 => 0 | i + 2 => i + 2, fun i => match i with | 0 => 1 | 1 => 0 | i + 2 => i + 2,
      ⟨?_, ?_, ?_, ?_⟩, ?_⟩ <;> intro i hi <;> rcases i with _ | _ | i <;> simp_all
  | @trans l1 l2 l3 h12 h23 ih1 ih2 =>
    obtain ⟨σ, τ, a1, a2⟩ := ih1
    obtain ⟨σ', τ', b1, b2⟩ := ih2
    rw [← h12.length_eq] at b1 b2
    refine ⟨σ ∘ σ', τ' ∘ τ, ⟨fun i hi => a1.lt _ (b1.lt i hi), fun i hi => b1.lt' _ (a1.lt' i hi), fun i hi => ?_, fun i hi => ?_⟩,
      fun i hi => ?_⟩
    · simp only [Function.comp, a1.left _ (b1.lt i hi), b1.left i hi]
    · simp only [Function.comp, b1.right _ (a1.lt' i hi), a1.right i hi]
    · rw [b2 i hi, a2 _ (b1.lt i hi)]; rfl

/-- Stations at different places. -/
def Places (sta : List Station) : Prop := sta.Pairwise fun s t => ¬ (s.x = t.x ∧ s.y = t.y)

/-- Stations above sea level at different elevations. -/
def Elevations (sta : List Station) : Prop := sta.Pairwise fun s t => 0 < s.z → s.z ≠ t.z

theorem places_index {sta : List Station} (h : Places sta) (i j : Nat) (hi : i < sta.length) (hj : j < sta.length)
    (hx : sta[i].x = sta[j].x) (hy : sta[i].y = sta[j].y) : i = j := by
  have hp := List.pairwise_iff_getElem.1 h
  rcases lt_trichotomy i j with hij | hij | hij
  · exact absurd ⟨hx, hy⟩ (hp i j hi hj hij)
  · exact hij
  · exact absurd ⟨hx.symm, hy.symm⟩ (hp j i hj hi hij)

theorem heights_of {sta : List Station} (h : Elevations sta) : Heights sta.length (elevations sta) := by
  have hp := List.pairwise_iff_getElem.1 h
  intro i hi j hj hpos he
  unfold elevations at hpos he
  rw [List.getElem?_eq_getElem hi] at hpos he
  rw [List.getElem?_eq_getElem hj] at he
  simp only at hpos he
  rcases lt_trichotomy i j with hij | hij | hij
  · exact absurd he (hp i j hi hj hij hpos)
  · exact hij
  · exact absurd he.symm (hp j i hj hi hij (he ▸ hpos))

theorem same_of {sta sta' : List Station} (hl : sta'.length = sta.length) (g : Cell) {σ τ : Nat → Nat}
    (hσ : Renumbers sta.length σ τ) (h : ∀ i < sta.length, sta'[i]? = sta[σ i]?) :
    Same sta.length σ (adMatrix sta) (adMatrix sta') (gridDist sta g) (gridDist sta' g) (elevations sta) (elevations sta') := by
  have hget : ∀ i (hi : i < sta.length), sta'[i]'(hl ▸ hi) = sta[σ i]'(hσ.lt i hi) := by
    intro i hi
    have := h i hi
    rw [List.getElem?_eq_getElem (hl ▸ hi), List.getElem?_eq_getElem (hσ.lt i hi)] at this
    exact Option.some.inj this
  refine ⟨fun i hi j hj => ?_, fun i hi => ?_, fun i hi => ?_⟩
  · rw [adMatrix_eq sta' i j (hl ▸ hi) (hl ▸ hj), adMatrix_eq sta _ _ (hσ.lt i hi) (hσ.lt j hj), hget i hi, hget j hj]
  · unfold gridDist; rw [h i hi]
  · unfold elevations; rw [h i hi]

/-- The stations with data and their values. -/
def measured (z : List (Station × Option ℝ)) : List (Station × ℝ) := z.filterMap fun q => q.2.map fun v => (q.1, v)

theorem withValue_measured (sta : List Station) (data : List (Option ℝ)) :
    withValue sta data = (measured (sta.zip data)).map Prod.fst := by
  unfold withValue measured
  generalize sta.zip data = z
  induction z with
  | nil => rfl
  | cons q z ih =>
    obtain ⟨s, v⟩ := q
    cases v <;> simp_all

theorem points_measured (sta : List Station) (data : List (Option ℝ)) :
    points (withData sta data) = (measured (sta.zip data)).map fun q => (q.1.z, q.2) := by
  unfold points withData measured
  induction sta generalizing data with
  | nil => rfl
  | cons s sta ih =>
    cases data with
    | nil => rfl
    | cons v data =>
      cases v with
      | none => simpa using ih data
      | some x => simpa using ih data

theorem zip_sum (n : Nat) (w r : Nat → ℝ) :
    (List.zipWith (· * ·) ((List.range n).map w) ((List.range n).map r)).sum = ∑ i ∈ range n, w i * r i := by
  rw [List.zipWith_map, List.zipWith_self]
  induction n with
  | zero => simp
  | succ n ih => rw [List.range_succ, List.map_append, List.sum_append, ih, Finset.sum_range_succ]; simp

theorem list_range {α : Type} (l : List α) (f : α → ℝ) : l.map f = (List.range l.length).map fun i => (l[i]?.map f).getD 0 := by
  apply List.ext_getElem
  · simp
  · intro i h1 h2
    simp at h1
    simp [h1]

/-- The weighted sum of any values of the stations. -/
theorem weighted_order (mem mem' : Mem ℝ) (m m' : List (Station × ℝ)) (hm : m.Perm m') (hne : m ≠ []) (hp : Places (m.map Prod.fst))
    (he : Elevations (m.map Prod.fst)) (g : Cell) (f : Station × ℝ → ℝ) : ∃ w w',
      krige mem (m.map Prod.fst).length (adMatrix (m.map Prod.fst)) (gridDist (m.map Prod.fst) g) (elevations (m.map Prod.fst)) = .weights w ∧
      krige mem' (m'.map Prod.fst).length (adMatrix (m'.map Prod.fst)) (gridDist (m'.map Prod.fst) g) (elevations (m'.map Prod.fst)) =
        .weights w' ∧
      (List.zipWith (· * ·) ((List.range (m.map Prod.fst).length).map w) (m.map f)).sum =
        (List.zipWith (· * ·) ((List.range (m'.map Prod.fst).length).map w') (m'.map f)).sum := by
  have hne' : m' ≠ [] := fun e => hne (by rw [e] at hm; exact hm.eq_nil)
  have hpp : Places (m'.map Prod.fst) := ((hm.map Prod.fst).pairwise_iff fun h h' => h ⟨h'.1.symm, h'.2.symm⟩).1 hp
  obtain ⟨w, hw, -⟩ := C56_distinct_partial mem (m.map Prod.fst) g (by simpa using hne) fun i j hi hj => places_index hp i j hi hj
  obtain ⟨w', hw', -⟩ := C56_distinct_partial mem' (m'.map Prod.fst) g (by simpa using hne') fun i j hi hj => places_index hpp i j hi hj
  refine ⟨w, w', hw, hw', ?_⟩
  obtain ⟨σ, τ, hσ, hget⟩ := perm_renumbers hm
  have hl : m'.length = m.length := hm.length_eq.symm
  have hσ' : Renumbers (m.map Prod.fst).length σ τ := by rw [List.length_map]; exact hσ
  have hw'' := hw'
  rw [List.length_map, hl, ← List.length_map (f := Prod.fst) (as := m)] at hw''
  have key := C139_weights_partial mem mem' (m.map Prod.fst).length σ τ hσ' _ _ _ _ _ _ w w'
    (same_of (by simp [hl]) g hσ' (fun i hi => by
      rw [List.getElem?_map, List.getElem?_map, hget i (by simpa using hi)]))
    (fun i _ => gridDist_nonneg _ g i) (heights_of he) hw hw''
  simp only [List.length_map]
  rw [list_range m f, list_range m' f, hl, zip_sum, zip_sum, ← hσ.sum]
  refine Finset.sum_congr rfl fun i hi => ?_
  have hi := mem_range.1 hi
  rw [key i (by simpa using hi), hget i hi]

theorem cell_order (mem mem' : Mem ℝ) (fit : List (ℝ × ℝ) → ℝ × ℝ) (hf : LeastSquares fit) (flag : Int) (sta sta' : List Station)
    (data data' : List (Option ℝ)) (h : (sta.zip data).Perm (sta'.zip data')) (hp : Places (withValue sta data))
    (he : Elevations (withValue sta data)) (hs : Slope (withData sta data)) (g : Cell) : ∃ w w',
      krige mem (withValue sta data).length (adMatrix (withValue sta data)) (gridDist (withValue sta data) g)
        (elevations (withValue sta data)) = .weights w ∧
      krige mem' (withValue sta' data').length (adMatrix (withValue sta' data')) (gridDist (withValue sta' data') g)
        (elevations (withValue sta' data')) = .weights w' ∧
      krigedCell fit flag (withData sta data) ((List.range (withValue sta data).length).map w) g =
        krigedCell fit flag (withData sta' data') ((List.range (withValue sta' data').length).map w') g := by
  have hm : (measured (sta.zip data)).Perm (measured (sta'.zip data')) := h.filterMap _
  have hpts : (points (withData sta data)).Perm (points (withData sta' data')) := by
    rw [points_measured, points_measured]; exact hm.map _
  have hfit : fit (points (withData sta data)) = fit (points (withData sta' data')) := by
    obtain ⟨s, h1, t, h2, v1, v2, hz⟩ := hs
    obtain ⟨a, ha⟩ := Option.isSome_iff_exists.1 v1
    obtain ⟨b, hb⟩ := Option.isSome_iff_exists.1 v2
    refine least_unique _ _ _ (hf _) (fun w => ?_) (s.z, a) (t.z, b) ?_ ?_ hz
    · rw [sse_perm hpts, sse_perm hpts]; exact hf _ _
    · exact List.mem_filterMap.2 ⟨s, h1, by rw [ha]; rfl⟩
    · exact List.mem_filterMap.2 ⟨t, h2, by rw [hb]; rfl⟩
  have hne : measured (sta.zip data) ≠ [] := by
    intro e
    obtain ⟨s, h1, -, -, v1, -, -⟩ := hs
    obtain ⟨a, ha⟩ := Option.isSome_iff_exists.1 v1
    have : (s.z, a) ∈ points (withData sta data) := List.mem_filterMap.2 ⟨s, h1, by rw [ha]; rfl⟩
    rw [points_measured, e] at this
    cases this
  unfold krigedCell
  rw [withValue_measured] at hp he ⊢
  rw [withValue_measured sta' data', ← hfit, points_measured, points_measured]
  rw [points_measured] at hfit
  obtain ⟨w, w', h1, h2, h3⟩ := weighted_order mem mem' _ _ hm hne hp he g
    ((fun q => q.2 - (q.1 * (constrain flag (fit ((measured (sta.zip data)).map fun q => (q.1.z, q.2)))).1 +
      (constrain flag (fit ((measured (sta.zip data)).map fun q => (q.1.z, q.2)))).2)) ∘ fun q => (q.1.z, q.2))
  refine ⟨w, w', h1, h2, ?_⟩
  simp only [List.map_map]
  rw [h3]

/-- A step of kriging in another order of the stations, with the data in the same order. -/
theorem fresh_order (mem mem' : Mem ℝ) (fit : List (ℝ × ℝ) → ℝ × ℝ) (hf : LeastSquares fit) (flag : Int) (sta sta' : List Station)
    (grid : List Cell) (data data' : List (Option ℝ)) (h : (sta.zip data).Perm (sta'.zip data')) (hp : Places (withValue sta data))
    (he : Elevations (withValue sta data)) (hs : Slope (withData sta data)) :
    ∃ img, freshImage mem fit flag sta grid data = some img ∧ freshImage mem' fit flag sta' grid data' = some img := by
  have hc := cell_order mem mem' fit hf flag sta sta' data data' h hp he hs
  unfold freshImage weightsFor
  induction grid with
  | nil => exact ⟨[], rfl, rfl⟩
  | cons g grid ih =>
    obtain ⟨img, h1, h2⟩ := ih
    obtain ⟨w, w', e1, e2, e3⟩ := hc g
    rw [Option.map_eq_some_iff] at h1 h2
    obtain ⟨ws, a1, a2⟩ := h1
    obtain ⟨ws', b1, b2⟩ := h2
    refine ⟨krigedCell fit flag (withData sta data) ((List.range (withValue sta data).length).map w) g :: img, ?_, ?_⟩
    · rw [List.mapM_cons, e1]
      simp only [Option.bind_eq_bind, Option.bind_some]
      rw [a1]
      simp only [Option.bind_some, Option.pure_def, Option.map_some, List.zipWith_cons_cons, a2]
    · rw [List.mapM_cons, e2]
      simp only [Option.bind_eq_bind, Option.bind_some]
      rw [b1]
      simp only [Option.bind_some, Option.pure_def, Option.map_some, List.zipWith_cons_cons, b2, e3]

/-- A run of detrended kriging over any number of steps with any gaps: the images do not depend on the order of the
stations nor on what memory held. Missing: colocated stations (the process ends, C56), equal elevations
(`C139_tie_fails`), steps in which all data are at one elevation. -/
theorem C139_kriging_partial (mem mem' : Mem ℝ) (fit : List (ℝ × ℝ) → ℝ × ℝ) (hf : LeastSquares fit) (flag : Int)
    (sta sta' : List Station) (grid : List Cell) (steps steps' : List (List (Option ℝ)))
    (h : List.Forall₂ (fun d d' => (sta.zip d).Perm (sta'.zip d')) steps steps')
    (hp : ∀ d ∈ steps, Places (withValue sta d)) (he : ∀ d ∈ steps, Elevations (withValue sta d))
    (hs : ∀ d ∈ steps, Slope (withData sta d)) :
    ∃ imgs, runDK mem fit flag sta grid Cache.new steps = some imgs ∧ runDK mem' fit flag sta' grid Cache.new steps' = some imgs := by
  have nonempty : ∀ (sta : List Station) (d : List (Option ℝ)), Slope (withData sta d) → d ≠ [] := by
    rintro sta d ⟨s, h1, -⟩ e
    rw [e] at h1
    unfold withData at h1
    simp at h1
  have hzip : ∀ d d' : List (Option ℝ), (sta.zip d).Perm (sta'.zip d') → d ≠ [] ∧ sta ≠ [] → d' ≠ [] := by
    rintro d d' hq ⟨h1, h2⟩ e
    rw [e, List.zip_nil_right] at hq
    have := hq.eq_nil
    rw [List.zip_eq_nil_iff] at this
    exact this.elim h2 h1
  have hsta : ∀ d, Slope (withData sta d) → sta ≠ [] := by
    rintro d ⟨s, h1, -⟩ e
    rw [e] at h1
    unfold withData at h1
    simp at h1
  rw [C55_cache mem fit flag sta grid steps fun d hd => nonempty sta d (hs d hd)]
  rw [C55_cache mem' fit flag sta' grid steps' (by
    intro d' hd'
    have hex : ∃ d ∈ steps, (sta.zip d).Perm (sta'.zip d') := by
      obtain ⟨hl, hg⟩ := List.forall₂_iff_get.1 h
      obtain ⟨i, hi⟩ := List.mem_iff_get.1 hd'
      exact ⟨steps.get ⟨i, by rw [hl]; exact i.2⟩, List.get_mem _ _, hi ▸ hg i _ i.2⟩
    obtain ⟨d, hd, hq⟩ := hex
    exact hzip d d' hq ⟨nonempty sta d (hs d hd), hsta d (hs d hd)⟩)]
  induction h with
  | nil => exact ⟨[], rfl, rfl⟩
  | @cons d d' steps steps' hq _ ih =>
    obtain ⟨img, a1, a2⟩ := fresh_order mem mem' fit hf flag sta sta' grid d d' hq (hp d List.mem_cons_self) (he d List.mem_cons_self)
      (hs d List.mem_cons_self)
    obtain ⟨imgs, b1, b2⟩ := ih (fun d hd => hp d (List.mem_cons_of_mem _ hd)) (fun d hd => he d (List.mem_cons_of_mem _ hd))
      fun d hd => hs d (List.mem_cons_of_mem _ hd)
    refine ⟨img :: imgs, ?_, ?_⟩
    · rw [List.mapM_cons, a1]
      simp only [Option.bind_eq_bind, Option.bind_some]
      rw [b1]; rfl
    · rw [List.mapM_cons, a2]
      simp only [Option.bind_eq_bind, Option.bind_some]
      rw [b2]; rfl

end images

/-! ### Stations of one elevation -/

section ties
open Verif.Krige Verif.Lu Finset
variable {K : Type} [Field K] [LinearOrder K] [IsStrictOrderedRing K]

/-- Of the stations with a negative weight at the same highest elevation the first one is dropped. -/
theorem drop_first (n : Nat) (flag : Nat → Bool) (e x : Nat → K) (m : Nat) (h : drop n flag e x = some m) :
    ∀ k < m, flag k = true → x (cnt flag k) < 0 → e k < e m := by
  unfold drop at h
  suffices hh : ∀ N s, s = (List.range N).foldl (dropStep flag e x) ⟨0, none, 0⟩ →
      s.mm = cnt flag N ∧ (∀ k < N, flag k = true → x (cnt flag k) < 0 → e k ≤ s.elevsave) ∧
      ∀ m, s.msave = some m → m < N ∧ s.elevsave = e m ∧ ∀ k < m, flag k = true → x (cnt flag k) < 0 → e k < e m from
    ((hh n _ rfl).2.2 m h).2.2
  intro N
  induction N with
  | zero => rintro s rfl; exact ⟨rfl, fun k hk => by omega, fun m hm => by cases hm⟩
  | succ N ih =>
    rintro s rfl
    rw [List.range_succ, List.foldl_append]
    simp only [List.foldl]
    obtain ⟨h1, h2, h3⟩ := ih _ rfl
    clear ih h
    generalize (List.range N).foldl (dropStep flag e x) ⟨0, none, 0⟩ = s at *
    have hkeep : ∀ m, s.msave = some m → m < N + 1 ∧ s.elevsave = e m ∧
        ∀ k < m, flag k = true → x (cnt flag k) < 0 → e k < e m := fun m hm => by
      obtain ⟨a, b, c⟩ := h3 m hm
      exact ⟨by omega, b, c⟩
    unfold dropStep
    rw [cnt]
    by_cases hf : flag N = true
    · simp only [hf, if_true]
      rw [h1]
      by_cases hw : x (cnt flag N) < 0
      · rw [if_pos hw]
        by_cases he : s.elevsave < e N
        · rw [if_pos he]
          refine ⟨rfl, fun k hk hfk hwk => ?_, fun m hm => ?_⟩
          · by_cases q : k = N
            · rw [q]
            · exact (h2 k (by omega) hfk hwk).trans he.le
          · have hm : N = m := Option.some.inj hm
            subst hm
            exact ⟨by omega, rfl, fun k hk hfk hwk => lt_of_le_of_lt (h2 k hk hfk hwk) he⟩
        · rw [if_neg he]
          refine ⟨rfl, fun k hk hfk hwk => ?_, hkeep⟩
          by_cases q : k = N
          · rw [q]; exact not_lt.1 he
          · exact h2 k (by omega) hfk hwk
      · rw [if_neg hw]
        refine ⟨rfl, fun k hk hfk hwk => ?_, hkeep⟩
        by_cases q : k = N
        · subst q; exact absurd hwk hw
        · exact h2 k (by omega) hfk hwk
    · simp only [hf]
      refine ⟨h1, fun k hk hfk hwk => ?_, hkeep⟩
      have : k ≠ N := fun q => hf (q ▸ hfk)
      exact h2 k (by omega) hfk hwk

/-- The first round of kriging, given the solution of its equations. -/
theorem first_round (mem : Mem K) (n : Nat) (ad : Nat → Nat → K) (d e w v : Nat → K) (mu : K) (hd : ∀ m < n, 0 ≤ d m)
    (h : krige mem n ad d e = .weights w) (hsys : ∀ flag : Nat → Bool, (∀ i < n, flag i = true) → System n ad d flag v mu)
    (m : Nat) (hm : m < n) (hneg : v m < 0) (hpos : 0 < e m) (htop : ∀ k < n, v k < 0 → e k ≤ e m)
    (hfirst : ∀ k < m, v k < 0 → e k < e m) :
    ∃ flag : Nat → Bool, (∀ i < n, flag i = true ↔ i ≠ m) ∧ Elim n ad d e flag w := by
  unfold krige at h
  generalize hfl : useFlags n d mem.flags = flag at h
  have hall : ∀ i < n, flag i = true := fun i hi => by rw [← hfl]; exact useFlags_all n d mem.flags i hi
  have hc : cnt flag n = n := cnt_all flag n hall
  rw [loop] at h
  cases hs : lusolv (mem.lu n) (n + 1) (load n n ad d flag (mem.a n)) with
  | none => rw [hs] at h; cases h
  | some x =>
    rw [hs] at h
    simp only at h
    have hs' : lusolv (mem.lu n) (cnt flag n + 1) (load n (cnt flag n) ad d flag (mem.a n)) = some x := by rw [hc]; exact hs
    have hv : ∀ i < n, x (cnt flag i) = v i := fun i hi => by
      have := (round_system _ n ad d flag _ x hd hs').2 v mu (hsys flag hall) i hi
      rw [if_pos (hall i hi)] at this
      exact this.symm
    have hdr := drop_spec n flag e x
    cases hq : drop n flag e x with
    | none =>
      rw [hq] at hdr
      exact absurd hpos (not_lt.2 (hdr m hm (hall m hm) (by rw [hv m hm]; exact hneg)))
    | some k =>
      have hfst := drop_first n flag e x k hq
      rw [hq] at hdr h
      simp only at hdr h
      obtain ⟨hk, -, hk1, hk2, hk3⟩ := hdr
      rw [hv k hk] at hk1
      have hkm : k = m := by
        rcases lt_trichotomy k m with q | q | q
        · have h1 := hfirst k q hk1
          have h2 := hk3 m hm (hall m hm) (by rw [hv m hm]; exact hneg)
          exact absurd h1 (not_lt.2 h2)
        · exact q
        · have h1 := hfst m q (hall m hm) (by rw [hv m hm]; exact hneg)
          have h2 := htop k hk hk1
          exact absurd h1 (not_lt.2 h2)
      subst hkm
      refine ⟨put flag k false, fun i hi => ?_, ?_⟩
      · unfold put
        by_cases q : i = k
        · simp [q]
        · simp [q, hall i hi]
      · have := loop_spec mem n ad d e hd n (put flag k false) (by
          rw [cnt_drop flag hm (hall k hm), hc]; omega)
        rw [cnt_drop flag hm (hall k hm), hc, h] at this
        exact this

/-- A solution ends the elimination if no weight is negative. -/
theorem elim_done {n : Nat} {ad : Nat → Nat → K} {d e : Nat → K} {flag : Nat → Bool} {w v : Nat → K} {mu : K}
    (h : Elim n ad d e flag w) (hs : System n ad d flag v mu) (hn : ∀ i < n, 0 ≤ v i) : ∀ i < n, w i = v i := by
  cases h with
  | done sys reg stop => exact system_unique n ad d flag _ _ _ _ hs sys reg
  | drop m sys reg hm hf neg pos top rest =>
    rw [system_unique n ad d flag _ _ _ _ hs sys reg m hm] at neg
    exact absurd neg (not_lt.2 (hn m hm))

/-- With one negative weight at a positive elevation the elimination goes on without that station. -/
theorem elim_next {n : Nat} {ad : Nat → Nat → K} {d e : Nat → K} {flag : Nat → Bool} {w v : Nat → K} {mu : K} {m : Nat}
    (h : Elim n ad d e flag w) (hs : System n ad d flag v mu) (hm : m < n) (hneg : v m < 0) (hpos : 0 < e m)
    (ho : ∀ i < n, i ≠ m → 0 ≤ v i) : Elim n ad d e (put flag m false) w := by
  cases h with
  | done sys reg stop =>
    have := system_unique n ad d flag _ _ _ _ hs sys reg m hm
    rw [← this] at hneg
    exact absurd hpos (not_lt.2 (stop m hm hneg))
  | drop k sys reg hk hf neg pos top rest =>
    rw [system_unique n ad d flag _ _ _ _ hs sys reg k hk] at neg
    have : k = m := by
      by_contra q
      exact absurd neg (not_lt.2 (ho k hk q))
    rw [this] at rest
    exact rest

/-! Five stations at one elevation and a cell. -/

def tieSta (e : ℝ) : List Station := [⟨0, -208, e, none⟩, ⟨0, 208, e, none⟩, ⟨0, -100, e, none⟩, ⟨105, 0, e, none⟩, ⟨-105, 0, e, none⟩]

/-- The first two exchanged. -/
def tieSta' (e : ℝ) : List Station := [⟨0, 208, e, none⟩, ⟨0, -208, e, none⟩, ⟨0, -100, e, none⟩, ⟨105, 0, e, none⟩, ⟨-105, 0, e, none⟩]

def tieCell (z : ℝ) : Cell := ⟨0, -88, z⟩

def tieRow (m : Nat) : List ℝ := match m with
  | 0 => [0, 416, 108, 233, 233]
  | 1 => [416, 0, 308, 233, 233]
  | 2 => [108, 308, 0, 145, 145]
  | 3 => [233, 233, 145, 0, 210]
  | _ => [233, 233, 145, 210, 0]

def tieAd (m n : Nat) : ℝ := (tieRow m).getD n 0

def tieD (m : Nat) : ℝ := [120, 296, 12, 137, 137].getD m 0

def swap01 (m : Nat) : Nat := if m = 0 then 1 else if m = 1 then 0 else m

theorem swap01_renumbers : Renumbers 5 swap01 swap01 := by
  refine ⟨?_, ?_, ?_, ?_⟩ <;> intro i hi <;> interval_cases i <;> simp [swap01]

theorem root {a b : ℝ} (hb : 0 ≤ b) (h : a = b ^ 2) : Real.sqrt a = b := by rw [h, Real.sqrt_sq hb]

theorem tie_ad (e : ℝ) (i j : Nat) (hi : i < 5) (hj : j < 5) : adMatrix (tieSta e) i j = tieAd i j := by
  rw [adMatrix_eq (tieSta e) i j hi hj]
  interval_cases i <;> interval_cases j <;> apply root <;> norm_num [tieSta, tieAd, tieRow]

theorem tie_d (e z : ℝ) (i : Nat) (hi : i < 5) : gridDist (tieSta e) (tieCell z) i = tieD i := by
  interval_cases i <;> apply root <;> norm_num [tieSta, tieD, tieCell]

theorem tie_get (e : ℝ) (i : Nat) (hi : i < 5) : (tieSta' e)[i]? = (tieSta e)[swap01 i]? := by
  interval_cases i <;> rfl

theorem tie_e (e : ℝ) (i : Nat) (hi : i < 5) : elevations (tieSta e) i = e := by
  interval_cases i <;> rfl

theorem tie_same (e z : ℝ) : Same 5 swap01 (adMatrix (tieSta e)) (adMatrix (tieSta' e)) (gridDist (tieSta e) (tieCell z))
    (gridDist (tieSta' e) (tieCell z)) (elevations (tieSta e)) (elevations (tieSta' e)) :=
  same_of (sta := tieSta e) (sta' := tieSta' e) rfl (tieCell z) swap01_renumbers (tie_get e)

theorem tie_places (e : ℝ) : Places (tieSta e) ∧ Places (tieSta' e) := by
  constructor <;> norm_num [Places, tieSta, tieSta']

/-- The equations with the tabulated distances. -/
theorem tie_system (e z : ℝ) (flag : Nat → Bool) (v : Nat → ℝ) (mu : ℝ)
    (h : ∀ m < 5, flag m = true → tieAd m 0 * v 0 + tieAd m 1 * v 1 + tieAd m 2 * v 2 + tieAd m 3 * v 3 + tieAd m 4 * v 4 + mu = tieD m)
    (h1 : v 0 + v 1 + v 2 + v 3 + v 4 = 1) (h2 : ∀ n < 5, flag n = false → v n = 0) :
    System 5 (adMatrix (tieSta e)) (gridDist (tieSta e) (tieCell z)) flag v mu := by
  refine ⟨fun m hm hf => ?_, by simpa [sum_range_succ] using h1, h2⟩
  rw [tie_d e z m hm, ← h m hm hf]
  simp only [sum_range_succ, sum_range_zero, zero_add]
  rw [tie_ad e m 0 hm (by norm_num), tie_ad e m 1 hm (by norm_num), tie_ad e m 2 hm (by norm_num), tie_ad e m 3 hm (by norm_num),
    tie_ad e m 4 hm (by norm_num)]

noncomputable def tieAll (n : Nat) : ℝ := [-40 / 3953, -3 / 43483, 39174 / 43483, 216 / 3953, 216 / 3953].getD n 0
noncomputable def tieFour (n : Nat) : ℝ := [0, 1 / 1639, 1462 / 1639, 8 / 149, 8 / 149].getD n 0
noncomputable def tieFour' (n : Nat) : ℝ := [-10 / 989, 0, 891 / 989, 54 / 989, 54 / 989].getD n 0
noncomputable def tieThree (n : Nat) : ℝ := [0, 0, 33 / 37, 2 / 37, 2 / 37].getD n 0

/-- C139 fails: five stations at one elevation above the sea and at different places. In one order a station gets the
weight 1/1639; with it moved from the second to the first place in the list it gets none. -/
theorem C139_tie_fails (mem mem' : Mem ℝ) (e z : ℝ) (he : 0 < e) : ∃ w w',
    krige mem 5 (adMatrix (tieSta e)) (gridDist (tieSta e) (tieCell z)) (elevations (tieSta e)) = .weights w ∧
    krige mem' 5 (adMatrix (tieSta' e)) (gridDist (tieSta' e) (tieCell z)) (elevations (tieSta' e)) = .weights w' ∧
    w 1 = 1 / 1639 ∧ w' 0 = 0 := by
  have hd : ∀ m < 5, 0 ≤ gridDist (tieSta e) (tieCell z) m := fun m _ => gridDist_nonneg _ _ m
  have hd' : ∀ m < 5, 0 ≤ gridDist (tieSta' e) (tieCell z) m := fun m _ => gridDist_nonneg _ _ m
  obtain ⟨w, h, -⟩ := C56_distinct_partial mem (tieSta e) (tieCell z) (by simp [tieSta]) fun i j hi hj => places_index (tie_places e).1 i j hi hj
  obtain ⟨w', h', -⟩ := C56_distinct_partial mem' (tieSta' e) (tieCell z) (by simp [tieSta']) fun i j hi hj =>
    places_index (tie_places e).2 i j hi hj
  have hall : ∀ flag : Nat → Bool, (∀ i < 5, flag i = true) →
      System 5 (adMatrix (tieSta e)) (gridDist (tieSta e) (tieCell z)) flag tieAll (-10800 / 3953) := by
    intro flag hf
    refine tie_system e z flag _ _ (fun m hm _ => ?_) ?_ fun n hn h0 => ?_
    · interval_cases m <;> norm_num [tieAd, tieRow, tieD, tieAll]
    · norm_num [tieAll]
    · rw [hf n hn] at h0; cases h0
  have hpos : ∀ i < 5, 0 < elevations (tieSta e) i := fun i hi => by rw [tie_e e i hi]; exact he
  have hpos' : ∀ i < 5, elevations (tieSta' e) i = e := fun i hi => by
    rw [(tie_same e z).e i hi, tie_e e _ (swap01_renumbers.lt i hi)]
  refine ⟨w, w', h, h', ?_, ?_⟩
  · obtain ⟨flag, hf, hel⟩ := first_round mem 5 _ _ _ w tieAll _ hd h hall 0 (by norm_num) (by norm_num [tieAll]) (hpos 0 (by norm_num))
      (fun k hk _ => by rw [tie_e e k hk, tie_e e 0 (by norm_num)]) (fun k hk => by omega)
    have hs : System 5 (adMatrix (tieSta e)) (gridDist (tieSta e) (tieCell z)) flag tieFour (-560 / 149) := by
      refine tie_system e z flag _ _ (fun m hm hfm => ?_) (by norm_num [tieFour]) fun n hn h0 => ?_
      · have := (hf m hm).1 hfm
        interval_cases m <;> first | (exact absurd rfl this) | norm_num [tieAd, tieRow, tieD, tieFour]
      · by_cases q : n = 0
        · rw [q]; rfl
        · rw [(hf n hn).2 q] at h0; cases h0
    rw [elim_done hel hs (fun i hi => by interval_cases i <;> norm_num [tieFour]) 1 (by norm_num)]
    rfl
  · have hall' : ∀ flag : Nat → Bool, (∀ i < 5, flag i = true) →
        System 5 (adMatrix (tieSta' e)) (gridDist (tieSta' e) (tieCell z)) flag (tieAll ∘ swap01) (-10800 / 3953) := fun flag hf =>
      system_order swap01_renumbers (tie_same e z).ad (tie_same e z).d (flag := fun _ => true) (fun i hi => hf i hi) (hall _ fun _ _ => rfl)
    obtain ⟨flag, hf, hel⟩ := first_round mem' 5 _ _ _ w' _ _ hd' h' hall' 0 (by norm_num) (by norm_num [tieAll, swap01])
      (by rw [hpos' 0 (by norm_num)]; exact he)
      (fun k hk _ => by rw [hpos' k hk, hpos' 0 (by norm_num)]) (fun k hk => by omega)
    have hs : System 5 (adMatrix (tieSta' e)) (gridDist (tieSta' e) (tieCell z)) flag (tieFour' ∘ swap01) (-2712 / 989) := by
      refine system_order swap01_renumbers (tie_same e z).ad (tie_same e z).d (flag := flag ∘ swap01) (fun i hi => ?_) ?_
      · simp only [Function.comp, swap01_renumbers.left i hi]
      · refine tie_system e z _ _ _ (fun m hm hfm => ?_) (by norm_num [tieFour']) fun n hn h0 => ?_
        · have := (hf _ (swap01_renumbers.lt m hm)).1 hfm
          interval_cases m <;> first | (exact absurd rfl this) | norm_num [tieAd, tieRow, tieD, tieFour']
        · by_cases q : n = 1
          · rw [q]; rfl
          · rw [Function.comp, (hf _ (swap01_renumbers.lt n hn)).2 (by interval_cases n <;> simp_all [swap01])] at h0; cases h0
    have hel2 := elim_next hel hs (m := 1) (by norm_num) (by norm_num [tieFour', swap01]) (by rw [hpos' 1 (by norm_num)]; exact he)
      (fun i hi hne => by interval_cases i <;> first | (exact absurd rfl hne) | norm_num [tieFour', swap01])
    have hf2 : ∀ n < 5, put flag 1 false n = true ↔ n ≠ 0 ∧ n ≠ 1 := fun n hn => by
      unfold put
      by_cases q : n = 1
      · simp [q]
      · simp [q, hf n hn]
    have hs2 : System 5 (adMatrix (tieSta' e)) (gridDist (tieSta' e) (tieCell z)) (put flag 1 false) (tieThree ∘ swap01) (-136 / 37) := by
      refine system_order swap01_renumbers (tie_same e z).ad (tie_same e z).d (flag := put flag 1 false ∘ swap01) (fun i hi => ?_) ?_
      · simp only [Function.comp, swap01_renumbers.left i hi]
      · refine tie_system e z _ _ _ (fun m hm hfm => ?_) (by norm_num [tieThree]) fun n hn h0 => ?_
        · have := (hf2 _ (swap01_renumbers.lt m hm)).1 hfm
          interval_cases m <;> first | (exact absurd rfl this.1) | (exact absurd rfl this.2) | norm_num [tieAd, tieRow, tieD, tieThree]
        · by_cases q : n = 0
          · rw [q]; rfl
          · by_cases q1 : n = 1
            · rw [q1]; rfl
            · rw [Function.comp, (hf2 _ (swap01_renumbers.lt n hn)).2 (by interval_cases n <;> simp_all [swap01])] at h0; cases h0
    rw [elim_done hel2 hs2 (fun i hi => by interval_cases i <;> norm_num [tieThree, swap01]) 0 (by norm_num)]
    rfl

/-- The full claim about the weights: stations at different places above the sea, in another order. -/
def C139_full : Prop := ∀ (mem mem' : Mem ℝ) (sta sta' : List Station) (g : Cell) (σ τ : Nat → Nat) (w w' : Nat → ℝ),
  Renumbers sta.length σ τ → sta'.length = sta.length → (∀ i < sta.length, sta'[i]? = sta[σ i]?) → Places sta →
  (∀ s ∈ sta, 0 < s.z) → krige mem sta.length (adMatrix sta) (gridDist sta g) (elevations sta) = .weights w →
  krige mem' sta'.length (adMatrix sta') (gridDist sta' g) (elevations sta') = .weights w' → ∀ i < sta.length, w' i = w (σ i)

theorem C139_fails : ¬ C139_full := by
  intro h
  let mem : Mem ℝ := ⟨fun _ _ _ => 0, fun _ => ⟨fun _ => 0, fun _ => 0, 0⟩, fun _ => false, fun _ => 0⟩
  obtain ⟨w, w', h1, h2, h3, h4⟩ := C139_tie_fails mem mem 1 0 one_pos
  have := h mem mem (tieSta 1) (tieSta' 1) (tieCell 0) swap01 swap01 w w' swap01_renumbers rfl (tie_get 1) (tie_places 1).1
    (by simp [tieSta]) h1 h2 0 (by norm_num [tieSta])
  rw [h4] at this
  norm_num [swap01] at this
  rw [h3] at this
  norm_num at this

end ties

/-! ### The measured wind -/

section wind
open Verif.WindFill
open Verif.Utils (cell)
variable {K : Type} [Field K] [LinearOrder K] [IsStrictOrderedRing K]

omit [Field K] [LinearOrder K] [IsStrictOrderedRing K] in
theorem setCell_comm (img : Image K) (p q : Nat × Nat) (v w : Option K) (h : p ≠ q) :
    setCell (setCell img p v) q w = setCell (setCell img q w) p v := by
  obtain ⟨y, x⟩ := p
  obtain ⟨y', x'⟩ := q
  unfold setCell
  apply List.ext_getElem?
  intro i
  simp only [List.getElem?_modify]
  cases img[i]? with
  | none => rfl
  | some row =>
    by_cases h1 : y = i <;> by_cases h2 : y' = i <;> simp [h1, h2]
    exact List.set_comm _ _ fun e => h (by rw [h1, h2, e])

omit [IsStrictOrderedRing K] in
/-- The measured wind is put into the image, the gaps are filled and the limits applied: the result is the same in every
order of the stations, if their wind is in the same order and every station has a pixel of its own. Missing: two stations
in one pixel (`C139_pixel_fails`); wind in another order than the stations (C106). -/
theorem C139_wind_partial (lo hi : Option K) (sta sta' : List (Csv.Name × (Nat × Nat))) (speed speed' : List (Csv.Name × Option K))
    (img : Image K) (hl : speed.length = sta.length) (hl' : speed'.length = sta'.length)
    (h : (sta.zip speed).Perm (sta'.zip speed')) (hn : (sta.map (·.2)).Nodup) :
    finish lo hi sta speed img = finish lo hi sta' speed' img := by
  suffices hp : putStations sta speed img = putStations sta' speed' img by unfold finish; rw [hp]
  unfold putStations
  rw [if_pos hl, if_pos hl']
  congr 1
  have hz : ∀ (sta : List (Csv.Name × (Nat × Nat))) (speed : List (Csv.Name × Option K)),
      List.zip (sta.map (·.2)) (speed.map (·.2)) = (sta.zip speed).map fun q => (q.1.2, q.2.2) := by
    intro sta speed
    rw [List.zip_map]
    rfl
  rw [hz, hz]
  have hnd : (((sta.zip speed).map fun q => (q.1.2, q.2.2)).map Prod.fst).Nodup := by
    have : ((sta.zip speed).map fun q => (q.1.2, q.2.2)).map Prod.fst = sta.map (·.2) := by
      rw [← hz, List.map_fst_zip (by simp [hl])]
    rw [this]; exact hn
  refine (h.map _).foldl_eq' (fun x hx y hy z => ?_) img
  by_cases e : x.1 = y.1
  · rw [List.inj_on_of_nodup_map hnd hx hy e]
  · exact setCell_comm z _ _ _ _ e

/-- C139 fails: of two stations in one pixel the one listed last counts. -/
theorem C139_pixel_fails (a b : Csv.Name) (p : Nat × Nat) (v w : Option K) (img : Image K) (hp : Inside img p) :
    (∃ m, putStations [(a, p), (b, p)] [(a, v), (b, w)] img = .ok m ∧ At m p = some w) ∧
    ∃ m, putStations [(b, p), (a, p)] [(b, w), (a, v)] img = .ok m ∧ At m p = some v := by
  obtain ⟨c, hc⟩ := hp
  refine ⟨⟨_, rfl, ?_⟩, ⟨_, rfl, ?_⟩⟩ <;>
  · simp only [List.map_cons, List.map_nil, List.zip_cons_cons, List.zip_nil_right, List.foldl_cons, List.foldl_nil, At]
    rw [cell_setCell, if_pos rfl, cell_setCell, if_pos rfl, show cell img p.1 p.2 = some c from hc]
    rfl

end wind

/-! ### Cases -/

section cases
open Verif.Krige

/-- Three stations, the second one without data. -/
noncomputable def north : Station := ⟨0, 1, 100, some 3⟩
noncomputable def east : Station := ⟨1, 0, 200, none⟩
noncomputable def south : Station := ⟨0, -1, 300, some 5⟩

example (p : ℝ) (grid : List Cell) : calculateIDW p grid [north, east, south] = calculateIDW p grid [south, north, east] :=
  C139_idw p grid _ _ (List.isRotated_append.perm : ([north, east] ++ [south]).Perm ([south] ++ [north, east]))

example (flag : Int) (p : ℝ) (grid : List Cell) :
    detrendedIDW closedForm flag p grid [north, east, south] = detrendedIDW closedForm flag p grid [south, north, east] :=
  C139_detrended_partial closedForm closedForm_least flag p grid _ _
    (List.isRotated_append.perm : ([north, east] ++ [south]).Perm ([south] ++ [north, east]))
    ⟨north, by simp, south, by simp, rfl, rfl, by norm_num [north, south]⟩

/-- Two steps of kriging, the second one with a gap. -/
example (mem mem' : Mem ℝ) (flag : Int) (grid : List Cell) (a b c d e : ℝ) : ∃ imgs,
    runDK mem closedForm flag [north, east, south] grid Cache.new [[some a, some b, some c], [some d, none, some e]] = some imgs ∧
    runDK mem' closedForm flag [south, north, east] grid Cache.new [[some c, some a, some b], [some e, some d, none]] = some imgs := by
  refine C139_kriging_partial mem mem' closedForm closedForm_least flag _ _ grid _ _ ?_ ?_ ?_ ?_
  · have rot : ∀ x y z : Station × Option ℝ, [x, y, z].Perm [z, x, y] := fun x y z =>
      (List.isRotated_append.perm : ([x, y] ++ [z]).Perm ([z] ++ [x, y]))
    exact .cons (rot _ _ _) (.cons (rot _ _ _) .nil)
  · simp [withValue, Places, north, east, south]
    norm_num
  · simp [withValue, Elevations, north, east, south]
  · intro x hx
    simp only [List.mem_cons, List.not_mem_nil, or_false] at hx
    rcases hx with rfl | rfl
    · exact ⟨_, List.mem_cons_self, _, List.mem_cons_of_mem _ List.mem_cons_self, rfl, rfl, by norm_num [north, east]⟩
    · exact ⟨_, List.mem_cons_self, _, List.mem_cons_of_mem _ (List.mem_cons_of_mem _ List.mem_cons_self), rfl, rfl,
        by norm_num [north, south]⟩

/-- Two stations in two pixels. -/
example (a b : Csv.Name) (img : WindFill.Image ℚ) : WindFill.finish none none [(a, (0, 1)), (b, (1, 0))] [(a, some 3), (b, some 4)] img =
    WindFill.finish none none [(b, (1, 0)), (a, (0, 1))] [(b, some 4), (a, some 3)] img :=
  C139_wind_partial none none _ _ _ _ img rfl rfl (List.Perm.swap _ _ _) (by simp)

example (a b : Csv.Name) : ∃ m, WindFill.putStations [(a, (0, 0)), (b, (0, 0))] [(a, some 3), (b, some (4 : ℚ))] [[none]] = .ok m ∧
    WindFill.At m (0, 0) = some (some 4) := (C139_pixel_fails a b (0, 0) _ _ _ ⟨none, rfl⟩).1

end cases

end Verif.Order
