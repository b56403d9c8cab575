import Verif.InfluenceProps

/-!
What a missing reading at a station does to the image (C181): inverse distance weighting with and without elevation trend. No new model.
-/

namespace Verif.Idw

/-- The stations with the reading of one of them given, or missing. -/
def withReading (a b : List Station) (s : Cell) (r : Option ℝ) : List Station := a ++ ⟨s.x, s.y, s.z, r⟩ :: b

/-- The inverse distance of a cell to the station. -/
noncomputable def pull (p : ℝ) (g s : Cell) : ℝ := 1 / Real.sqrt ((g.x - s.x) ^ 2 + (g.y - s.y) ^ 2) ^ p

/-- The part of the station in the weights of all stations with data. -/
noncomputable def share (p : ℝ) (g s : Cell) (others : List Station) : ℝ :=
  pull p g s / (pull p g s + ((known others).map fun q => 1 / mapDist g q.1 ^ p).sum)

/-- C181 in full: a missing reading changes no cell by more than the range of the readings. -/
def C181_full : Prop :=
  ∀ (fit : List (ℝ × ℝ) → ℝ × ℝ) (flag : Int) (p lo hi r : ℝ) (grid : List Cell) (a b : List Station) (s : Cell) (img img' : List Ext), LeastSquares fit → 0 < p →
    (∀ t ∈ withReading a b s (some r), ∀ x, t.val = some x → lo ≤ x ∧ x ≤ hi) →
    detrendedIDW fit flag p grid (withReading a b s (some r)) = .ok img → detrendedIDW fit flag p grid (withReading a b s none) = .ok img' →
    ∀ (i : Nat) (v v' : ℝ), img[i]? = some (.fin v) → img'[i]? = some (.fin v') → |v' - v| ≤ hi - lo

theorem known_append (a b : List Station) : known (a ++ b) = known a ++ known b := by unfold known; rw [List.filterMap_append]

theorem known_with (a b : List Station) (s : Cell) (r : ℝ) :
    known (withReading a b s (some r)) = known a ++ (⟨s.x, s.y, s.z, some r⟩, r) :: known b := by
  unfold withReading
  rw [known_append]
  rfl

theorem known_without (a b : List Station) (s : Cell) : known (withReading a b s none) = known (a ++ b) := by
  unfold withReading
  rw [known_append, known_append]
  rfl

theorem pull_pos (p : ℝ) (g s : Cell) (h : ¬ (g.x = s.x ∧ g.y = s.y)) : 0 < pull p g s := by
  have : 0 < (g.x - s.x) ^ 2 + (g.y - s.y) ^ 2 := by
    by_contra hn
    have hx := sq_nonneg (g.x - s.x)
    have hy := sq_nonneg (g.y - s.y)
    have x0 : (g.x - s.x) ^ 2 = 0 := by linarith
    have y0 : (g.y - s.y) ^ 2 = 0 := by linarith
    exact h ⟨by linarith [pow_eq_zero_iff two_ne_zero |>.1 x0], by linarith [pow_eq_zero_iff two_ne_zero |>.1 y0]⟩
  have := Real.sqrt_pos.2 this
  unfold pull
  positivity

/-- Without elevation trend: the cell with the reading is the cell without it, moved towards the reading by the share of the station. So nothing changes exactly where
the others already give the reading. Missing: cells at a station (C53). -/
theorem C181_share_partial (p r : ℝ) (grid : List Cell) (a b : List Station) (s : Cell) (img img' : List Ext)
    (h : calculateIDW p grid (withReading a b s (some r)) = .ok img) (h' : calculateIDW p grid (withReading a b s none) = .ok img')
    (i : Nat) (g : Cell) (hg : grid[i]? = some g) (hc : NoStationAt (a ++ b) g) (hs : ¬ (g.x = s.x ∧ g.y = s.y)) (hk : SomeData (a ++ b)) :
    ∃ v v', img[i]? = some (.fin v) ∧ img'[i]? = some (.fin v') ∧ v - v' = share p g s (a ++ b) * (r - v') ∧
      0 < share p g s (a ++ b) ∧ share p g s (a ++ b) < 1 ∧ (v = v' ↔ r = v') := by
  have split : ∀ (o : Option ℝ) (t : Station), t ∈ withReading a b s o → t = ⟨s.x, s.y, s.z, o⟩ ∨ t ∈ a ++ b := by
    intro o t ht
    unfold withReading at ht
    simp only [List.mem_append, List.mem_cons] at ht ⊢
    tauto
  have into : ∀ (o : Option ℝ) (t : Station), t ∈ a ++ b → t ∈ withReading a b s o := by
    intro o t ht
    unfold withReading
    simp only [List.mem_append, List.mem_cons] at ht ⊢
    tauto
  have c1 : ∀ o, NoStationAt (withReading a b s o) g := by
    intro o t ht hv
    rcases split o t ht with rfl | ht
    · exact hs
    · exact hc t ht hv
  have k1 : ∀ o, SomeData (withReading a b s o) := by
    intro o
    obtain ⟨t, ht, hv⟩ := hk
    exact ⟨t, into o t ht, hv⟩
  obtain ⟨v, e1, e2, e3⟩ := C53_formula_partial p grid _ img h i g hg (c1 _) (k1 _)
  obtain ⟨v', f1, f2, f3⟩ := C53_formula_partial p grid _ img' h' i g hg (c1 _) (k1 _)
  rw [known_with] at e2 e3
  rw [known_without, known_append] at f2 f3
  have hw := pull_pos p g s hs
  have ep : 1 / mapDist g ⟨s.x, s.y, s.z, some r⟩ ^ p = pull p g s := rfl
  unfold share
  rw [known_append]
  simp only [List.map_append, List.sum_append, List.map_cons, List.sum_cons, ep] at e2 e3 f2 f3 ⊢
  generalize ((known a).map fun q => 1 / mapDist g q.1 ^ p).sum = A at *
  generalize ((known b).map fun q => 1 / mapDist g q.1 ^ p).sum = B at *
  generalize ((known a).map fun q => 1 / mapDist g q.1 ^ p * q.2).sum = X at *
  generalize ((known b).map fun q => 1 / mapDist g q.1 ^ p * q.2).sum = Y at *
  generalize pull p g s = w at *
  have hW : 0 < w + (A + B) := by linarith
  have key : (v - v') * (w + (A + B)) = w * (r - v') := by linear_combination e3 - f3
  have eq : v - v' = w / (w + (A + B)) * (r - v') := by
    rw [div_mul_eq_mul_div, eq_div_iff hW.ne']
    exact key
  have hpos : 0 < w / (w + (A + B)) := div_pos hw hW
  refine ⟨v, v', e1, f1, eq, hpos, (div_lt_one hW).2 (by linarith), ?_, ?_⟩
  · intro h
    rw [h, sub_self] at eq
    rcases mul_eq_zero.1 eq.symm with h0 | h0
    · exact absurd h0 hpos.ne'
    · linarith
  · intro h
    rw [h, sub_self, mul_zero] at eq
    linarith

/-- Without elevation trend: a missing reading changes no cell by more than the share of the station times the range of the readings, in particular by no more than
the range. Missing: cells at a station (C53). -/
theorem C181_range_partial (p r lo hi : ℝ) (grid : List Cell) (a b : List Station) (s : Cell) (img img' : List Ext)
    (hb : ∀ t ∈ withReading a b s (some r), ∀ x, t.val = some x → lo ≤ x ∧ x ≤ hi)
    (h : calculateIDW p grid (withReading a b s (some r)) = .ok img) (h' : calculateIDW p grid (withReading a b s none) = .ok img')
    (i : Nat) (g : Cell) (hg : grid[i]? = some g) (hc : NoStationAt (a ++ b) g) (hs : ¬ (g.x = s.x ∧ g.y = s.y)) (hk : SomeData (a ++ b)) :
    ∃ v v', img[i]? = some (.fin v) ∧ img'[i]? = some (.fin v') ∧ |v' - v| ≤ share p g s (a ++ b) * (hi - lo) ∧ |v' - v| ≤ hi - lo := by
  obtain ⟨v, v', e1, e2, e3, e4, e5, -⟩ := C181_share_partial p r grid a b s img img' h h' i g hg hc hs hk
  have hr := hb ⟨s.x, s.y, s.z, some r⟩ (by unfold withReading; simp) r rfl
  obtain ⟨u, f1, f2, f3⟩ := C53_between_partial p grid _ img' h' i g hg (by
      intro t ht hv
      unfold withReading at ht
      simp only [List.mem_append, List.mem_cons] at ht
      rcases ht with ht | rfl | ht
      · exact hc t (List.mem_append_left _ ht) hv
      · exact hs
      · exact hc t (List.mem_append_right _ ht) hv) (by
      obtain ⟨t, ht, hv⟩ := hk
      refine ⟨t, ?_, hv⟩
      unfold withReading
      simp only [List.mem_append, List.mem_cons] at ht ⊢
      tauto) lo hi (by
      intro t x ht hx
      refine hb t ?_ x hx
      unfold withReading at ht ⊢
      simp only [List.mem_append, List.mem_cons] at ht ⊢
      rcases ht with ht | rfl | ht
      · exact .inl ht
      · simp at hx
      · exact .inr (.inr ht))
  rw [e2, Option.some.injEq, Ext.fin.injEq] at f1
  subst f1
  have hd : |r - v'| ≤ hi - lo := _root_.abs_le.2 ⟨by linarith [hr.1], by linarith [hr.2]⟩
  have : |v' - v| ≤ share p g s (a ++ b) * (hi - lo) := by
    rw [abs_sub_comm, e3, abs_mul, abs_of_pos e4]
    exact mul_le_mul_of_nonneg_left hd e4.le
  refine ⟨v, v', e1, e2, this, this.trans ?_⟩
  have h0 := (abs_nonneg _).trans hd
  nlinarith

/-! ### With elevation trend -/

/-- The two stations that remain and the one that fails. -/
def kept : List Station := [⟨0, 0, 0, some 0⟩, ⟨10, 0, 1, some 1⟩]
def lost : Cell := ⟨0, 10, 2⟩

noncomputable def lostGauges : List Gauge := [⟨0, 0, 0, 0, 0, 0⟩, ⟨10, 0, 1, 0, 1, 1⟩, ⟨0, 10, 2, 0, -3, -3⟩]

theorem lost_slope (fit : List (ℝ × ℝ) → ℝ × ℝ) (hf : LeastSquares fit) : (fit (points (withReading kept [] lost (some (-3))))).1 = -3 / 2 := by
  have h := line_unique fit hf lostGauges Gauge.before (by norm_num [spread, total, lostGauges])
  have e : points (withReading kept [] lost (some (-3))) = lostGauges.map fun q => (q.z, q.before) := rfl
  rw [e, h]
  norm_num [spread, total, lostGauges]

/-- With a trend that may only rise with elevation: readings between -3 and 1, and a reading that goes missing changes a cell by more than any given amount. The trend of the
three readings falls and is dropped; the trend of the two that remain rises. -/
theorem C181_trend_fails (fit : List (ℝ × ℝ) → ℝ × ℝ) (hf : LeastSquares fit) (p : ℝ) (hp : 0 < p) (K : ℝ) (hK : 0 ≤ K) :
    (∀ t ∈ withReading kept [] lost (some (-3)), ∀ x, t.val = some x → -3 ≤ x ∧ x ≤ 1) ∧
    ∃ img img' v v', detrendedIDW fit 1 p [⟨5, 5, K + 2⟩] (withReading kept [] lost (some (-3))) = .ok img ∧
      detrendedIDW fit 1 p [⟨5, 5, K + 2⟩] (withReading kept [] lost none) = .ok img' ∧
      img[0]? = some (.fin v) ∧ img'[0]? = some (.fin v') ∧ K < |v' - v| := by
  have hb : ∀ t ∈ withReading kept [] lost (some (-3)), ∀ x, t.val = some x → -3 ≤ x ∧ x ≤ 1 := by
    intro t ht x hx
    simp only [withReading, kept, lost, List.cons_append, List.nil_append, List.mem_cons, List.not_mem_nil, or_false] at ht
    rcases ht with rfl | rfl | rfl <;> simp only [Option.some.injEq] at hx <;> subst hx <;> norm_num
  refine ⟨hb, ?_⟩
  obtain ⟨img, hi⟩ := calculate_ok p [⟨5, 5, K + 2⟩] (withReading kept [] lost (some (-3))) (by simp) (by simp [withReading])
  have hd := C54_no_trend_plain fit 1 p [⟨5, 5, K + 2⟩] _ (by rw [lost_slope fit hf]; norm_num [Allowed]) img hi
  obtain ⟨v, e1, e2, e3⟩ := C53_between_partial p _ _ img hi 0 ⟨5, 5, K + 2⟩ rfl (by
    intro t ht _
    simp only [withReading, kept, lost, List.cons_append, List.nil_append, List.mem_cons, List.not_mem_nil, or_false] at ht
    rcases ht with rfl | rfl | rfl <;> norm_num) ⟨⟨0, 0, 0, some 0⟩, by simp [withReading, kept], by simp⟩ (-3) 1 fun t x ht hx => hb t ht x hx
  obtain ⟨img', hi', f1⟩ := C54_affine_exact fit hf 1 p hp [⟨5, 5, K + 2⟩] (withReading kept [] lost none) 1 0 (by
    constructor
    · intro u hu x hx
      simp only [withReading, kept, lost, List.cons_append, List.nil_append, List.mem_cons, List.not_mem_nil, or_false] at hu
      rcases hu with rfl | rfl | rfl <;> simp at hx <;> rw [← hx] <;> norm_num
    · exact ⟨⟨0, 0, 0, some 0⟩, by simp [withReading, kept], ⟨10, 0, 1, some 1⟩, by simp [withReading, kept], by simp, by simp, by norm_num⟩) (by norm_num [Allowed]) 0 ⟨5, 5, K + 2⟩ rfl
  refine ⟨img, img', v, _, hd, hi', e1, f1, ?_⟩
  refine lt_of_lt_of_le ?_ (le_abs_self _)
  simp only
  linarith

theorem C181_fails : ¬ C181_full := by
  intro hall
  obtain ⟨hb, img, img', v, v', h1, h2, h3, h4, h5⟩ := C181_trend_fails closedForm closedForm_least 2 (by norm_num) 4 (by norm_num)
  have := hall closedForm 1 2 (-3) 1 (-3) _ kept [] lost img img' closedForm_least (by norm_num) hb h1 h2 0 v v' h3 h4
  linarith

/-- A reading of 11 that goes missing: the cell at the origin moves from between to the remaining reading. -/
example : ∃ img img' v v', calculateIDW 2 [⟨0, 0, 1000⟩] (withReading [⟨3, 4, 2000, some 5⟩] [] ⟨6, 8, 2500⟩ (some 11)) = .ok img ∧
    calculateIDW 2 [⟨0, 0, 1000⟩] (withReading [⟨3, 4, 2000, some 5⟩] [] ⟨6, 8, 2500⟩ none) = .ok img' ∧
    img[0]? = some (.fin v) ∧ img'[0]? = some (.fin v') ∧ |v' - v| ≤ 11 - 5 ∧ v ≠ v' := by
  obtain ⟨img, h⟩ := calculate_ok 2 [⟨0, 0, 1000⟩] (withReading [⟨3, 4, 2000, some 5⟩] [] ⟨6, 8, 2500⟩ (some 11)) (by simp) (by simp [withReading])
  obtain ⟨img', h'⟩ := calculate_ok 2 [⟨0, 0, 1000⟩] (withReading [⟨3, 4, 2000, some 5⟩] [] ⟨6, 8, 2500⟩ none) (by simp) (by simp [withReading])
  have hc : NoStationAt ([⟨3, 4, 2000, some 5⟩] ++ []) ⟨0, 0, 1000⟩ := by
    intro t ht _
    simp at ht
    subst ht
    norm_num
  have hk : SomeData ([⟨3, 4, 2000, some 5⟩] ++ []) := ⟨⟨3, 4, 2000, some 5⟩, by simp, by simp⟩
  obtain ⟨v, v', r1, r2, -, r3⟩ := C181_range_partial 2 11 5 11 _ [⟨3, 4, 2000, some 5⟩] [] ⟨6, 8, 2500⟩ img img' (by
    intro t ht x hx
    simp [withReading] at ht
    rcases ht with rfl | rfl <;> simp at hx <;> subst hx <;> norm_num) h h' 0 ⟨0, 0, 1000⟩ rfl hc (by norm_num) hk
  obtain ⟨u, u', q1, q2, q3, q4, q5, q6⟩ := C181_share_partial 2 11 _ [⟨3, 4, 2000, some 5⟩] [] ⟨6, 8, 2500⟩ img img' h h' 0 ⟨0, 0, 1000⟩ rfl hc (by norm_num) hk
  obtain ⟨x, w1, w2, w3⟩ := C53_between_partial 2 _ _ img' h' 0 ⟨0, 0, 1000⟩ rfl (by
    intro t ht _
    simp [withReading] at ht
    rcases ht with rfl | rfl <;> norm_num) ⟨⟨3, 4, 2000, some 5⟩, by simp [withReading], by simp⟩ 5 5 (by
    intro t x ht hx
    simp [withReading] at ht
    rcases ht with rfl | rfl <;> simp at hx
    subst hx; norm_num)
  refine ⟨img, img', v, v', h, h', r1, r2, r3, ?_⟩
  rw [r1, Option.some.injEq, Ext.fin.injEq] at q1
  rw [r2, Option.some.injEq, Ext.fin.injEq] at q2 w1
  subst q1 q2 w1
  intro hv
  have := q6.1 hv
  linarith

end Verif.Idw
