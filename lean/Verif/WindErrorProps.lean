import Verif.WindProps

/-! C187: what errors in the readings and in the slope do to the wind of a cell
(`smrf/distribute/wind/winstral.py:196-363`). -/

namespace Verif.Wind

/-- The claim at full strength: the wind of a cell changes at most in proportion to the error in the
upwind slope. -/
def C187_full : Prop :=
  ∀ factor : ℝ, 0 ≤ factor → ∃ L : ℝ, ∀ flat c c' : ℝ, 0 ≤ flat → |c| ≤ 32 → |c'| ≤ 32 →
    |cellWind factor flat c' - cellWind factor flat c| ≤ L * flat * |c' - c|

/-- Both slopes lie in one class of the relation. -/
def SameClass (c c' : ℝ) : Prop :=
  ((0 ≤ c ∧ c < 21.3) ∧ 0 ≤ c' ∧ c' < 21.3) ∨ ((21.3 < c ∧ c < 30.1) ∧ 21.3 < c' ∧ c' < 30.1) ∨
  (30.1 < c ∧ 30.1 < c') ∨ ((-21.3 < c ∧ c < 0) ∧ -21.3 < c' ∧ c' < 0) ∨
  ((-30.1 < c ∧ c < -21.3) ∧ -30.1 < c' ∧ c' < -21.3) ∨ (c < -30.1 ∧ c' < -30.1)

theorem gentle_rise (x y : ℝ) (hx : 0 ≤ x) (h : x ≤ y) (hy : y < 21.3) :
    enhancement x ≤ enhancement y ∧ enhancement y ≤ enhancement x + 0.31 * (y - x) := by
  rcases eq_or_lt_of_le h with rfl | h
  · simp
  refine ⟨enhancement_gentle x y hx h hy, ?_⟩
  unfold enhancement
  rw [if_neg (by linarith), if_neg (by linarith), if_neg (by linarith), if_neg (by linarith)]
  have : 0 ≤ (y - x) * (0.31 - (0.1031717 - 0.008003561 * (x + y) + 0.0003996581 * (x ^ 2 + x * y + y ^ 2))) := by
    apply mul_nonneg (by linarith)
    have a := mul_nonneg hx (sub_nonneg.2 (h.trans hy).le)
    have b := mul_nonneg (hx.trans h.le) (sub_nonneg.2 hy.le)
    have c := mul_nonneg hx (sub_nonneg.2 hy.le)
    nlinarith
  nlinarith

theorem steep_rise (x y : ℝ) (hx : 21.3 < x) (h : x ≤ y) (hy : y < 30.1) :
    enhancement x ≤ enhancement y ∧ enhancement y ≤ enhancement x + 0.31 * (y - x) := by
  rcases eq_or_lt_of_le h with rfl | h
  · simp
  refine ⟨enhancement_steep x y hx.le h hy, ?_⟩
  unfold enhancement
  rw [if_neg (by linarith), if_pos (by linarith), if_neg (by linarith), if_pos hx.le]
  have : 0 ≤ (y - x) * (0.31 - (-0.1678945 + 0.01927844 * (x + y) - 0.0003651592 * (x ^ 2 + x * y + y ^ 2))) := by
    apply mul_nonneg (by linarith)
    nlinarith [sq_nonneg (x - y), sq_nonneg (x + y - 50)]
  nlinarith

/-- The relation never raises the wind by more than a factor of 4.22. -/
theorem enhancement_le (c : ℝ) (h : 0 ≤ c) : enhancement c ≤ 4.22 := by
  rcases lt_or_ge c 21.3 with a | a
  · have := (gentle_rise 0 c le_rfl h a).2
    have hl : enhancement c ≤ 1 + c * (0.1031717 - 0.008003561 * c + 0.0003996581 * c ^ 2) := by
      unfold enhancement
      rw [if_neg (by linarith), if_neg (by linarith)]
      nlinarith
    have k : 0.1031717 - 0.008003561 * c + 0.0003996581 * c ^ 2 ≤ 0.15 := by
      have := mul_nonneg h (sub_nonneg.2 a.le)
      nlinarith
    have := mul_le_mul_of_nonneg_left k h
    linarith
  · rcases lt_or_ge c 30.1 with b | b
    · unfold enhancement
      rw [if_neg (by linarith), if_pos a]
      have k : 0 ≤ (30.1 - c) * (-0.1678945 + 0.01927844 * (30.1 + c) - 0.0003651592 * (30.1 ^ 2 + 30.1 * c + c ^ 2)) := by
        apply mul_nonneg (by linarith)
        have := mul_nonneg (sub_nonneg.2 a) (sub_nonneg.2 b.le)
        nlinarith
      nlinarith
    · unfold enhancement
      rw [if_pos b]; norm_num

/-- Sheltered and exposed cells from the rise of the relation. -/
theorem documented_near (factor flat c c' : ℝ) (hf : 0 ≤ factor) (hw : 0 ≤ flat) (hs : c < 0 ↔ c' < 0)
    (he : |enhancement (abs c') - enhancement (abs c)| ≤ 0.31 * |c' - c|) :
    |documented factor flat c' - documented factor flat c| ≤ 1.07985 * 0.31 * max 1 factor * flat * |c' - c| := by
  have n := abs_nonneg (c' - c)
  have m1 := le_max_left 1 factor
  have m2 := le_max_right 1 factor
  have m0 : 0 ≤ flat * (0.31 * |c' - c|) := by positivity
  by_cases h : c < 0
  · have h' := hs.1 h
    unfold documented
    rw [if_pos h, if_pos h']
    rw [abs_of_neg h, abs_of_neg h'] at he
    rw [← mul_sub, ← mul_sub, abs_mul, abs_mul, abs_of_nonneg (mul_nonneg hf hw), abs_of_pos (by norm_num)]
    have k1 := mul_le_mul_of_nonneg_left he (mul_nonneg hf hw)
    have k2 := mul_le_mul_of_nonneg_right m2 m0
    nlinarith
  · have h' : ¬ c' < 0 := fun q => h (hs.2 q)
    unfold documented
    rw [if_neg h, if_neg h']
    rw [abs_of_nonneg (not_lt.1 h), abs_of_nonneg (not_lt.1 h')] at he
    have p := enhancement_pos c (not_lt.1 h)
    have p' := enhancement_pos c' (not_lt.1 h')
    rw [← mul_sub, abs_mul, abs_of_pos (by norm_num)]
    have e : flat / enhancement c' - flat / enhancement c =
        flat * ((enhancement c - enhancement c') / (enhancement c * enhancement c')) := by
      rw [div_sub_div _ _ (by linarith) (by linarith), ← mul_div_assoc,
        div_eq_div_iff (mul_ne_zero (by linarith) (by linarith)) (mul_ne_zero (by linarith) (by linarith))]
      ring
    have k0 : 1 ≤ enhancement c * enhancement c' := by nlinarith
    have k1 : |flat / enhancement c' - flat / enhancement c| ≤ flat * (0.31 * |c' - c|) := by
      rw [e, abs_mul, abs_of_nonneg hw, abs_div, abs_of_pos (by linarith : 0 < enhancement c * enhancement c')]
      refine mul_le_mul_of_nonneg_left ?_ hw
      rw [abs_sub_comm]
      exact (div_le_self (abs_nonneg _) k0).trans he
    have k2 := mul_le_mul_of_nonneg_right m1 m0
    nlinarith

theorem class_rise (c c' : ℝ) (h : SameClass c c') (hl : |c| ≤ |c'|) :
    |enhancement (abs c') - enhancement (abs c)| ≤ 0.31 * (|c'| - |c|) := by
  have done (x y : ℝ) (h : enhancement x ≤ enhancement y ∧ enhancement y ≤ enhancement x + 0.31 * (y - x)) :
      |enhancement y - enhancement x| ≤ 0.31 * (y - x) := by
    rw [abs_of_nonneg (by linarith [h.1])]; linarith [h.2]
  have top (x y : ℝ) (hx : 30.1 < x) (hxy : x ≤ y) :
      enhancement x ≤ enhancement y ∧ enhancement y ≤ enhancement x + 0.31 * (y - x) := by
    unfold enhancement
    rw [if_pos hx.le, if_pos (by linarith)]
    constructor <;> linarith
  rcases h with ⟨⟨a, b⟩, a', b'⟩ | ⟨⟨a, b⟩, a', b'⟩ | ⟨a, a'⟩ | ⟨⟨a, b⟩, a', b'⟩ | ⟨⟨a, b⟩, a', b'⟩ | ⟨a, a'⟩
  · rw [abs_of_nonneg a, abs_of_nonneg a'] at *
    exact done _ _ (gentle_rise _ _ a hl b')
  · rw [abs_of_nonneg (by norm_num at a; linarith : 0 ≤ c), abs_of_nonneg (by norm_num at a'; linarith : 0 ≤ c')] at *
    exact done _ _ (steep_rise _ _ a hl b')
  · rw [abs_of_nonneg (by norm_num at a; linarith : 0 ≤ c), abs_of_nonneg (by norm_num at a'; linarith : 0 ≤ c')] at *
    exact done _ _ (top _ _ a hl)
  · rw [abs_of_neg b, abs_of_neg b'] at *
    exact done _ _ (gentle_rise _ _ (by linarith) hl (by linarith))
  · rw [abs_of_neg (by norm_num at b; linarith : c < 0), abs_of_neg (by norm_num at b'; linarith : c' < 0)] at *
    exact done _ _ (steep_rise _ _ (by linarith) hl (by linarith))
  · rw [abs_of_neg (by norm_num at a; linarith : c < 0), abs_of_neg (by norm_num at a'; linarith : c' < 0)] at *
    exact done _ _ (top _ _ (by linarith) hl)

theorem same_symm (c c' : ℝ) (h : SameClass c c') : SameClass c' c := by
  rcases h with ⟨a, b⟩ | ⟨a, b⟩ | ⟨a, b⟩ | ⟨a, b⟩ | ⟨a, b⟩ | ⟨a, b⟩
  · exact .inl ⟨b, a⟩
  · exact .inr (.inl ⟨b, a⟩)
  · exact .inr (.inr (.inl ⟨b, a⟩))
  · exact .inr (.inr (.inr (.inl ⟨b, a⟩)))
  · exact .inr (.inr (.inr (.inr (.inl ⟨b, a⟩))))
  · exact .inr (.inr (.inr (.inr (.inr ⟨b, a⟩))))

theorem class_inside (c c' : ℝ) (h : SameClass c c') : |c| ≠ 21.3 ∧ |c| ≠ 30.1 := by
  constructor <;> intro e <;> rcases abs_choice c with a | a <;> rw [a] at e <;>
    rcases h with ⟨⟨e1, e2⟩, -⟩ | ⟨⟨e1, e2⟩, -⟩ | ⟨e1, -⟩ | ⟨⟨e1, e2⟩, -⟩ | ⟨⟨e1, e2⟩, -⟩ | ⟨e1, -⟩ <;>
    norm_num at e e1 <;> try norm_num at e2
  all_goals linarith

theorem class_sign (c c' : ℝ) (h : SameClass c c') : c < 0 ↔ c' < 0 := by
  rcases h with ⟨⟨a, b⟩, a', b'⟩ | ⟨⟨a, b⟩, a', b'⟩ | ⟨a, a'⟩ | ⟨⟨a, b⟩, a', b'⟩ | ⟨⟨a, b⟩, a', b'⟩ | ⟨a, a'⟩ <;>
    norm_num at * <;> constructor <;> intro <;> linarith

/-- Part: within one class of the relation an error in the slope changes the wind of the cell in
proportion. -/
theorem C187_slope_partial (factor flat c c' : ℝ) (hf : 0 ≤ factor) (hw : 0 ≤ flat) (h : SameClass c c') :
    |cellWind factor flat c' - cellWind factor flat c| ≤ 1.07985 * 0.31 * max 1 factor * flat * |c' - c| := by
  have i := class_inside c c' h
  have i' := class_inside c' c (same_symm c c' h)
  rw [C60_documented_partial _ _ _ i.1 i.2, C60_documented_partial _ _ _ i'.1 i'.2]
  refine documented_near factor flat c c' hf hw (class_sign c c' h) ?_
  rcases le_total |c| |c'| with l | l
  · have := class_rise c c' h l
    have := abs_sub_abs_le_abs_sub c' c
    linarith
  · have := class_rise c' c (same_symm c c' h) l
    have := abs_sub_abs_le_abs_sub c c'
    rw [abs_sub_comm, abs_sub_comm c']
    linarith

/-- An error in the distributed wind changes the wind of a cell in proportion, at every slope. -/
theorem C187_flat (factor flat flat' c : ℝ) (hf : 0 ≤ factor) :
    |cellWind factor flat' c - cellWind factor flat c| ≤ 1.07985 * 4.22 * max 1 factor * |flat' - flat| := by
  have n := abs_nonneg (flat' - flat)
  have m1 := le_max_left 1 factor
  have m2 := le_max_right 1 factor
  by_cases g : |c| = 21.3 ∨ |c| = 30.1
  · rw [C60_gaps_fails _ _ _ g, C60_gaps_fails _ _ _ g, sub_self, abs_zero]
    positivity
  · rw [not_or] at g
    rw [C60_documented_partial _ _ _ g.1 g.2, C60_documented_partial _ _ _ g.1 g.2]
    unfold documented
    split
    · rename_i h
      have p := enhancement_pos (-c) (by linarith)
      have u := enhancement_le (-c) (by linarith)
      rw [show 1.07985 * (factor * flat' * enhancement (-c)) - 1.07985 * (factor * flat * enhancement (-c))
        = 1.07985 * (factor * enhancement (-c)) * (flat' - flat) by ring, abs_mul,
        abs_of_nonneg (by positivity)]
      refine mul_le_mul_of_nonneg_right ?_ n
      have : factor * enhancement (-c) ≤ max 1 factor * 4.22 := mul_le_mul m2 u (by linarith) (by linarith)
      linarith
    · rename_i h
      have p := enhancement_pos c (not_lt.1 h)
      rw [← mul_sub, ← sub_div, abs_mul, abs_of_pos (by norm_num), abs_div,
        abs_of_pos (by linarith : 0 < enhancement c)]
      have := div_le_self n p
      have := mul_le_mul_of_nonneg_right m1 n
      nlinarith

/-- An error in the reading of a station changes its wind on flat terrain in proportion, at every
slope. -/
theorem C187_station (v speed speed' : ℝ) :
    |flatten v speed' - flatten v speed| ≤ 4.22 * |speed' - speed| := by
  have n := abs_nonneg (speed' - speed)
  have b : 1 ≤ expVal |v| ∧ expVal |v| ≤ 4.22 := by
    have h0 := abs_nonneg v
    generalize |v| = x at h0
    unfold expVal
    by_cases a : 21.3 < x ∧ x < 30.0
    · rw [if_pos a]
      have e : steep x = enhancement x := by
        unfold steep enhancement
        rw [if_neg (by have := a.2; norm_num at this ⊢; linarith), if_pos a.1.le]; ring
      rw [e]
      exact ⟨enhancement_pos x h0, enhancement_le x h0⟩
    · rw [if_neg a]
      by_cases a' : 30.0 ≤ x
      · rw [if_pos a']; norm_num
      · rw [if_neg a']
        have hx : x ≤ 21.3 := by
          by_contra q
          exact a ⟨not_le.1 q, not_le.1 a'⟩
        unfold gentle
        have k0 := mul_nonneg h0 (sub_nonneg.2 hx)
        have k : 0 ≤ x * (0.1031717 - 0.008003561 * x + 0.0003996581 * x ^ 2) :=
          mul_nonneg h0 (by nlinarith [sq_nonneg (x - 10)])
        have k' : 0.1031717 - 0.008003561 * x + 0.0003996581 * x ^ 2 ≤ 0.15 := by nlinarith
        have := mul_le_mul_of_nonneg_left k' h0
        constructor <;> norm_num at * <;> nlinarith
  unfold flatten
  split
  · rw [← sub_mul, abs_mul, abs_of_pos (by linarith : 0 < expVal |v|)]
    nlinarith [b.2]
  · rw [← sub_div, abs_div, abs_of_pos (by linarith : 0 < expVal |v|)]
    have := div_le_self n b.1
    linarith

/-- A station's reading, used as it is for a cell, is raised by no more than a factor of 20. -/
theorem C187_reading (factor v c speed speed' : ℝ) (hf : 0 ≤ factor) (hf1 : factor ≤ 1) :
    |cellWind factor (flatten v speed') c - cellWind factor (flatten v speed) c| ≤ 20 * |speed' - speed| := by
  have a := C187_flat factor (flatten v speed) (flatten v speed') c hf
  have b := C187_station v speed speed'
  rw [max_eq_left hf1] at a
  have := abs_nonneg (speed' - speed)
  linarith

/-- At a slope of 21.3 degrees the wind drops to zero, however close the other slope. -/
theorem C187_gap_fails (factor flat e : ℝ) (hw : 0 ≤ flat) (he : 0 < e) (he' : e < 8) :
    cellWind factor flat 21.3 = 0 ∧ flat / 4 ≤ cellWind factor flat (21.3 + e) := by
  refine ⟨C60_gaps_fails _ _ _ (.inl (by norm_num)), ?_⟩
  have h0 : (0 : ℝ) ≤ 21.3 + e := by norm_num; linarith
  rw [C60_documented_partial _ _ _ (by rw [abs_of_nonneg h0]; linarith)
    (by rw [abs_of_nonneg h0]; norm_num; intro h; linarith)]
  unfold documented
  rw [if_neg (by linarith)]
  have p := enhancement_pos (21.3 + e) h0
  have u := enhancement_le (21.3 + e) h0
  have : flat / 4.22 ≤ flat / enhancement (21.3 + e) := div_le_div_of_nonneg_left hw (by linarith) u
  have e1 : flat / 4.22 * 4.22 = flat := div_mul_cancel₀ _ (by norm_num)
  nlinarith

/-- With the reduction factor 0.7 a slightly exposed cell gets a quarter less wind than level ground. -/
theorem C187_level_fails (flat e : ℝ) (hw : 0 ≤ flat) (he : 0 < e) (he' : e ≤ 1 / 10) :
    cellWind 0.7 flat 0 = 1.07985 * flat ∧ cellWind 0.7 flat (-e) ≤ 0.75 * (1.07985 * flat) := by
  constructor
  · unfold cellWind gentle; norm_num; ring
  · rw [C60_documented_partial _ _ _ (by rw [abs_neg, abs_of_pos he]; norm_num; intro h; linarith)
      (by rw [abs_neg, abs_of_pos he]; norm_num; intro h; linarith)]
    unfold documented
    rw [if_pos (by linarith), neg_neg]
    have := (gentle_rise 0 e le_rfl he.le (by norm_num; linarith)).2
    have z : enhancement (0 : ℝ) = 1 := by unfold enhancement; norm_num
    rw [z] at this
    have k : enhancement e ≤ 1.05 := by linarith
    have := mul_le_mul_of_nonneg_left k hw
    nlinarith

theorem C187_fails : ¬ C187_full := by
  intro h
  obtain ⟨L, h⟩ := h 1 zero_le_one
  have e0 : 0 < 1 / (5 * (1 + |L|)) := by positivity
  have e1 : 1 / (5 * (1 + |L|)) ≤ 1 := by
    rw [div_le_one (by positivity)]
    have := abs_nonneg L; linarith
  obtain ⟨z, p⟩ := C187_gap_fails 1 1 _ zero_le_one e0 (by linarith)
  have b := h 1 21.3 (21.3 + 1 / (5 * (1 + |L|))) zero_le_one (by norm_num)
    (by rw [abs_of_nonneg (by positivity)]; norm_num; norm_num at e1; linarith)
  rw [z, sub_zero, add_sub_cancel_left, abs_of_pos e0, mul_one, abs_of_nonneg (by linarith)] at b
  have h4 : L * (1 / (5 * (1 + |L|))) ≤ 1 / 5 := by
    rw [mul_one_div, div_le_div_iff₀ (by positivity) (by norm_num)]
    have := le_abs_self L
    linarith
  linarith

/-- Slopes of 10 and 11 degrees of shelter under a flat wind of 6 m/s. -/
example : |cellWind 0.7 6 11 - cellWind 0.7 6 10| ≤ (2.01 : ℝ) := by
  have := C187_slope_partial 0.7 6 10 11 (by norm_num) (by norm_num) (.inl (by norm_num))
  norm_num at this ⊢
  linarith

/-- A station in shelter that reads 4 instead of 3 m/s, and an exposed cell. -/
example : |cellWind 0.7 (flatten 12 4) (-15) - cellWind 0.7 (flatten 12 3) (-15)| ≤ (20 : ℝ) := by
  have := C187_reading 0.7 12 (-15) 3 4 (by norm_num) (by norm_num)
  norm_num at this ⊢
  linarith

end Verif.Wind
