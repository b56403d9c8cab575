import Verif.KrigeBestProps
import Verif.FrameLemmas

/-!
C148: what the user guide says about the weights of detrended kriging (docs/user_guide/dist_methods.rst 119-131): they do
not depend on the slope and the nugget of the linear semivariogram, so that the distance itself can stand for it, and only
stations close to the cell are used.

Specification: `semi` is the linear semivariogram with a nugget, zero at distance zero as in the definition of the guide
(lines 108-117); `line` is the formula of the guide taken at distance zero as well. Model: `krige` with the values of the
semivariogram in place of the distances.
-/

namespace Verif.Krige
open Verif.Idw Verif.Frame Finset

/-- The formula of the guide for all distances. -/
def line (nugget slope h : ℝ) : ℝ := nugget + slope * h

/-- The linear semivariogram: a value has no difference from itself. -/
noncomputable def semi (nugget slope h : ℝ) : ℝ := if h = 0 then 0 else nugget + slope * h

/-- `krige` for the stations and a cell with a semivariogram in place of the distances. -/
noncomputable def krigeWith (mem : Mem ℝ) (γ : ℝ → ℝ) (sta : List Station) (g : Cell) : Outcome ℝ :=
  krige mem sta.length (fun i j => γ (adMatrix sta i j)) (fun i => γ (gridDist sta g i)) (elevations sta)

/-- The full claim of the guide: the code, which takes the distances, gives the weights of any linear semivariogram. -/
def C148_full : Prop :=
  ∀ (mem mem' : Mem ℝ) (nugget slope : ℝ) (sta : List Station) (g : Cell), 0 ≤ nugget → 0 < slope → Distinct sta →
    Agree sta.length (outcome (krige mem sta.length (adMatrix sta) (gridDist sta g) (elevations sta)))
      (outcome (krigeWith mem' (semi nugget slope) sta g))

section
variable {n : Nat} {ad : Nat → Nat → ℝ} {d e : Nat → ℝ} {c b : ℝ}

theorem line_sum (m : Nat) (v : Nat → ℝ) :
    ∑ k ∈ range n, line c b (ad m k) * v k = c * ∑ k ∈ range n, v k + b * ∑ k ∈ range n, ad m k * v k := by
  rw [mul_sum, mul_sum, ← sum_add_distrib]
  refine sum_congr rfl fun k _ => ?_
  unfold line
  ring

theorem line_system {flag flag' : Nat → Bool} (hf : ∀ i < n, flag' i = flag i) {w : Nat → ℝ} {mu : ℝ}
    (h : System n ad d flag w mu) :
    System n (fun i j => line c b (ad i j)) (fun i => line c b (d i)) flag' w (b * mu) := by
  refine ⟨fun m hm hfm => ?_, h.2.1, fun k hk hfk => h.2.2 k hk (by rw [← hf k hk]; exact hfk)⟩
  have := h.1 m hm (by rw [← hf m hm]; exact hfm)
  rw [line_sum m w, h.2.1]
  unfold line
  linear_combination b * this

theorem line_degenerate (hb : b ≠ 0) {flag flag' : Nat → Bool} (hf : ∀ i < n, flag' i = flag i) :
    Degenerate n (fun i j => line c b (ad i j)) flag' ↔ Degenerate n ad flag := by
  constructor
  · rintro ⟨v, nu, h1, h2, h3, h4⟩
    refine ⟨v, nu / b, h1.imp (fun h => div_ne_zero h hb) id, fun m hm hfm => ?_, h3,
      fun k hk hfk => h4 k hk (by rw [hf k hk]; exact hfk)⟩
    have := h2 m hm (by rw [hf m hm]; exact hfm)
    rw [line_sum m v, h3] at this
    field_simp
    linear_combination this
  · rintro ⟨v, nu, h1, h2, h3, h4⟩
    refine ⟨v, b * nu, h1.imp (fun h => mul_ne_zero hb h) id, fun m hm hfm => ?_, h3,
      fun k hk hfk => h4 k hk (by rw [← hf k hk]; exact hfk)⟩
    have := h2 m hm (by rw [← hf m hm]; exact hfm)
    rw [line_sum m v, h3]
    linear_combination b * this

theorem line_chain (hb : b ≠ 0) {flag : Nat → Bool} {r : Option (Nat → ℝ)} (h : Chain n ad d e flag r) :
    ∀ flag' : Nat → Bool, (∀ i < n, flag' i = flag i) →
      Chain n (fun i j => line c b (ad i j)) (fun i => line c b (d i)) e flag' r := by
  induction h with
  | ends deg => intro flag' hf; exact .ends ((line_degenerate hb hf).2 deg)
  | done sys reg stop =>
    intro flag' hf
    exact .done (line_system hf sys) (fun h => reg ((line_degenerate hb hf).1 h)) stop
  | @drop flag v mu r m sys reg hm hfm neg pos top first rest ih =>
    intro flag' hf
    refine .drop m (line_system hf sys) (fun h => reg ((line_degenerate hb hf).1 h)) hm (by rw [hf m hm]; exact hfm) neg pos
      top first (ih _ fun i hi => ?_)
    unfold Lu.put
    split
    · rfl
    · exact hf i hi

end

/-- With the nugget counted at distance zero as well the slope and the nugget have no influence: any stations, also at the
same place. Missing: the semivariogram that is zero at distance zero, for which the claim is false (`C148_fails`). -/
theorem C148_line_partial (mem mem' : Mem ℝ) (nugget slope : ℝ) (sta : List Station) (g : Cell) (hn : 0 ≤ nugget)
    (hs : 0 < slope) :
    Agree sta.length (outcome (krige mem sta.length (adMatrix sta) (gridDist sta g) (elevations sta)))
      (outcome (krigeWith mem' (line nugget slope) sta g)) := by
  have hd : ∀ m < sta.length, 0 ≤ gridDist sta g m := fun m _ => gridDist_nonneg sta g m
  obtain ⟨f, hf, h⟩ := krige_chain mem sta.length (adMatrix sta) (gridDist sta g) (elevations sta) hd
  obtain ⟨f', hf', h'⟩ := krige_chain mem' sta.length (fun i j => line nugget slope (adMatrix sta i j))
    (fun i => line nugget slope (gridDist sta g i)) (elevations sta) fun m hm =>
      add_nonneg hn (mul_nonneg hs.le (hd m hm))
  exact chain_unique (line_chain hs.ne' h f' fun i hi => by rw [hf i hi, hf' i hi]) _ h'

/-- Without a nugget the slope has no influence. -/
theorem C148_slope (mem mem' : Mem ℝ) (slope : ℝ) (sta : List Station) (g : Cell) (hs : 0 < slope) :
    Agree sta.length (outcome (krige mem sta.length (adMatrix sta) (gridDist sta g) (elevations sta)))
      (outcome (krigeWith mem' (semi 0 slope) sta g)) := by
  have : semi 0 slope = line 0 slope := by
    funext h
    unfold semi line
    split
    · next h0 => rw [h0]; ring
    · rfl
  rw [this]
  exact C148_line_partial mem mem' 0 slope sta g le_rfl hs

theorem semi_nonneg {c b h : ℝ} (hc : 0 ≤ c) (hb : 0 ≤ b) (hh : 0 ≤ h) : 0 ≤ semi c b h := by
  unfold semi
  split
  · exact le_rfl
  · exact add_nonneg hc (mul_nonneg hb hh)

theorem adMatrix_zero {sta : List Station} (hd : Distinct sta) {i j : Nat} (hi : i < sta.length) (hj : j < sta.length) :
    adMatrix sta i j = 0 ↔ i = j := by
  rw [adMatrix_eq sta i j hi hj]
  constructor
  · intro h
    rw [Real.sqrt_eq_zero (by positivity)] at h
    have h1 : sta[i].x - sta[j].x = 0 := by nlinarith [sq_nonneg (sta[i].x - sta[j].x), sq_nonneg (sta[i].y - sta[j].y)]
    have h2 : sta[i].y - sta[j].y = 0 := by nlinarith [sq_nonneg (sta[i].x - sta[j].x), sq_nonneg (sta[i].y - sta[j].y)]
    exact hd i j hi hj (sub_eq_zero.1 h1) (sub_eq_zero.1 h2)
  · rintro rfl
    simp

/-- The equation of one station with a nugget. -/
theorem semi_sum {sta : List Station} (hd : Distinct sta) (c b : ℝ) (m : Nat) (hm : m < sta.length) (w : Nat → ℝ) :
    ∑ k ∈ range sta.length, semi c b (adMatrix sta m k) * w k =
      c * (∑ k ∈ range sta.length, w k - w m) + b * ∑ k ∈ range sta.length, adMatrix sta m k * w k := by
  have key : ∀ k ∈ range sta.length, semi c b (adMatrix sta m k) * w k =
      (c * w k + b * (adMatrix sta m k * w k)) - if m = k then c * w k else 0 := by
    intro k hk
    have hk' := mem_range.1 hk
    by_cases e : m = k
    · have z := (adMatrix_zero hd hm hk').2 e
      rw [if_pos e]
      unfold semi
      rw [if_pos z, z]
      ring
    · have z := fun h => e ((adMatrix_zero hd hm hk').1 h)
      rw [if_neg e]
      unfold semi
      rw [if_neg z]
      ring
  rw [sum_congr rfl key, sum_sub_distrib, sum_add_distrib, ← mul_sum, ← mul_sum, sum_ite_eq, if_pos (mem_range.2 hm)]
  ring

/-- At a cell that is not the place of a station two different nuggets give the same weights, none of them zero, only when
all stations have the same weight. -/
theorem C148_only (mem mem' : Mem ℝ) (c c' b : ℝ) (sta : List Station) (g : Cell) (w w' : Nat → ℝ) (hc : 0 ≤ c)
    (hc' : 0 ≤ c') (hne : c ≠ c') (hb : 0 < b) (hd : Distinct sta) (hg : ∀ i < sta.length, gridDist sta g i ≠ 0)
    (h : krigeWith mem (semi c b) sta g = .weights w) (h' : krigeWith mem' (semi c' b) sta g = .weights w')
    (hw : ∀ i < sta.length, w i ≠ 0) (hww : ∀ i < sta.length, w' i = w i) :
    ∀ i < sta.length, w i = 1 / sta.length := by
  have pos : ∀ c, 0 ≤ c → ∀ m < sta.length, 0 ≤ semi c b (gridDist sta g m) := fun c hc m _ =>
    semi_nonneg hc hb.le (gridDist_nonneg sta g m)
  obtain ⟨u, mu, h1, h2, h3, -⟩ := C56_equations mem _ _ _ _ w (pos c hc) h
  obtain ⟨u', mu', h1', h2', h3', -⟩ := C56_equations mem' _ _ _ _ w' (pos c' hc') h'
  have all : ∀ m < sta.length, u m := fun m hm => by
    by_contra hu
    exact hw m hm (h2 m hm hu)
  have all' : ∀ m < sta.length, u' m := fun m hm => by
    by_contra hu
    exact hw m hm (by rw [← hww m hm]; exact h2' m hm hu)
  have same : ∀ m, ∑ k ∈ range sta.length, adMatrix sta m k * w' k = ∑ k ∈ range sta.length, adMatrix sta m k * w k :=
    fun m => sum_congr rfl fun k hk => by rw [hww k (mem_range.1 hk)]
  have key : ∀ m < sta.length, w m = (mu - mu') / (c - c') := by
    intro m hm
    have e := h1 m hm (all m hm)
    have e' := h1' m hm (all' m hm)
    rw [semi_sum hd c b m hm w, h3] at e
    rw [semi_sum hd c' b m hm w', h3', same m, hww m hm] at e'
    unfold semi at e e'
    rw [if_neg (hg m hm)] at e e'
    rw [eq_div_iff (sub_ne_zero.2 hne)]
    linear_combination e' - e
  intro i hi
  have hs : ∑ k ∈ range sta.length, w k = sta.length * w i := by
    rw [sum_congr rfl fun k hk => show w k = w i by rw [key k (mem_range.1 hk), key i hi], sum_const, card_range,
      nsmul_eq_mul]
  rw [h3] at hs
  have : (sta.length : ℝ) ≠ 0 := Nat.cast_ne_zero.2 (by omega)
  rw [eq_div_iff this]
  linear_combination -hs

/-! Two stations and a cell between them, at any scale. -/

noncomputable def pairSta (r : ℝ) : List Station := [⟨0, 0, 100, none⟩, ⟨4 * r, 0, 200, none⟩]

noncomputable def pairCell (r : ℝ) : Cell := ⟨r, 0, 150⟩

theorem pair_distinct {r : ℝ} (hr : 0 < r) : Distinct (pairSta r) := by
  intro i j hi hj hx hy
  have hi' : i < 2 := hi
  have hj' : j < 2 := hj
  interval_cases i <;> interval_cases j <;> first | rfl | (exfalso; simp [pairSta] at hx; linarith)

theorem pair_ad {r : ℝ} (hr : 0 < r) (i j : Nat) (hi : i < 2) (hj : j < 2) :
    adMatrix (pairSta r) i j = if i = j then 0 else 4 * r := by
  have h : √((4 * r) ^ 2) = 4 * r := Real.sqrt_sq (by linarith)
  rw [adMatrix_eq (pairSta r) i j hi hj]
  interval_cases i <;> interval_cases j <;> simp [pairSta, h] <;> linarith

theorem pair_g {r : ℝ} (hr : 0 < r) (i : Nat) (hi : i < 2) :
    gridDist (pairSta r) (pairCell r) i = if i = 0 then r else 3 * r := by
  have hi' : i < (pairSta r).length := hi
  rw [gridDist_eq (pairSta r) _ i hi']
  unfold px py
  rw [dif_pos hi', dif_pos hi']
  interval_cases i
  · show √((0 - r) ^ 2 + (0 - 0) ^ 2) = _
    rw [show (0 - r) ^ 2 + ((0 : ℝ) - 0) ^ 2 = r ^ 2 by ring, Real.sqrt_sq hr.le]
    simp
  · show √((4 * r - r) ^ 2 + (0 - 0) ^ 2) = _
    rw [show (4 * r - r) ^ 2 + ((0 : ℝ) - 0) ^ 2 = (3 * r) ^ 2 by ring, Real.sqrt_sq (by linarith)]
    simp

theorem pair_weights (mem : Mem ℝ) {r : ℝ} (hr : 0 < r) :
    ∃ w, krige mem (pairSta r).length (adMatrix (pairSta r)) (gridDist (pairSta r) (pairCell r)) (elevations (pairSta r)) =
      .weights w ∧ w 0 = 3 / 4 ∧ w 1 = 1 / 4 := by
  have sys : System (pairSta r).length (adMatrix (pairSta r)) (gridDist (pairSta r) (pairCell r)) (fun _ => true)
      (fun n => if n = 0 then 3 / 4 else 1 / 4) 0 := by
    refine ⟨fun m hm _ => ?_, ?_, fun n _ h => by cases h⟩
    · have hm' : m < 2 := hm
      show ∑ n ∈ range 2, adMatrix (pairSta r) m n * _ + 0 = _
      simp only [sum_range_succ, sum_range_zero, zero_add]
      rw [pair_ad hr m 0 hm' (by norm_num), pair_ad hr m 1 hm' (by norm_num), pair_g hr m hm']
      interval_cases m <;> norm_num <;> ring
    · show ∑ n ∈ range 2, _ = _
      norm_num [sum_range_succ]
  obtain ⟨w, hw, e⟩ := C147_best mem (pairSta r) (pairCell r) (fun n => if n = 0 then 3 / 4 else 1 / 4) (by simp [pairSta])
    (pair_distinct hr) sys.2.1 (fun i _ => by split <;> norm_num)
    (fun w' h1 => (system_best (pair_distinct hr) sys w' h1 (fun _ _ h => by cases h)).1)
  refine ⟨w, hw, ?_, ?_⟩
  · rw [e 0 (by simp [pairSta])]; norm_num
  · rw [e 1 (by simp [pairSta])]; norm_num

def noMem : Mem ℝ := ⟨fun _ _ _ => 0, fun _ => ⟨fun _ => 0, fun _ => 0, 0⟩, fun _ => false, fun _ => 0⟩

theorem of_agree {n : Nat} {w : Nat → ℝ} {o : Outcome ℝ} (h : Agree n (some w) (outcome o)) :
    ∃ w', o = .weights w' ∧ ∀ i < n, w' i = w i := by
  cases o with
  | weights w' => exact ⟨w', rfl, h⟩
  | exit => exact h.elim
  | stuck => exact h.elim

/-- With a nugget the weights of two stations are others than those the code takes. -/
theorem C148_fails : ¬ C148_full := by
  intro hfull
  obtain ⟨w, hw, w0, w1⟩ := pair_weights noMem (one_pos (α := ℝ))
  have hd := pair_distinct (one_pos (α := ℝ))
  have a0 := hfull noMem noMem 0 1 (pairSta 1) (pairCell 1) le_rfl one_pos hd
  have a1 := hfull noMem noMem 1 1 (pairSta 1) (pairCell 1) zero_le_one one_pos hd
  rw [hw] at a0 a1
  obtain ⟨v, hv, ev⟩ := of_agree a0
  obtain ⟨v', hv', ev'⟩ := of_agree a1
  have := C148_only noMem noMem 0 1 1 (pairSta 1) (pairCell 1) v v' le_rfl zero_le_one zero_ne_one one_pos hd
    (fun i hi => by
      have hi' : i < 2 := hi
      rw [pair_g one_pos i hi']
      split <;> norm_num) hv hv'
    (fun i hi => by
      rw [ev i hi]
      have hi' : i < 2 := hi
      interval_cases i
      · rw [w0]; norm_num
      · rw [w1]; norm_num)
    (fun i hi => by rw [ev i hi, ev' i hi]) 0 (by simp [pairSta])
  rw [ev 0 (by simp [pairSta]), w0] at this
  norm_num [pairSta] at this

/-- The other claim of the guide: beyond some distance stations are not used. -/
def C148_near_full : Prop :=
  ∃ R : ℝ, ∀ (mem : Mem ℝ) (sta : List Station) (g : Cell) (w : Nat → ℝ), Distinct sta →
    krige mem sta.length (adMatrix sta) (gridDist sta g) (elevations sta) = .weights w →
    ∀ i < sta.length, R < gridDist sta g i → w i = 0

/-- A station has a quarter of the weight however far it is. -/
theorem C148_near_fails : ¬ C148_near_full := by
  rintro ⟨R, h⟩
  have hr : (0 : ℝ) < |R| + 1 := by positivity
  obtain ⟨w, hw, -, w1⟩ := pair_weights noMem hr
  have := h noMem _ (pairCell (|R| + 1)) w (pair_distinct hr) hw 1 (by simp [pairSta]) (by
    rw [pair_g hr 1 (by norm_num), if_neg one_ne_zero]
    linarith [le_abs_self R, abs_nonneg R])
  rw [w1] at this
  norm_num at this

/-- A slope of seven and a nugget of two counted at distance zero: the weights of the distances. -/
example (mem mem' : Mem ℝ) : ∃ w, krigeWith mem (line 2 7) (pairSta 1) (pairCell 1) = .weights w ∧ w 0 = 3 / 4 ∧ w 1 = 1 / 4 := by
  obtain ⟨w, hw, w0, w1⟩ := pair_weights mem' (one_pos (α := ℝ))
  have := C148_line_partial mem' mem 2 7 (pairSta 1) (pairCell 1) (by norm_num) (by norm_num)
  rw [hw] at this
  obtain ⟨v, hv, e⟩ := of_agree this
  exact ⟨v, hv, by rw [e 0 (by simp [pairSta]), w0], by rw [e 1 (by simp [pairSta]), w1]⟩

/-- A cell half way between two stations. -/
theorem half_weights (mem : Mem ℝ) (c : ℝ) (hc : 0 ≤ c) :
    ∃ w, krigeWith mem (semi c 1) (pairSta 1) ⟨2, 0, 150⟩ = .weights w ∧ w 0 = 1 / 2 ∧ w 1 = 1 / 2 := by
  have ad := pair_ad (one_pos (α := ℝ))
  have gd : ∀ i < 2, gridDist (pairSta 1) ⟨2, 0, 150⟩ i = 2 := by
    intro i hi
    have hi' : i < (pairSta 1).length := hi
    rw [gridDist_eq (pairSta 1) _ i hi']
    unfold px py
    rw [dif_pos hi', dif_pos hi']
    have h : √((4 : ℝ)) = 2 := by rw [show (4 : ℝ) = 2 ^ 2 by norm_num]; exact Real.sqrt_sq (by norm_num)
    interval_cases i <;> norm_num [pairSta, h]
  have hpos : ∀ m < (pairSta 1).length, 0 ≤ semi c 1 (gridDist (pairSta 1) ⟨2, 0, 150⟩ m) := fun m _ =>
    semi_nonneg hc zero_le_one (gridDist_nonneg _ _ m)
  have row : ∀ m < 2, ∀ v : Nat → ℝ, ∑ n ∈ range (pairSta 1).length, semi c 1 (adMatrix (pairSta 1) m n) * v n =
      (c + 4) * v (1 - m) := by
    intro m hm v
    show ∑ n ∈ range 2, _ = _
    simp only [sum_range_succ, sum_range_zero, zero_add]
    rw [ad m 0 hm (by norm_num), ad m 1 hm (by norm_num)]
    interval_cases m <;> norm_num [semi]
  obtain ⟨w, hw⟩ := C56_regular mem (pairSta 1).length (fun i j => semi c 1 (adMatrix (pairSta 1) i j))
    (fun i => semi c 1 (gridDist (pairSta 1) ⟨2, 0, 150⟩ i)) (elevations (pairSta 1)) (by simp [pairSta]) hpos
    (fun used hu v nu h1 h2 h3 => by
      have s2 : v 0 + v 1 = 0 := by
        have h2' : ∑ n ∈ range 2, v n = 0 := h2
        simpa [sum_range_succ] using h2'
      have z : v 0 = 0 ∧ v 1 = 0 := by
        by_cases u0 : used 0
        · by_cases u1 : used 1
          · have e0 := h1 0 (by simp [pairSta]) u0
            have e1 := h1 1 (by simp [pairSta]) u1
            rw [row 0 (by norm_num)] at e0
            rw [row 1 (by norm_num)] at e1
            norm_num at e0 e1
            have : (c + 4) * (v 1 - v 0) = 0 := by linear_combination e0 - e1
            rcases mul_eq_zero.1 this with h | h
            · linarith
            · constructor <;> linarith
          · have := h3 1 (by simp [pairSta]) u1
            constructor <;> linarith
        · have := h3 0 (by simp [pairSta]) u0
          constructor <;> linarith
      refine ⟨?_, fun n hn => ?_⟩
      · obtain ⟨m, hm, um⟩ := hu
        have e := h1 m hm um
        have hm' : m < 2 := hm
        rw [row m hm'] at e
        interval_cases m
        · norm_num [z.2] at e; exact e
        · norm_num [z.1] at e; exact e
      · have hn' : n < 2 := hn
        interval_cases n
        · exact z.1
        · exact z.2)
  refine ⟨w, hw, ?_⟩
  obtain ⟨flag, hall, hel⟩ := C56_order mem _ _ _ _ w hpos hw
  have key : ∀ v mu, System (pairSta 1).length (fun i j => semi c 1 (adMatrix (pairSta 1) i j))
      (fun i => semi c 1 (gridDist (pairSta 1) ⟨2, 0, 150⟩ i)) flag v mu → v 0 = 1 / 2 ∧ v 1 = 1 / 2 := by
    intro v mu sys
    have e0 := sys.1 0 (by simp [pairSta]) (hall 0 (by simp [pairSta]))
    have e1 := sys.1 1 (by simp [pairSta]) (hall 1 (by simp [pairSta]))
    beta_reduce at e0 e1
    rw [row 0 (by norm_num), gd 0 (by norm_num)] at e0
    rw [row 1 (by norm_num), gd 1 (by norm_num)] at e1
    have s2 : v 0 + v 1 = 1 := by
      have h2' : ∑ n ∈ range 2, v n = 1 := sys.2.1
      simpa [sum_range_succ] using h2'
    norm_num at e0 e1
    have : (c + 4) * (v 1 - v 0) = 0 := by linear_combination e0 - e1
    rcases mul_eq_zero.1 this with h | h
    · linarith
    · constructor <;> linarith
  cases hel with
  | done sys reg stop => exact key _ _ sys
  | drop m sys reg hm hf neg pos top rest =>
    have := key _ _ sys
    have hm' : m < 2 := hm
    exfalso
    interval_cases m
    · linarith [this.1]
    · linarith [this.2]

/-- Half way between two stations the nugget has no influence, and the weights are equal: the case of `C148_only`. -/
example (mem mem' : Mem ℝ) : ∃ w w', krigeWith mem (semi 0 1) (pairSta 1) ⟨2, 0, 150⟩ = .weights w ∧
    krigeWith mem' (semi 3 1) (pairSta 1) ⟨2, 0, 150⟩ = .weights w' ∧ (∀ i < (pairSta 1).length, w i ≠ 0) ∧
    (∀ i < (pairSta 1).length, w' i = w i) ∧ Distinct (pairSta 1) := by
  obtain ⟨w, hw, w0, w1⟩ := half_weights mem 0 le_rfl
  obtain ⟨w', hw', w0', w1'⟩ := half_weights mem' 3 (by norm_num)
  refine ⟨w, w', hw, hw', fun i hi => ?_, fun i hi => ?_, pair_distinct one_pos⟩ <;>
    (have hi' : i < 2 := hi
     interval_cases i)
  · rw [w0]; norm_num
  · rw [w1]; norm_num
  · rw [w0, w0']
  · rw [w1, w1']

end Verif.Krige
