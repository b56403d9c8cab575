import Verif.ClipFloat
import Verif.StormsProps
import Verif.IdwFloatProps
import Verif.ClockFloatProps

/-!
C151: the precipitation of a station is conserved by the correction for storms, in arithmetic with rounding.
-/

namespace Verif.ClipFloat

open Verif.Storms (Storm clip total at' Outside Nonneg)
open Verif.IdwFloat (Arith Order Rel Rounds rounds_of rnd_rel rnd_nonneg)

/-- The orders add every row of the table and of the clipped table, each once. -/
def Adds (o o' : Nat → Order (List (Option ℝ))) (sts : List (Storm Nat ℝ)) (tbl : List (List (Option ℝ))) : Prop :=
  ∀ k, (o k).items.Perm tbl ∧ (o' k).items.Perm (clip sts tbl)

/-- A rounding with relative error `u`, at most one half. -/
def Error (u : ℝ) (A : Arith) : Prop := 0 ≤ u ∧ u < 1 / 2 ∧ ∀ x, |A.rnd x - x| ≤ u * |x|

theorem Error.rounds {u : ℝ} {A : Arith} (h : Error u A) :
    Rounds (1 / (1 - u)) A.rnd ∧ 1 ≤ 1 / (1 - u) ∧ 1 / (1 - u) < 2 := by
  obtain ⟨h0, h1, h2⟩ := h
  have hp : 0 < 1 - u := by linarith
  refine ⟨rounds_of h0 (by linarith) h2, ?_, ?_⟩
  · rw [le_div_iff₀ hp]; linarith
  · rw [div_lt_iff₀ hp]; linarith

theorem rnd_zero {u : ℝ} {A : Arith} (h : Error u A) : A.rnd 0 = 0 := by
  have := h.2.2 0
  simpa using this

theorem sum_rel0 {α : Type} (A : Arith) {r : ℝ} (hf : Rounds r A.rnd) (hr : 1 ≤ r) (hr2 : r < 2) (x : α → ℝ)
    (o : Order α) (hx : ∀ a ∈ o.items, 0 ≤ x a) :
    Rel (r ^ o.depth) (o.sum A x) ((o.items.map x).sum) ∧ 0 ≤ o.sum A x ∧ 0 ≤ (o.items.map x).sum := by
  induction o with
  | one a => simpa [Order.items, Order.depth, Order.sum] using ⟨Rel.refl, hx a (by simp [Order.items])⟩
  | both l s ihl ihr =>
    obtain ⟨l1, l2, l3⟩ := ihl fun a ha => hx a (by simp [Order.items, ha])
    obtain ⟨s1, s2, s3⟩ := ihr fun a ha => hx a (by simp [Order.items, ha])
    simp only [Order.items, List.map_append, List.sum_append, Order.depth, Order.sum]
    have e1 : r ^ l.depth ≤ r ^ max l.depth s.depth := pow_le_pow_right₀ hr (le_max_left _ _)
    have e2 : r ^ s.depth ≤ r ^ max l.depth s.depth := pow_le_pow_right₀ hr (le_max_right _ _)
    have hsum := (l1.mono e1 l2 l3).add (s1.mono e2 s2 s3)
    have hp : 0 ≤ l.sum A x + s.sum A x := by linarith
    have := (rnd_rel hf hr2 hp).trans hsum (by linarith) (by positivity)
    refine ⟨?_, rnd_nonneg hf hr2 hp, by linarith⟩
    rw [pow_succ, mul_comm _ r]
    exact this

theorem addends_total (k : Nat) (tbl : List (List (Option ℝ))) : (tbl.map (addend k)).sum = total tbl k := by
  unfold total
  congr 1
  refine List.map_congr_left fun row _ => ?_
  unfold addend
  rcases row[k]? with _ | _ | x <;> rfl

theorem addend_nonneg (k : Nat) (tbl : List (List (Option ℝ))) (hn : Nonneg tbl) : ∀ row ∈ tbl, 0 ≤ addend k row := by
  intro row hrow
  unfold addend
  split
  · rename_i x hx
    exact hn row hrow x (List.mem_iff_getElem?.2 ⟨k, hx⟩)
  · exact le_refl _

/-- The sum of a column with rounding. -/
theorem column_rel {u : ℝ} {A : Arith} (hA : Error u A) (k : Nat) (tbl : List (List (Option ℝ))) (hn : Nonneg tbl)
    (o : Order (List (Option ℝ))) (ho : o.items.Perm tbl) :
    Rel ((1 / (1 - u)) ^ o.depth) (columnSum A k o) (total tbl k) ∧ 0 ≤ columnSum A k o ∧ 0 ≤ total tbl k := by
  obtain ⟨hf, hr, hr2⟩ := hA.rounds
  have := sum_rel0 A hf hr hr2 (addend k) o fun a ha => addend_nonneg k tbl hn a (ho.mem_iff.1 ha)
  rwa [(ho.map (addend k)).sum_eq, addends_total] at this

theorem rel_zero_iff {k a b : ℝ} (h : Rel k a b) (ha : 0 ≤ a) (hb : 0 ≤ b) : a = 0 ↔ b = 0 := by
  constructor
  · rintro rfl
    have := h.2
    rw [mul_zero] at this
    exact le_antisymm this hb
  · rintro rfl
    have := h.1
    rw [mul_zero] at this
    exact le_antisymm this ha

/-- The exact total of the corrected column, from the exact total of the clipped one. -/
theorem total_correct {r : ℝ} (A : Arith) (hf : Rounds r A.rnd) (hr2 : r < 2) (sts : List Nat) (c : Nat → ℝ) (k : Nat)
    (hc : 0 ≤ c k) (tbl : List (List (Option ℝ))) (hn : Nonneg tbl) (hk : k ∈ sts) :
    Rel r (total (tbl.map (correctRow A sts c)) k) (total tbl k * c k) := by
  induction tbl with
  | nil => simp [total, IdwFloat.Rel]
  | cons row tbl ih =>
    have hn' : Nonneg tbl := fun r hr => hn r (List.mem_cons_of_mem _ hr)
    have ih := ih hn'
    rw [← addends_total, ← addends_total] at ih ⊢
    simp only [List.map_cons, List.sum_cons, add_mul]
    refine Rel.add ?_ ih
    have h0 := addend_nonneg k (row :: tbl) hn row (by simp)
    revert h0
    unfold addend correctRow
    rw [List.getElem?_mapIdx]
    cases h : row[k]? with
    | none => intro _; simp [IdwFloat.Rel]
    | some x =>
      cases x with
      | none => intro _; simp [IdwFloat.Rel, hk]
      | some x =>
        intro h0
        simp only [Option.map_some, hk, if_true] at h0 ⊢
        exact rnd_rel hf hr2 (mul_nonneg h0 hc)

theorem correction_cases {u : ℝ} {A : Arith} (hA : Error u A) {o o' : Nat → Order (List (Option ℝ))} {sts : List (Storm Nat ℝ)}
    {tbl : List (List (Option ℝ))} (ho : Adds o o' sts tbl) (hn : Nonneg tbl) (k : Nat) :
    0 ≤ correction A (columnSum A k (o k)) (columnSum A k (o' k)) ∧
    Rel ((1 / (1 - u)) ^ ((o k).depth + (o' k).depth + 1)) (correction A (columnSum A k (o k)) (columnSum A k (o' k)))
      (Storms.correction tbl (clip sts tbl) k) := by
  obtain ⟨hf, hr, hr2⟩ := hA.rounds
  obtain ⟨a1, a2, a3⟩ := column_rel hA k tbl hn (o k) (ho k).1
  obtain ⟨b1, b2, b3⟩ := column_rel hA k (clip sts tbl) (Storms.nonneg_clip sts tbl hn) (o' k) (ho k).2
  have hk1 : (1 : ℝ) ≤ (1 / (1 - u)) ^ ((o k).depth + (o' k).depth + 1) := one_le_pow₀ hr
  unfold correction Storms.correction
  simp only [Storms.columnSum_eq_total]
  by_cases h1 : total tbl k = 0
  · rw [if_pos h1, if_pos ((rel_zero_iff a1 a2 a3).2 h1)]
    exact ⟨zero_le_one, Rel.refl.mono hk1 zero_le_one zero_le_one⟩
  · rw [if_neg h1, if_neg fun h => h1 ((rel_zero_iff a1 a2 a3).1 h)]
    by_cases h2 : total (clip sts tbl) k = 0
    · rw [if_pos h2, if_pos ((rel_zero_iff b1 b2 b3).2 h2)]
      exact ⟨le_refl _, Rel.refl.mono hk1 (le_refl _) (le_refl _)⟩
    · rw [if_neg h2, if_neg fun h => h2 ((rel_zero_iff b1 b2 b3).1 h)]
      have hb : 0 < total (clip sts tbl) k := lt_of_le_of_ne b3 (Ne.symm h2)
      have hb' : 0 < columnSum A k (o' k) := lt_of_le_of_ne b2 fun h => h2 ((rel_zero_iff b1 b2 b3).1 h.symm)
      have hq := a1.mul (b1.inv hb' hb) a2 a3 (by positivity) (by positivity)
      rw [mul_one_div, mul_one_div] at hq
      have hd : 0 ≤ columnSum A k (o k) / columnSum A k (o' k) := div_nonneg a2 b2
      refine ⟨rnd_nonneg hf hr2 hd, ?_⟩
      have := (rnd_rel hf hr2 hd).trans hq (by linarith) (by positivity)
      rw [← pow_add, mul_comm, ← pow_succ] at this
      exact this

/-- Outside the storms nothing is left, to the last digit. -/
theorem C151_outside {u : ℝ} {A : Arith} (hA : Error u A) (o o' : Nat → Order (List (Option ℝ))) (sts : List (Storm Nat ℝ))
    (width : Nat) (stations : List Nat) (tbl : List (List (Option ℝ))) (i k : Nat)
    (hk : k ∈ stations ∨ (stations = [] ∧ k < width)) (hout : Outside sts i) (hcell : (at' tbl i k).isSome) :
    at' (clipAndCorrect A o o' sts width stations tbl) i k = some (some 0) := by
  have hk' := Storms.mem_stations width stations k hk
  have h1 := Storms.at_clip sts tbl i k
  unfold clipAndCorrect
  simp only
  generalize (if stations.length = 0 then List.range width else stations) = st at *
  unfold at' at *
  rw [List.getElem?_map]
  cases h2 : (clip sts tbl)[i]? with
  | none => rw [h2] at h1; cases h3 : (tbl[i]?).bind (·[k]?) with
    | none => rw [h3] at hcell; cases hcell
    | some c => rw [h3] at h1; simp at h1
  | some row =>
    rw [h2] at h1
    simp only [Option.map_some, Option.bind_some] at h1 ⊢
    unfold correctRow
    rw [List.getElem?_mapIdx, h1]
    cases h3 : (tbl[i]?).bind (·[k]?) with
    | none => rw [h3] at hcell; cases hcell
    | some c => simp [hout, hk', rnd_zero hA]

/-- The columns of stations that are not in the list of the configuration become NaN. -/
theorem C151_unselected (A : Arith) (o o' : Nat → Order (List (Option ℝ))) (sts : List (Storm Nat ℝ)) (width : Nat)
    (stations : List Nat) (hs : stations ≠ []) (tbl : List (List (Option ℝ))) (i k : Nat) (hk : k ∉ stations)
    (hcell : (at' tbl i k).isSome) : at' (clipAndCorrect A o o' sts width stations tbl) i k = some none := by
  have h1 := Storms.at_clip sts tbl i k
  unfold clipAndCorrect
  simp only
  rw [if_neg (by simpa using hs)]
  unfold at' at *
  rw [List.getElem?_map]
  cases h2 : (clip sts tbl)[i]? with
  | none => rw [h2] at h1; cases h3 : (tbl[i]?).bind (·[k]?) with
    | none => rw [h3] at hcell; cases hcell
    | some c => rw [h3] at h1; simp at h1
  | some row =>
    rw [h2] at h1
    simp only [Option.map_some, Option.bind_some] at h1 ⊢
    unfold correctRow
    rw [List.getElem?_mapIdx, h1]
    cases h3 : (tbl[i]?).bind (·[k]?) with
    | none => rw [h3] at hcell; cases hcell
    | some c => simp [hk]

example (A : Arith) (o o' : Nat → Order (List (Option ℝ))) :
    at' (clipAndCorrect A o o' [] 2 [0] [[some 1, some 2]]) 0 1 = some none :=
  C151_unselected A o o' [] 2 [0] (by simp) _ 0 1 (by simp) rfl

/-- During storms every value is the one without rounding, up to a factor. -/
theorem C151_cell {u : ℝ} {A : Arith} (hA : Error u A) {o o' : Nat → Order (List (Option ℝ))} {sts : List (Storm Nat ℝ)}
    {tbl : List (List (Option ℝ))} (ho : Adds o o' sts tbl) (hn : Nonneg tbl) (width : Nat) (stations : List Nat) (i k : Nat)
    (hk : k ∈ stations ∨ (stations = [] ∧ k < width)) (hin : ¬ Outside sts i) (x : ℝ) (hx : at' tbl i k = some (some x)) :
    ∃ y z, at' (clipAndCorrect A o o' sts width stations tbl) i k = some (some y) ∧
      at' (Storms.clipAndCorrect sts width stations tbl) i k = some (some z) ∧
      Rel ((1 / (1 - u)) ^ ((o k).depth + (o' k).depth + 2)) y z := by
  have hk' := Storms.mem_stations width stations k hk
  obtain ⟨hf, hr, hr2⟩ := hA.rounds
  obtain ⟨hc0, hc⟩ := correction_cases hA ho hn k
  have h1 : at' (clip sts tbl) i k = some (some x) := by rw [Storms.at_clip, hx]; simp [hin]
  have hx0 : 0 ≤ x := by
    unfold at' at hx
    cases h : tbl[i]? with
    | none => rw [h] at hx; cases hx
    | some row =>
      rw [h] at hx
      exact hn row (List.mem_iff_getElem?.2 ⟨i, h⟩) x (List.mem_iff_getElem?.2 ⟨k, hx⟩)
  refine ⟨A.rnd (x * correction A (columnSum A k (o k)) (columnSum A k (o' k))),
    x * Storms.correction tbl (clip sts tbl) k, ?_, ?_, ?_⟩
  · unfold clipAndCorrect
    simp only
    generalize (if stations.length = 0 then List.range width else stations) = st at *
    unfold at' at h1 ⊢
    rw [List.getElem?_map]
    cases h2 : (clip sts tbl)[i]? with
    | none => rw [h2] at h1; cases h1
    | some row =>
      rw [h2] at h1
      simp only [Option.bind_some, Option.map_some] at h1 ⊢
      unfold correctRow
      rw [List.getElem?_mapIdx, h1]
      simp [hk']
  · unfold Storms.clipAndCorrect
    simp only
    generalize (if stations.length = 0 then List.range width else stations) = st at *
    unfold at' at h1 ⊢
    rw [List.getElem?_map]
    cases h2 : (clip sts tbl)[i]? with
    | none => rw [h2] at h1; cases h1
    | some row =>
      rw [h2] at h1
      simp only [Option.bind_some, Option.map_some] at h1 ⊢
      unfold Storms.correctRow
      rw [List.getElem?_mapIdx, h1]
      simp [hk']
  · have hp : 0 ≤ x * correction A (columnSum A k (o k)) (columnSum A k (o' k)) := mul_nonneg hx0 hc0
    have hz : 0 ≤ Storms.correction tbl (clip sts tbl) k := by
      by_contra hneg
      have := hc.1
      have h3 : (0 : ℝ) < (1 / (1 - u)) ^ ((o k).depth + (o' k).depth + 1) := by positivity
      nlinarith [not_le.1 hneg]
    have hm := (Rel.refl (a := x)).mul hc hx0 hx0 hc0 hz
    have := (rnd_rel hf hr2 hp).trans hm (by linarith) (by positivity)
    rw [one_mul, mul_comm, ← pow_succ] at this
    exact this

/-- The precipitation of a station that has some during a storm, or none at all, is conserved up to a factor. -/
theorem C151_total {u : ℝ} {A : Arith} (hA : Error u A) {o o' : Nat → Order (List (Option ℝ))} {sts : List (Storm Nat ℝ)}
    {tbl : List (List (Option ℝ))} (ho : Adds o o' sts tbl) (hn : Nonneg tbl) (width : Nat) (stations : List Nat) (k : Nat)
    (hk : k ∈ stations ∨ (stations = [] ∧ k < width))
    (hw : total tbl k = 0 ∨ ∃ i x, ¬ Outside sts i ∧ at' tbl i k = some (some x) ∧ 0 < x) :
    Rel ((1 / (1 - u)) ^ ((o k).depth + (o' k).depth + 2))
      (total (clipAndCorrect A o o' sts width stations tbl) k) (total tbl k) := by
  have hk' := Storms.mem_stations width stations k hk
  have he := (Storms.C25_total_iff sts width stations tbl hn k hk).2 hw
  obtain ⟨hf, hr, hr2⟩ := hA.rounds
  obtain ⟨hc0, hc⟩ := correction_cases hA ho hn k
  rw [← he]
  unfold clipAndCorrect Storms.clipAndCorrect
  simp only
  generalize (if stations.length = 0 then List.range width else stations) = st at *
  rw [Storms.total_correct st _ _ k hk']
  have h1 := total_correct A hf hr2 st (fun k => correction A (columnSum A k (o k)) (columnSum A k (o' k))) k hc0
    (clip sts tbl) (Storms.nonneg_clip sts tbl hn) hk'
  have ht := (Storms.clip_le sts tbl hn k).1
  have hz : 0 ≤ Storms.correction tbl (clip sts tbl) k := by
    by_contra hneg
    have := hc.1
    have h3 : (0 : ℝ) < (1 / (1 - u)) ^ ((o k).depth + (o' k).depth + 1) := by positivity
    nlinarith [not_le.1 hneg]
  have h2 := (Rel.refl (a := total (clip sts tbl) k)).mul hc ht ht hc0 hz
  have := h1.trans h2 (by linarith) (by positivity)
  rw [one_mul, mul_comm, ← pow_succ] at this
  exact this

theorem depth_lt {α : Type} (o : Order α) : o.depth + 1 ≤ o.items.length := by
  induction o with
  | one a => simp [Order.items, Order.depth]
  | both l r ihl ihr => simp only [Order.items, Order.depth, List.length_append]; omega

theorem double_error : Error ((1 / 2) ^ 53) IdwFloat.double := ⟨by positivity, by norm_num, IdwFloat.C144_nearest 52⟩

/-- In double precision and for up to a hundred thousand rows (eleven years of hours), in whatever order pandas adds: the
precipitation of a station is conserved within a ten-thousandth of a millionth of it. -/
theorem C151_double {o o' : Nat → Order (List (Option ℝ))} {sts : List (Storm Nat ℝ)} {tbl : List (List (Option ℝ))}
    (ho : Adds o o' sts tbl) (hn : Nonneg tbl) (hlen : tbl.length ≤ 10 ^ 5) (width : Nat) (stations : List Nat) (k : Nat)
    (hk : k ∈ stations ∨ (stations = [] ∧ k < width))
    (hw : total tbl k = 0 ∨ ∃ i x, ¬ Outside sts i ∧ at' tbl i k = some (some x) ∧ 0 < x) :
    |total (clipAndCorrect IdwFloat.double o o' sts width stations tbl) k - total tbl k| ≤ 1 / 10 ^ 10 * total tbl k := by
  have h := C151_total double_error ho hn width stations k hk hw
  have h1 := depth_lt (o k)
  have h2 := depth_lt (o' k)
  rw [(ho k).1.length_eq] at h1
  rw [(ho k).2.length_eq, show (clip sts tbl).length = tbl.length by simp [clip]] at h2
  have ht : 0 ≤ total tbl k := (Storms.clip_le sts tbl hn k).1.trans (Storms.clip_le sts tbl hn k).2
  have hd : (o k).depth + (o' k).depth + 2 ≤ 2 * 10 ^ 5 := by omega
  generalize (o k).depth + (o' k).depth + 2 = n at h hd
  have hb : 1 - (n : ℝ) * (1 / 2) ^ 53 ≤ (1 - (1 / 2) ^ 53) ^ n := by
    have := one_add_mul_le_pow (a := -(1 / 2 : ℝ) ^ 53) (by norm_num) n
    have e : (1 : ℝ) + -(1 / 2) ^ 53 = 1 - (1 / 2) ^ 53 := by ring
    rw [e] at this
    linarith
  have hn' : (n : ℝ) ≤ 2 * 10 ^ 5 := by exact_mod_cast hd
  have hk1 : (1 : ℝ) ≤ (1 / (1 - (1 / 2) ^ 53)) ^ n := one_le_pow₀ (by norm_num)
  have hK : (1 / (1 - (1 / 2 : ℝ) ^ 53)) ^ n - 1 ≤ 1 / 10 ^ 10 := by
    have hpos : (0 : ℝ) < (1 - (1 / 2) ^ 53) ^ n := pow_pos (by norm_num) n
    rw [div_pow, one_pow, sub_le_iff_le_add, div_le_iff₀ hpos]
    have : (n : ℝ) * (1 / 2) ^ 53 ≤ 2 * 10 ^ 5 * (1 / 2) ^ 53 := mul_le_mul_of_nonneg_right hn' (by positivity)
    norm_num at this hb ⊢
    nlinarith
  exact (h.near hk1 ht).1.trans (mul_le_mul_of_nonneg_right hK ht)

/-! ### Examples -/

/-- One station, a storm in the first two rows and a drizzle after it. -/
noncomputable def gauge : List (List (Option ℝ)) := [[some 5], [some (1 / 10)], [some (1 / 200)]]

/-- From left to right. -/
noncomputable def leftRight : List (List (Option ℝ)) → Order (List (Option ℝ))
  | [] => .one []
  | [a] => .one a
  | a :: r => .both (.one a) (leftRight r)

theorem leftRight_items (l : List (List (Option ℝ))) (h : l ≠ []) : (leftRight l).items = l := by
  induction l with
  | nil => exact absurd rfl h
  | cons a r ih =>
    cases r with
    | nil => rfl
    | cons b r =>
      unfold leftRight
      simp only [Order.items, ih (by simp), List.singleton_append]

theorem gauge_nonneg : Nonneg gauge := by
  intro row hrow x hx
  simp only [gauge, List.mem_cons, List.not_mem_nil, or_false] at hrow
  rcases hrow with rfl | rfl | rfl <;> simp at hx <;> subst hx <;> norm_num

theorem gauge_adds : Adds (fun _ => leftRight gauge) (fun _ => leftRight (clip [⟨0, 1, [some 5]⟩] gauge)) [⟨0, 1, [some 5]⟩] gauge :=
  fun _ => ⟨by rw [leftRight_items _ (by simp [gauge])], by rw [leftRight_items _ (by simp [gauge, clip])]⟩

theorem gauge_inside (i : Nat) (h : i ≤ 1) : ¬ Outside [(⟨0, 1, [some 5]⟩ : Storm Nat ℝ)] i :=
  fun ho => ho ⟨0, 1, [some 5]⟩ (by simp) ⟨Nat.zero_le _, h⟩

/-- The hypotheses of `C151_cell` at the second hour of the storm. -/
example : ∃ y z, at' (clipAndCorrect IdwFloat.double (fun _ => leftRight gauge) (fun _ => leftRight (clip [⟨0, 1, [some 5]⟩] gauge))
      [⟨0, 1, [some 5]⟩] 1 [] gauge) 1 0 = some (some y) ∧
    at' (Storms.clipAndCorrect [⟨0, 1, [some 5]⟩] 1 [] gauge) 1 0 = some (some z) ∧
    Rel ((1 / (1 - (1 / 2) ^ 53)) ^ ((leftRight gauge).depth + (leftRight (clip [⟨0, 1, [some 5]⟩] gauge)).depth + 2)) y z :=
  C151_cell double_error gauge_adds gauge_nonneg 1 [] 1 0 (.inr ⟨rfl, by norm_num⟩) (gauge_inside 1 (by norm_num)) (1 / 10) rfl

/-- The hypotheses of `C151_total` and `C151_double`. -/
example : |total (clipAndCorrect IdwFloat.double (fun _ => leftRight gauge) (fun _ => leftRight (clip [⟨0, 1, [some 5]⟩] gauge))
      [⟨0, 1, [some 5]⟩] 1 [] gauge) 0 - total gauge 0| ≤ 1 / 10 ^ 10 * total gauge 0 := by
  exact C151_double gauge_adds gauge_nonneg (by norm_num [gauge]) 1 [] 0 (.inr ⟨rfl, by norm_num⟩)
    (.inr ⟨0, 5, gauge_inside 0 (by norm_num), rfl, by norm_num⟩)

/-- The drizzle is removed. -/
example : at' (clipAndCorrect IdwFloat.double (fun _ => leftRight gauge) (fun _ => leftRight (clip [⟨0, 1, [some 5]⟩] gauge))
      [⟨0, 1, [some 5]⟩] 1 [] gauge) 2 0 = some (some 0) :=
  C151_outside double_error _ _ _ 1 [] gauge 2 0 (.inr ⟨rfl, by norm_num⟩)
    (by intro s hs; simp only [List.mem_cons, List.not_mem_nil, or_false] at hs; subst hs; simp) (by simp [at', gauge])

end Verif.ClipFloat
