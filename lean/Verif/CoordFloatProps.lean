import Verif.CoordFloat
import Verif.RestartFloatProps

/-!
C155: the coordinates in the output files identify the cells when the cells are larger than 1.2 m, but they are not those of the
topo file.
-/

namespace Verif.CoordFloat
open Verif.RestartFloat (Precision)

/-- Claimed: with `netcdf_output_precision = double` the coordinates are those of the topo, here for multiples of 1/8 m. -/
def C155_full : Prop := ∀ a : Axes, (∀ t ∈ a.x ++ a.y, ∃ z : ℤ, t = z / 8) → written .double a = a

/-- Numbers with few digits are not changed by rounding. -/
theorem binary_exact (n : ℕ) (z k : ℤ) (hz : |z| ≤ 2 ^ (n + 1)) : IdwFloat.binary (n + 1) (z * (2 : ℝ) ^ k) = z * (2 : ℝ) ^ k := by
  by_cases z0 : z = 0
  · subst z0; simp [IdwFloat.binary]
  have zr : (z : ℝ) ≠ 0 := by exact_mod_cast z0
  have p : ∀ m : ℤ, (0 : ℝ) < 2 ^ m := fun m => by positivity
  set x : ℝ := z * (2 : ℝ) ^ k with hx
  have hpos : 0 < |x| := abs_pos.2 (mul_ne_zero zr (p k).ne')
  have hax : |x| = |(z : ℝ)| * (2 : ℝ) ^ k := by rw [hx, abs_mul, abs_of_pos (p k)]
  have hle : |x| ≤ (2 : ℝ) ^ ((n : ℤ) + 1 + k) := by
    rw [hax, zpow_add₀ (by norm_num)]
    refine mul_le_mul_of_nonneg_right ?_ (p k).le
    have : ((|z| : ℤ) : ℝ) ≤ ((2 ^ (n + 1) : ℤ) : ℝ) := by exact_mod_cast hz
    rw [Int.cast_abs] at this
    refine this.trans (le_of_eq ?_)
    push_cast
    norm_cast
  set e := Int.log 2 |x| with he
  have hlog : (2 : ℝ) ^ e ≤ |x| := by exact_mod_cast Int.zpow_log_le_self (b := 2) (by norm_num) hpos
  have hen : e ≤ n + 1 + k := (zpow_le_zpow_iff_right₀ (by norm_num : (1 : ℝ) < 2)).1 (hlog.trans hle)
  have key : ∃ m : ℤ, x * (2 : ℝ) ^ ((n : ℤ) - e) = m := by
    rcases lt_or_eq_of_le hen with hlt | heq
    · refine ⟨z * 2 ^ ((n : ℤ) + k - e).toNat, ?_⟩
      have : ((n : ℤ) + k - e).toNat = (n : ℤ) + k - e := Int.toNat_of_nonneg (by omega)
      push_cast
      rw [hx, mul_assoc, ← zpow_add₀ (by norm_num), ← zpow_natCast (2 : ℝ), this]
      congr 2
      ring
    · have hzabs : |(z : ℝ)| = (2 : ℝ) ^ ((n : ℤ) + 1) := by
        have h1 : |x| = (2 : ℝ) ^ ((n : ℤ) + 1 + k) := le_antisymm hle (heq ▸ hlog)
        rw [hax, zpow_add₀ (by norm_num)] at h1
        exact mul_right_cancel₀ (p k).ne' h1
      have h2 : k + ((n : ℤ) - e) = -1 := by omega
      rw [hx, mul_assoc, ← zpow_add₀ (by norm_num), h2]
      rw [zpow_add₀ (by norm_num), zpow_natCast, zpow_one] at hzabs
      rcases abs_choice (z : ℝ) with h | h
      · refine ⟨2 ^ n, ?_⟩
        rw [h] at hzabs
        rw [hzabs]
        push_cast
        norm_num
        ring
      · refine ⟨-2 ^ n, ?_⟩
        rw [h] at hzabs
        have : (z : ℝ) = -(2 ^ n * 2) := by linarith
        rw [this]
        push_cast
        norm_num
        ring
  obtain ⟨m, hm⟩ := key
  unfold IdwFloat.binary
  rw [← he]
  have e1 : (((n + 1 : ℕ) : ℤ) - 1 - e) = (n : ℤ) - e := by push_cast; ring
  have e2 : (e - (((n + 1 : ℕ) : ℤ) - 1)) = e - n := by push_cast; ring
  rw [e1, e2, hm, round_intCast, ← hm, mul_assoc, ← zpow_add₀ (by norm_num)]
  simp

/-- Coordinates that are multiples of half a metre, up to 8388608 m, are kept. -/
theorem C155_exact_partial (p : Precision) (a : Axes) (h : ∀ t ∈ a.x ++ a.y, ∃ z : ℤ, t = z / 2 ∧ |t| ≤ 2 ^ 23) : written p a = a := by
  have key : ∀ t ∈ a.x ++ a.y, stored t = t := by
    intro t ht
    obtain ⟨z, hz, hb⟩ := h t ht
    have := binary_exact 23 z (-1) (by
      rw [hz, abs_div, abs_of_pos (by norm_num : (0 : ℝ) < 2), div_le_iff₀ (by norm_num)] at hb
      have : ((|z| : ℤ) : ℝ) ≤ ((2 ^ 24 : ℤ) : ℝ) := by push_cast; linarith
      exact_mod_cast this)
    have e : t = z * (2 : ℝ) ^ (-1 : ℤ) := by rw [hz]; norm_num; ring
    rw [e]
    exact this
  unfold written
  have e1 : a.x.map stored = a.x := by
    conv_rhs => rw [← List.map_id a.x]
    exact List.map_congr_left fun t ht => key t (by simp [ht])
  have e2 : a.y.map stored = a.y := by
    conv_rhs => rw [← List.map_id a.y]
    exact List.map_congr_left fun t ht => key t (by simp [ht])
  rw [e1, e2]

/-- A coordinate of up to 10000 km is off by less than 0.6 m. -/
theorem C155_near (t : ℝ) (h : |t| ≤ 10 ^ 7) : |stored t - t| < 6 / 10 := by
  refine lt_of_le_of_lt (IdwFloat.C144_nearest 23 t) (lt_of_le_of_lt (mul_le_mul_of_nonneg_left h (by positivity)) ?_)
  norm_num

/-- Cells of 1.2 m or more keep their order along both axes, ascending or descending. -/
theorem C155_order (p : Precision) (a : Axes) (h : ∀ t ∈ a.x ++ a.y, |t| ≤ 10 ^ 7) :
    (a.x.Pairwise (fun s t => s + 6 / 5 ≤ t) → (written p a).x.Pairwise (· < ·)) ∧
    (a.y.Pairwise (fun s t => s + 6 / 5 ≤ t) → (written p a).y.Pairwise (· < ·)) ∧
    (a.x.Pairwise (fun s t => t + 6 / 5 ≤ s) → (written p a).x.Pairwise (· > ·)) ∧
    (a.y.Pairwise (fun s t => t + 6 / 5 ≤ s) → (written p a).y.Pairwise (· > ·)) := by
  have key : ∀ s t : ℝ, |s| ≤ 10 ^ 7 → |t| ≤ 10 ^ 7 → s + 6 / 5 ≤ t → stored s < stored t := by
    intro s t hs ht hst
    have a := abs_lt.1 (C155_near s hs)
    have b := abs_lt.1 (C155_near t ht)
    linarith [a.2, b.1]
  have up : ∀ l : List ℝ, (∀ t ∈ l, |t| ≤ 10 ^ 7) → l.Pairwise (fun s t => s + 6 / 5 ≤ t) → (l.map stored).Pairwise (· < ·) := by
    intro l hl hp
    rw [List.pairwise_map]
    exact hp.imp_of_mem fun hs ht hst => key _ _ (hl _ hs) (hl _ ht) hst
  have down : ∀ l : List ℝ, (∀ t ∈ l, |t| ≤ 10 ^ 7) → l.Pairwise (fun s t => t + 6 / 5 ≤ s) → (l.map stored).Pairwise (· > ·) := by
    intro l hl hp
    rw [List.pairwise_map]
    exact hp.imp_of_mem fun hs ht hst => key _ _ (hl _ ht) (hl _ hs) hst
  exact ⟨up a.x fun t ht => h t (by simp [ht]), up a.y fun t ht => h t (by simp [ht]), down a.x fun t ht => h t (by simp [ht]),
    down a.y fun t ht => h t (by simp [ht])⟩

/-- Smaller cells are lost: half way up the northern hemisphere, neighbours 0.25 m apart get the same coordinate. -/
theorem C155_collapse_fails (p : Precision) :
    (written p ⟨[], [39199999 / 8, 39200001 / 8]⟩).y = [4900000, 4900000] := by
  have h1 : stored (39199999 / 8) = 4900000 := by
    unfold stored
    rw [RestartFloat.binary_eval 24 (by norm_num) 22 (by norm_num) (by norm_num) 9800000 (by norm_num) (by norm_num)]
    norm_num
  have h2 : stored (39200001 / 8) = 4900000 := by
    unfold stored
    rw [RestartFloat.binary_eval 24 (by norm_num) 22 (by norm_num) (by norm_num) 9800000 (by norm_num) (by norm_num)]
    norm_num
  simp [written, h1, h2]

theorem C155_fails : ¬ C155_full := by
  intro h
  have h1 := h ⟨[], [39199999 / 8, 39200001 / 8]⟩ (by
    intro t ht
    simp only [List.nil_append, List.mem_cons, List.not_mem_nil, or_false] at ht
    rcases ht with rfl | rfl
    · exact ⟨39199999, by norm_num⟩
    · exact ⟨39200001, by norm_num⟩)
  have h2 := C155_collapse_fails .double
  rw [h1] at h2
  simp only [List.cons.injEq] at h2
  norm_num at h2

/-- A grid of 50 m cells in the middle of Idaho. -/
example (p : Precision) : written p ⟨[600000, 600050], [4850050, 4850000]⟩ = ⟨[600000, 600050], [4850050, 4850000]⟩ :=
  C155_exact_partial p _ (by
    intro t ht
    simp only [List.cons_append, List.nil_append, List.mem_cons, List.not_mem_nil, or_false] at ht
    rcases ht with rfl | rfl | rfl | rfl
    · exact ⟨1200000, by norm_num, by norm_num⟩
    · exact ⟨1200100, by norm_num, by norm_num⟩
    · exact ⟨9700100, by norm_num, by norm_num⟩
    · exact ⟨9700000, by norm_num, by norm_num⟩)

example (p : Precision) : (written p ⟨[6000003 / 10, 6000016 / 10], []⟩).x.Pairwise (· < ·) :=
  (C155_order p _ (by
    intro t ht
    simp only [List.append_nil, List.mem_cons, List.not_mem_nil, or_false] at ht
    rcases ht with rfl | rfl <;> norm_num)).1 (by simp; norm_num)

end Verif.CoordFloat
