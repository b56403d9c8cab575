import Verif.Stamp
import Verif.OutputProps
import Mathlib.Tactic.Linarith
import Mathlib.Tactic.NormNum
import Mathlib.Tactic.Ring
import Mathlib.Tactic.Positivity
import Mathlib.Tactic.FieldSimp
import Mathlib.RingTheory.Coprime.Lemmas

/-! Lemmas for C126: rounding to a binary format. -/

namespace Verif.Stamp

theorem nearest_near (x : ℚ) : |(nearest x : ℚ) - x| ≤ 1 / 2 := by
  have h1 := Int.floor_le x
  have h2 := Int.lt_floor_add_one x
  unfold nearest
  rw [abs_le]
  split
  · constructor <;> linarith
  · split
    · push_cast; constructor <;> linarith
    · split
      · constructor <;> linarith
      · push_cast; constructor <;> linarith

theorem nearest_tie (x : ℚ) (h : |(nearest x : ℚ) - x| = 1 / 2) : 2 ∣ nearest x := by
  have h1 := Int.floor_le x
  have h2 := Int.lt_floor_add_one x
  unfold nearest at *
  split at h
  · rename_i hc
    rw [abs_of_nonpos (by linarith)] at h
    linarith
  · rename_i hc
    split at h
    · rename_i hd
      rw [if_neg hc, if_pos hd]
      push_cast at h
      rw [abs_of_nonneg (by linarith)] at h
      linarith
    · rename_i hd
      rw [if_neg hc, if_neg hd]
      split
      · omega
      · omega

theorem nearest_int (n : ℤ) : nearest n = n := by
  unfold nearest
  rw [Int.floor_intCast, sub_self, if_pos (by norm_num)]

theorem nearest_of_near (x : ℚ) (n : ℤ) (h : |x - n| < 1 / 2) : nearest x = n := by
  have h1 := nearest_near x
  have h2 : |((nearest x - n : ℤ) : ℚ)| < 1 := by
    push_cast
    rw [abs_lt] at *
    rw [abs_le] at h1
    constructor <;> linarith
  have h3 : |nearest x - n| < 1 := by exact_mod_cast h2
  rw [Int.abs_lt_one_iff] at h3
  linarith

theorem nearest_mono {x y : ℚ} (h : x ≤ y) : nearest x ≤ nearest y := by
  rcases eq_or_lt_of_le h with rfl | hlt
  · exact le_refl _
  by_contra hc
  push Not at hc
  have h1 := nearest_near x
  have h2 := nearest_near y
  rw [abs_le] at h1 h2
  have h3 : ((nearest y : ℤ) : ℚ) + 1 ≤ nearest x := by exact_mod_cast hc
  linarith

theorem ulp_pos (p : ℕ) (q : ℚ) : 0 < ulp p q := by unfold ulp; exact zpow_pos (by norm_num) _

theorem ulp_neg (p : ℕ) (q : ℚ) : ulp p (-q) = ulp p q := by unfold ulp; rw [abs_neg]

theorem rnd_neg (p : ℕ) (q : ℚ) : rnd p (-q) = -rnd p q := by
  unfold rnd
  rcases lt_trichotomy q 0 with h | h | h
  · rw [if_neg (by linarith [neg_pos.2 h] : ¬ -q = 0), if_pos (by linarith), if_neg h.ne, if_neg (by linarith), ulp_neg, neg_neg]
  · simp [h]
  · rw [if_neg (by linarith : ¬ -q = 0), if_neg (by linarith), if_neg h.ne', if_pos h, ulp_neg, neg_neg]

/-- The error of rounding is at most half the spacing. -/
theorem rnd_near (p : ℕ) (q : ℚ) : |rnd p q - q| ≤ ulp p q / 2 := by
  have hu := ulp_pos p q
  have key : ∀ x : ℚ, |nearest (x / ulp p q) * ulp p q - x| ≤ ulp p q / 2 := by
    intro x
    have h := nearest_near (x / ulp p q)
    have e : nearest (x / ulp p q) * ulp p q - x = (nearest (x / ulp p q) - x / ulp p q) * ulp p q := by
      field_simp
    rw [e, abs_mul, abs_of_pos hu]
    nlinarith
  unfold rnd
  split
  · rename_i h
    rw [h, sub_self, abs_zero]
    exact div_nonneg (ulp_pos _ _).le (by norm_num)
  · split
    · exact key q
    · have := key (-q)
      rw [← abs_neg]
      convert this using 2
      ring

theorem ulp_le_of_lt (p : ℕ) (q : ℚ) (n : ℤ) (h0 : q ≠ 0) (h : |q| < 2 ^ n) : ulp p q ≤ 2 ^ (n - p) := by
  unfold ulp
  apply zpow_le_zpow_right₀ (by norm_num)
  have := (Int.lt_zpow_iff_log_lt (b := 2) (by norm_num) (x := n) (abs_pos.2 h0)).1 (by exact_mod_cast h)
  omega

/-- Numbers with at most `p` binary digits are not changed. -/
theorem rnd_exact (p : ℕ) (hp : 0 < p) (k z : ℤ) (hk : |k| ≤ 2 ^ p) : rnd p (k * 2 ^ z) = k * 2 ^ z := by
  have key : ∀ k : ℤ, 0 < k → k ≤ 2 ^ p → rnd p (k * 2 ^ z) = k * 2 ^ z := by
    intro k h0 h1
    have hq : (0 : ℚ) < k * 2 ^ z := mul_pos (by exact_mod_cast h0) (zpow_pos (by norm_num) _)
    unfold rnd
    rw [if_neg hq.ne', if_pos hq]
    have hu : ∃ j : ℤ, (k * 2 ^ z : ℚ) / ulp p (k * 2 ^ z) = j := by
      unfold ulp
      rw [abs_of_pos hq]
      have hlog : Int.log 2 ((k : ℚ) * 2 ^ z) - p + 1 ≤ z ∨ k = 2 ^ p := by
        rcases lt_or_eq_of_le h1 with h | h
        · left
          have hlt : (k : ℚ) * 2 ^ z < ((2 : ℕ) : ℚ) ^ (p + z) := by
            rw [zpow_add₀ (by norm_num)]
            push_cast
            apply mul_lt_mul_of_pos_right _ (zpow_pos (by norm_num) _)
            rw [zpow_natCast]
            exact_mod_cast h
          have := (Int.lt_zpow_iff_log_lt (b := 2) (by norm_num) hq).1 hlt
          omega
        · exact .inr h
      rcases hlog with h | h
      · refine ⟨k * 2 ^ (z - (Int.log 2 ((k : ℚ) * 2 ^ z) - p + 1)).toNat, ?_⟩
        push_cast
        rw [mul_div_assoc, ← zpow_sub₀ (by norm_num), ← zpow_natCast, Int.toNat_of_nonneg (by omega)]
      · have e : (k : ℚ) * 2 ^ z = ((2 : ℕ) : ℚ) ^ ((p : ℤ) + z) := by
          rw [h, zpow_add₀ (by norm_num)]
          push_cast
          rw [zpow_natCast]
        rw [e, Int.log_zpow (by norm_num)]
        refine ⟨2 ^ (p - 1), ?_⟩
        push_cast
        rw [← zpow_sub₀ (by norm_num), ← zpow_natCast, Nat.cast_sub hp]
        congr 1
        push_cast
        ring
    obtain ⟨j, hj⟩ := hu
    rw [hj, nearest_int, ← hj, div_mul_cancel₀ _ (ulp_pos _ _).ne']
  rcases lt_trichotomy k 0 with h | h | h
  · have := key (-k) (by omega) (by rw [abs_of_neg h] at hk; exact hk)
    push_cast at this
    rw [neg_mul, rnd_neg] at this
    linarith
  · subst h
    unfold rnd
    simp
  · exact key k h (by rw [abs_of_pos h] at hk; exact hk)

theorem rnd_zero (p : ℕ) : rnd p 0 = 0 := by unfold rnd; simp

theorem rnd_err (p : ℕ) (q : ℚ) (n : ℤ) (h : |q| < 2 ^ n) : |rnd p q - q| ≤ 2 ^ (n - p) / 2 := by
  rcases eq_or_ne q 0 with h0 | h0
  · rw [h0, rnd_zero, sub_self, abs_zero]
    exact div_nonneg (zpow_pos (by norm_num) _).le (by norm_num)
  · have h1 := rnd_near p q
    have h2 := ulp_le_of_lt p q n h0 h
    linarith

/-- The result is a multiple of the spacing. -/
theorem rnd_multiple (p : ℕ) (q : ℚ) : ∃ k : ℤ, rnd p q = k * ulp p q := by
  unfold rnd
  split
  · exact ⟨0, by simp⟩
  · split
    · exact ⟨_, rfl⟩
    · exact ⟨-nearest (-q / ulp p q), by push_cast; ring⟩

theorem ulp_ge (p : ℕ) (q : ℚ) (n : ℤ) (h : 2 ^ n ≤ |q|) : 2 ^ (n - p + 1) ≤ ulp p q := by
  unfold ulp
  apply zpow_le_zpow_right₀ (by norm_num)
  have h0 : 0 < |q| := lt_of_lt_of_le (zpow_pos (by norm_num) _) h
  have := (Int.zpow_le_iff_le_log (b := 2) (by norm_num) (x := n) h0).1 (by exact_mod_cast h)
  omega

/-- A number of minutes that is not a multiple of 15 is at a distance from every multiple of a power of two. -/
theorem far (m k z : ℤ) (hm : ¬ 15 ∣ m) : min (2 ^ z / 15) (1 / 60) ≤ |(k : ℚ) * 2 ^ z - m / 60| := by
  rcases le_or_gt z (-2) with hz | hz
  · apply le_trans (min_le_left _ _)
    obtain ⟨j, hj⟩ : ∃ j : ℕ, z = -2 - j := ⟨(-2 - z).toNat, by omega⟩
    have h2 : (0 : ℚ) < 2 ^ z := zpow_pos (by norm_num) _
    have e4 : (2 : ℚ) ^ z * 2 ^ j = 1 / 4 := by
      rw [hj, ← zpow_natCast, ← zpow_add₀ (by norm_num)]
      rw [show (-2 - (j : ℤ) + j) = -2 by ring]
      norm_num
    have e : (k : ℚ) * 2 ^ z - m / 60 = 2 ^ z / 15 * ((15 * k - m * 2 ^ j : ℤ) : ℚ) := by
      push_cast
      have : (m : ℚ) / 60 = 2 ^ z / 15 * (m * 2 ^ j) := by
        rw [show (2 : ℚ) ^ z / 15 * (m * 2 ^ j) = (2 ^ z * 2 ^ j) * m / 15 by ring, e4]
        ring
      rw [this]
      ring
    have hne : (15 * k - m * 2 ^ j : ℤ) ≠ 0 := by
      intro h0
      apply hm
      have hd : (15 : ℤ) ∣ m * 2 ^ j := ⟨k, by linarith⟩
      have hc : IsCoprime (15 : ℤ) (2 ^ j) := IsCoprime.pow_right (by exact ⟨1, -7, by norm_num⟩)
      exact hc.dvd_of_dvd_mul_right hd
    have h1 : (1 : ℚ) ≤ |((15 * k - m * 2 ^ j : ℤ) : ℚ)| := by
      rw [← Int.cast_abs]
      exact_mod_cast Int.one_le_abs hne
    rw [e, abs_mul, abs_of_pos (by positivity)]
    nlinarith [div_pos h2 (show (0 : ℚ) < 15 by norm_num)]
  · apply le_trans (min_le_right _ _)
    obtain ⟨i, hi⟩ : ∃ i : ℤ, 60 * ((k : ℚ) * 2 ^ z) = 15 * (i : ℚ) := by
      obtain ⟨j, hj⟩ : ∃ j : ℕ, z = j - 1 := ⟨(z + 1).toNat, by omega⟩
      refine ⟨2 * k * 2 ^ j, ?_⟩
      have : (2 : ℚ) ^ z = 2 ^ j / 2 := by rw [hj, zpow_sub₀ (by norm_num), zpow_natCast]; norm_num
      rw [this]
      push_cast
      ring
    have e : (k : ℚ) * 2 ^ z - m / 60 = 1 / 60 * ((15 * i - m : ℤ) : ℚ) := by
      push_cast
      rw [← hi]
      ring
    have hne : (15 * i - m : ℤ) ≠ 0 := fun h0 => hm ⟨i, by linarith⟩
    have h1 : (1 : ℚ) ≤ |((15 * i - m : ℤ) : ℚ)| := by
      rw [← Int.cast_abs]
      exact_mod_cast Int.one_le_abs hne
    rw [e, abs_mul, abs_of_pos (by norm_num)]
    linarith

end Verif.Stamp
