import Verif.SunDigits
import Verif.SunOrbitProps
import Verif.DiskFloatProps
import Verif.CoordFloatProps

/-! C162: the digits of the position of the sun that `sunang` keeps. -/

namespace Verif.SunDigits

/-! ### Nearest integers -/

theorem nearestEven_cases (x : ℝ) : nearestEven x = ⌊x⌋ ∧ Int.fract x ≤ 1 / 2 ∨ nearestEven x = ⌊x⌋ + 1 ∧ 1 / 2 ≤ Int.fract x := by
  unfold nearestEven
  split
  · left; exact ⟨rfl, by linarith⟩
  · split
    · right; exact ⟨rfl, by linarith⟩
    · split
      · left; exact ⟨rfl, by linarith⟩
      · right; exact ⟨rfl, by linarith⟩

theorem nearestEven_error (x : ℝ) : |(nearestEven x : ℝ) - x| ≤ 1 / 2 := by
  have h := Int.floor_add_fract x
  have h0 := Int.fract_nonneg x
  have h1 := Int.fract_lt_one x
  rw [abs_le]
  rcases nearestEven_cases x with ⟨e, hf⟩ | ⟨e, hf⟩ <;> rw [e] <;> push_cast <;> constructor <;> linarith

theorem nearestEven_mono {x y : ℝ} (h : x ≤ y) : nearestEven x ≤ nearestEven y := by
  have hf := Int.floor_le_floor h
  rcases lt_or_eq_of_le hf with hlt | heq
  · rcases nearestEven_cases x with ⟨e, _⟩ | ⟨e, _⟩ <;> rcases nearestEven_cases y with ⟨e', _⟩ | ⟨e', _⟩ <;> omega
  · have hx := Int.floor_add_fract x
    have hy := Int.floor_add_fract y
    have hfr : Int.fract x ≤ Int.fract y := by
      have : (⌊x⌋ : ℝ) = ⌊y⌋ := by exact_mod_cast heq
      linarith
    rcases lt_or_eq_of_le hfr with h1 | h1
    · rcases nearestEven_cases x with ⟨e, a⟩ | ⟨e, a⟩ <;> rcases nearestEven_cases y with ⟨e', b⟩ | ⟨e', b⟩
      all_goals first | omega | (exfalso; linarith)
    · unfold nearestEven
      rw [heq, h1]

theorem nearestEven_eq {x : ℝ} {k : ℤ} (h : |x - k| < 1 / 2) : nearestEven x = k := by
  have h1 := nearestEven_error x
  have h2 : |((nearestEven x - k : ℤ) : ℝ)| < 1 := by
    push_cast
    calc |(nearestEven x : ℝ) - k| ≤ |(nearestEven x : ℝ) - x| + |x - k| := abs_sub_le _ _ _
      _ < 1 := by linarith
  have h3 : |nearestEven x - k| < 1 := by exact_mod_cast h2
  have := Int.abs_lt_one_iff.1 h3
  omega

theorem nearestEven_int (k : ℤ) : nearestEven (k : ℝ) = k := nearestEven_eq (by simp)

/-! ### Digits -/

theorem fixed_error (n : ℕ) (x : ℝ) : |fixed n x - x| ≤ 1 / 2 / 10 ^ n := by
  have hp : (0 : ℝ) < 10 ^ n := by positivity
  have e : fixed n x - x = ((nearestEven (x * 10 ^ n) : ℝ) - x * 10 ^ n) / 10 ^ n := by
    unfold fixed; field_simp
  rw [e, abs_div, abs_of_pos hp]
  gcongr
  exact nearestEven_error _

theorem fixed_mono (n : ℕ) {x y : ℝ} (h : x ≤ y) : fixed n x ≤ fixed n y := by
  unfold fixed
  have : nearestEven (x * 10 ^ n) ≤ nearestEven (y * 10 ^ n) := nearestEven_mono (by gcongr)
  have : (nearestEven (x * 10 ^ n) : ℝ) ≤ nearestEven (y * 10 ^ n) := by exact_mod_cast this
  gcongr

theorem fixed_zero (n : ℕ) : fixed n 0 = 0 := by
  unfold fixed
  have := nearestEven_int 0
  simp only [Int.cast_zero] at this
  rw [zero_mul, this]; simp

theorem fixed_whole (n : ℕ) (k : ℤ) : fixed n (k / 10 ^ n) = k / 10 ^ n := by
  unfold fixed
  have hp : (10 : ℝ) ^ n ≠ 0 := by positivity
  rw [div_mul_cancel₀ _ hp, nearestEven_int]

private theorem p10 (m : ℤ) : (0 : ℝ) < 10 ^ m := by positivity

theorem general_zero (n : ℕ) : general n 0 = 0 := by unfold general; rw [if_pos rfl]

private theorem general_scale (a : ℤ) : (10 : ℝ) ^ a * (10 : ℝ) ^ (-a) = 1 := by
  rw [← zpow_add₀ (by norm_num)]; simp

/-- The error is half a unit of the last digit. -/
theorem general_error (n : ℕ) {x : ℝ} (hx : 0 < x) : |general n x - x| ≤ 1 / 2 * (10 : ℝ) ^ (Int.log 10 x - ((n : ℤ) - 1)) := by
  unfold general
  rw [if_neg hx.ne']
  set l := Int.log 10 x
  set s : ℤ := l - ((n : ℤ) - 1) with hs
  rw [show (n : ℤ) - 1 - l = -s by omega]
  have e : (nearestEven (x * (10 : ℝ) ^ (-s)) : ℝ) * (10 : ℝ) ^ s - x =
      ((nearestEven (x * (10 : ℝ) ^ (-s)) : ℝ) - x * (10 : ℝ) ^ (-s)) * (10 : ℝ) ^ s := by
    have := general_scale s
    linear_combination x * this
  rw [e, abs_mul, abs_of_pos (p10 s)]
  exact mul_le_mul_of_nonneg_right (nearestEven_error _) (p10 s).le

theorem log_bounds {x : ℝ} (hx : 0 < x) : (10 : ℝ) ^ Int.log 10 x ≤ x ∧ x < (10 : ℝ) ^ (Int.log 10 x + 1) :=
  ⟨by exact_mod_cast Int.zpow_log_le_self (b := 10) (by norm_num) hx,
    by exact_mod_cast Int.lt_zpow_succ_log_self (b := 10) (by norm_num) x⟩

theorem general_between (n : ℕ) {x : ℝ} (hx : 0 < x) :
    (10 : ℝ) ^ Int.log 10 x ≤ general (n + 1) x ∧ general (n + 1) x ≤ (10 : ℝ) ^ (Int.log 10 x + 1) := by
  obtain ⟨h1, h2⟩ := log_bounds hx
  unfold general
  rw [if_neg hx.ne']
  set l := Int.log 10 x
  rw [show ((n + 1 : ℕ) : ℤ) - 1 - l = n - l by push_cast; ring, show l - (((n + 1 : ℕ) : ℤ) - 1) = l - n by push_cast; ring]
  have a : (10 : ℝ) ^ l = (((10 ^ n : ℕ) : ℤ) : ℝ) * (10 : ℝ) ^ (l - n) := by
    push_cast
    rw [← zpow_natCast, ← zpow_add₀ (by norm_num)]; congr 1; ring
  have b : (10 : ℝ) ^ (l + 1) = (((10 ^ (n + 1) : ℕ) : ℤ) : ℝ) * (10 : ℝ) ^ (l - n) := by
    push_cast
    rw [← zpow_natCast, ← zpow_add₀ (by norm_num)]; congr 1; push_cast; ring
  have c : (10 : ℝ) ^ (l - n) * (10 : ℝ) ^ (n - l) = 1 := by rw [← zpow_add₀ (by norm_num)]; simp
  have ha : (((10 ^ n : ℕ) : ℤ) : ℝ) ≤ x * (10 : ℝ) ^ (n - l) := by
    have := mul_le_mul_of_nonneg_right h1 (p10 (n - l)).le
    rw [a, mul_assoc, c, mul_one] at this
    exact this
  have hb : x * (10 : ℝ) ^ (n - l) ≤ (((10 ^ (n + 1) : ℕ) : ℤ) : ℝ) := by
    have := mul_le_mul_of_nonneg_right h2.le (p10 (n - l)).le
    rw [b, mul_assoc, c, mul_one] at this
    exact this
  have ha' := nearestEven_mono ha
  have hb' := nearestEven_mono hb
  rw [nearestEven_int] at ha' hb'
  rw [a, b]
  exact ⟨mul_le_mul_of_nonneg_right (by exact_mod_cast ha') (p10 _).le, mul_le_mul_of_nonneg_right (by exact_mod_cast hb') (p10 _).le⟩

theorem general_mono (n : ℕ) {x y : ℝ} (hx : 0 ≤ x) (h : x ≤ y) : general (n + 1) x ≤ general (n + 1) y := by
  rcases eq_or_lt_of_le hx with h0 | h0
  · rw [← h0, general_zero]
    rcases eq_or_lt_of_le (hx.trans h) with hy | hy
    · rw [← hy, general_zero]
    · exact (p10 _).le.trans (general_between n hy).1
  have hl : Int.log 10 x ≤ Int.log 10 y := Int.log_mono_right h0 h
  rcases lt_or_eq_of_le hl with hlt | heq
  · refine (general_between n h0).2.trans (le_trans ?_ (general_between n (h0.trans_le h)).1)
    exact zpow_le_zpow_right₀ (by norm_num) (by omega)
  · unfold general
    rw [if_neg h0.ne', if_neg (h0.trans_le h).ne', heq]
    refine mul_le_mul_of_nonneg_right ?_ (p10 _).le
    exact_mod_cast nearestEven_mono (mul_le_mul_of_nonneg_right h (p10 _).le)

/-! ### Printed and read back -/

/-- The sign is kept apart from the digits. -/
private theorem signed_error {digits : ℝ → ℝ} {x d : ℝ} (h : |digits (|x|) - (|x|)| ≤ d) :
    |(if x < 0 then -digits (-x) else digits x) - x| ≤ d := by
  split
  · rename_i hx
    rw [abs_of_neg hx] at h
    rw [← abs_neg]
    convert h using 2; ring
  · rename_i hx
    rw [abs_of_nonneg (not_lt.1 hx)] at h
    exact h

private theorem signed_mono {digits : ℝ → ℝ} (h0 : digits 0 = 0) (hm : ∀ a b, 0 ≤ a → a ≤ b → digits a ≤ digits b) {x y : ℝ} (h : x ≤ y) :
    (if x < 0 then -digits (-x) else digits x) ≤ (if y < 0 then -digits (-y) else digits y) := by
  have hn : ∀ a, 0 ≤ a → 0 ≤ digits a := fun a ha => h0 ▸ hm 0 a le_rfl ha
  split <;> split
  · exact neg_le_neg (hm _ _ (by linarith) (by linarith))
  · have := hn (-x) (by linarith)
    have := hn y (by linarith)
    linarith
  · linarith
  · exact hm _ _ (by linarith) h

theorem reread_mono {digits : ℝ → ℝ} (h0 : digits 0 = 0) (hm : ∀ a b, 0 ≤ a → a ≤ b → digits a ≤ digits b) {x y : ℝ} (h : x ≤ y) :
    reread digits x ≤ reread digits y := DiskFloat.binary_mono 52 (signed_mono h0 hm h)

theorem reread_error {digits : ℝ → ℝ} {x d : ℝ} (h : |digits (|x|) - (|x|)| ≤ d) :
    |reread digits x - x| ≤ d + (1 / 2) ^ 53 * (|x| + d) := by
  have h1 := signed_error h
  unfold reread
  set v := if x < 0 then -digits (-x) else digits x
  have h2 := IdwFloat.C144_nearest 52 v
  have h3 : |v| ≤ |x| + d := by
    have := abs_add_le (v - x) x
    rw [sub_add_cancel] at this
    linarith
  calc |IdwFloat.binary 53 v - x| ≤ |IdwFloat.binary 53 v - v| + |v - x| := abs_sub_le _ _ _
    _ ≤ (1 / 2) ^ 53 * |v| + d := add_le_add h2 h1
    _ ≤ d + (1 / 2) ^ 53 * (|x| + d) := by nlinarith [show (0 : ℝ) < (1 / 2) ^ 53 by positivity]

/-- A whole number of at most 53 binary digits is read back as it is. -/
theorem binary_whole (k : ℤ) (h : |k| ≤ 2 ^ 53) : IdwFloat.binary 53 (k : ℝ) = k := by
  have := CoordFloat.binary_exact 52 k 0 h
  simpa using this

/-! ### C162 -/

/-- C162: the order of the values is kept, for all three results. -/
theorem C162_order {x y : ℝ} (h : x ≤ y) : cosine x ≤ cosine y ∧ azimuth x ≤ azimuth y ∧ radius x ≤ radius y :=
  ⟨reread_mono (fixed_zero 6) (fun _ _ _ h => fixed_mono 6 h) h, reread_mono (general_zero 5) (fun _ _ h0 h => general_mono 4 h0 h) h,
    reread_mono (general_zero 5) (fun _ _ h0 h => general_mono 4 h0 h) h⟩

theorem reread_neg (digits : ℝ → ℝ) (h0 : digits 0 = 0) (x : ℝ) (hx : 0 ≤ x) :
    reread digits (-x) = IdwFloat.binary 53 (-digits x) ∧ reread digits x = IdwFloat.binary 53 (digits x) := by
  unfold reread
  rw [if_neg (not_lt.2 hx)]
  refine ⟨?_, rfl⟩
  rcases eq_or_lt_of_le hx with h | h
  · rw [← h]; simp [h0]
  · rw [if_pos (by linarith), neg_neg]

private theorem cosine_one : cosine 1 = 1 ∧ cosine (-1) = -1 := by
  have e : fixed 6 1 = 1 := by
    have := fixed_whole 6 1000000
    norm_num at this
    exact this
  obtain ⟨a, b⟩ := reread_neg (fixed 6) (fixed_zero 6) 1 (by norm_num)
  have h1 := binary_whole 1 (by norm_num)
  have h2 := binary_whole (-1) (by norm_num)
  push_cast at h1 h2
  unfold cosine
  rw [a, b, e]
  exact ⟨h1, h2⟩

private theorem log_eq {x : ℝ} {l : ℤ} (h1 : (10 : ℝ) ^ l ≤ x) (h2 : x < (10 : ℝ) ^ (l + 1)) : Int.log 10 x = l := by
  have hx : 0 < x := (p10 l).trans_le h1
  refine le_antisymm ?_ ?_
  · have := (Int.lt_zpow_iff_log_lt (b := 10) (by norm_num) hx (x := l + 1)).1 (by exact_mod_cast h2)
    omega
  · exact (Int.zpow_le_iff_le_log (b := 10) (by norm_num) hx).1 (by exact_mod_cast h1)

private theorem log_le {x : ℝ} {l : ℤ} (hx : 0 < x) (h2 : x < (10 : ℝ) ^ (l + 1)) : Int.log 10 x ≤ l := by
  have := (Int.lt_zpow_iff_log_lt (b := 10) (by norm_num) hx (x := l + 1)).1 (by exact_mod_cast h2)
  omega

/-- A number with five significant digits is printed as it is. -/
private theorem general_whole {x : ℝ} {l : ℤ} (h1 : (10 : ℝ) ^ l ≤ x) (h2 : x < (10 : ℝ) ^ (l + 1)) (k : ℤ)
    (hk : x = k * (10 : ℝ) ^ (l - 4)) : general 5 x = x := by
  have hx : 0 < x := (p10 l).trans_le h1
  unfold general
  rw [if_neg hx.ne', log_eq h1 h2]
  have c : (10 : ℝ) ^ (l - 4) * (10 : ℝ) ^ (4 - l) = 1 := by rw [← zpow_add₀ (by norm_num)]; simp
  rw [show ((5 : ℕ) : ℤ) - 1 - l = 4 - l by push_cast; ring, show l - (((5 : ℕ) : ℤ) - 1) = l - 4 by push_cast; ring]
  have e : x * (10 : ℝ) ^ (4 - l) = (k : ℝ) := by rw [hk, mul_assoc, c, mul_one]
  rw [e, nearestEven_int, ← hk]

private theorem azimuth_half : azimuth 180 = 180 ∧ azimuth (-180) = -180 := by
  have e : general 5 180 = 180 := general_whole (l := 2) (by norm_num) (by norm_num) 18000 (by norm_num)
  obtain ⟨a, b⟩ := reread_neg (general 5) (general_zero 5) 180 (by norm_num)
  have h1 := binary_whole 180 (by norm_num)
  have h2 := binary_whole (-180) (by norm_num)
  push_cast at h1 h2
  unfold azimuth
  rw [a, b, e]
  exact ⟨h1, h2⟩

/-- C162: the cosine of the zenith angle moves by half a unit of its sixth decimal at most, up to the rounding of the `double` that is
read, and remains the cosine of an angle. -/
theorem C162_cosine (mu : ℝ) (h : |mu| ≤ 1) : |cosine mu| ≤ 1 ∧ |cosine mu - mu| ≤ 5e-7 + 2 * (1 / 2) ^ 53 := by
  have hb := abs_le.1 h
  refine ⟨abs_le.2 ⟨?_, ?_⟩, ?_⟩
  · have := (C162_order hb.1).1
    rwa [cosine_one.2] at this
  · have := (C162_order hb.2).1
    rwa [cosine_one.1] at this
  · have := reread_error (digits := fixed 6) (x := mu) (fixed_error 6 |mu|)
    refine this.trans ?_
    have : (1 / 2 : ℝ) / 10 ^ 6 = 5e-7 := by norm_num
    rw [this]
    have : (0 : ℝ) < (1 / 2) ^ 53 := by positivity
    nlinarith

/-- C162: five digits of any number, printed and read, differ from it by at most five units of the sixth digit, up to the rounding of the
`double`. -/
theorem C162_digits (x : ℝ) : |reread (general 5) x - x| ≤ (5 / 10 ^ 5 + 2 * (1 / 2) ^ 53) * |x| := by
  rcases eq_or_ne x 0 with h0 | h0
  · subst h0
    unfold reread
    simp [general_zero, DiskFloat.binary_zero]
  have hx : 0 < |x| := abs_pos.2 h0
  have h1 := general_error 5 hx
  have h2 : 1 / 2 * (10 : ℝ) ^ (Int.log 10 |x| - (((5 : ℕ) : ℤ) - 1)) ≤ 5 / 10 ^ 5 * |x| := by
    have := (log_bounds hx).1
    rw [zpow_sub₀ (by norm_num)]
    norm_num
    linarith
  have h3 := reread_error (digits := general 5) (x := x) (h1.trans h2)
  refine h3.trans ?_
  have : (0 : ℝ) < (1 / 2) ^ 53 := by positivity
  nlinarith

/-- C162: the azimuth moves by 0.005 degrees at most, up to the rounding of the `double`, and by less when it is small; it remains within
half a turn from south. -/
theorem C162_azimuth (az : ℝ) (h : |az| ≤ 180) : |azimuth az| ≤ 180 ∧ |azimuth az - az| ≤ 0.005 + 181 * (1 / 2) ^ 53 ∧
    |azimuth az - az| ≤ (5 / 10 ^ 5 + 2 * (1 / 2) ^ 53) * |az| := by
  have hb := abs_le.1 h
  refine ⟨abs_le.2 ⟨?_, ?_⟩, ?_, C162_digits az⟩
  · have := (C162_order hb.1).2.1
    rwa [azimuth_half.2] at this
  · have := (C162_order hb.2).2.1
    rwa [azimuth_half.1] at this
  · have hp : (0 : ℝ) < (1 / 2) ^ 53 := by positivity
    rcases eq_or_ne az 0 with h0 | h0
    · subst h0
      unfold azimuth reread
      simp only [lt_irrefl, if_false, general_zero, DiskFloat.binary_zero, sub_zero, abs_zero]
      positivity
    have hx : 0 < |az| := abs_pos.2 h0
    have h1 := general_error 5 hx
    have hl : Int.log 10 |az| ≤ 2 := log_le hx (by norm_num; linarith)
    have h2 : 1 / 2 * (10 : ℝ) ^ (Int.log 10 |az| - (((5 : ℕ) : ℤ) - 1)) ≤ 0.005 := by
      have : (10 : ℝ) ^ (Int.log 10 |az| - (((5 : ℕ) : ℤ) - 1)) ≤ (10 : ℝ) ^ (-2 : ℤ) :=
        zpow_le_zpow_right₀ (by norm_num) (by push_cast; omega)
      have e : (10 : ℝ) ^ (-2 : ℤ) = 0.01 := by norm_num
      rw [e] at this
      linarith
    have h3 := reread_error (digits := general 5) (x := az) (h1.trans h2)
    refine h3.trans ?_
    nlinarith

/-- C162: the distance to the sun moves by 0.00005 at most, by a tenth of that when it is below one. -/
theorem C162_radius (r : ℝ) (h : |r - 1| ≤ 0.0176) : |radius r - r| ≤ 5e-5 + 2 * (1 / 2) ^ 53 ∧
    (r < 1 → |radius r - r| ≤ 5e-6 + 2 * (1 / 2) ^ 53) ∧ |radius r - 1| ≤ 0.0177 := by
  have hb := abs_le.1 h
  have hx : 0 < r := by linarith
  have hp : (0 : ℝ) < (1 / 2) ^ 53 := by positivity
  have hp' : (1 / 2 : ℝ) ^ 53 ≤ 1e-9 := by norm_num
  have key : ∀ l : ℤ, Int.log 10 r = l → ∀ d : ℝ, 1 / 2 * (10 : ℝ) ^ (l - 4) ≤ d → d ≤ 5e-5 → |radius r - r| ≤ d + 2 * (1 / 2) ^ 53 := by
    intro l hl d hd hd'
    have h1 := general_error 5 hx
    rw [hl, show l - (((5 : ℕ) : ℤ) - 1) = l - 4 by push_cast; ring] at h1
    have h3 := reread_error (digits := general 5) (x := r) (d := d) (by rw [abs_of_pos hx]; exact h1.trans hd)
    refine h3.trans ?_
    rw [abs_of_pos hx]
    nlinarith
  have low : r < 1 → |radius r - r| ≤ 5e-6 + 2 * (1 / 2) ^ 53 := fun hr =>
    key (-1) (log_eq (by norm_num; linarith) (by norm_num; linarith)) _ (by norm_num) (by norm_num)
  have high : |radius r - r| ≤ 5e-5 + 2 * (1 / 2) ^ 53 := by
    rcases lt_or_ge r 1 with hr | hr
    · exact (low hr).trans (by norm_num)
    · exact key 0 (log_eq (by norm_num; linarith) (by norm_num; linarith)) _ (by norm_num) (by norm_num)
  refine ⟨high, low, ?_⟩
  calc |radius r - 1| ≤ |radius r - r| + |r - 1| := abs_sub_le _ _ _
    _ ≤ 0.0177 := by linarith

/-- C162: the sun counts as up exactly when the cosine of the zenith angle is above half a unit of its sixth decimal. -/
theorem C162_day (mu : ℝ) : 0 < cosine mu ↔ 5e-7 < mu := by
  have hz : cosine 0 = 0 := by
    unfold cosine reread; simp [fixed_zero, DiskFloat.binary_zero]
  constructor
  · intro h
    by_contra hc
    have h5 : cosine 5e-7 = 0 := by
      have e : (5e-7 : ℝ) * 10 ^ 6 = 1 / 2 := by norm_num
      have hfl : ⌊(1 / 2 : ℝ)⌋ = 0 := by norm_num
      have hfr : Int.fract (1 / 2 : ℝ) = 1 / 2 := by
        have := Int.floor_add_fract (1 / 2 : ℝ)
        rw [hfl] at this
        simpa using this
      have e2 : nearestEven (1 / 2 : ℝ) = 0 := by
        unfold nearestEven
        rw [hfr, if_neg (lt_irrefl _), if_neg (lt_irrefl _), hfl, if_pos (by decide)]
      unfold cosine reread fixed
      rw [if_neg (by norm_num), e, e2]
      simp [DiskFloat.binary_zero]
    have := (C162_order (not_lt.1 hc)).1
    rw [h5] at this
    linarith
  · intro h
    have hx : 0 < mu := lt_trans (by norm_num) h
    have h1 : (1 : ℤ) ≤ nearestEven (mu * 10 ^ 6) := by
      by_contra hc
      have he := (abs_le.1 (nearestEven_error (mu * 10 ^ 6))).1
      have hn : nearestEven (mu * 10 ^ 6) ≤ 0 := by omega
      have hn' : (nearestEven (mu * 10 ^ 6) : ℝ) ≤ 0 := by exact_mod_cast hn
      have e : (5e-7 : ℝ) * 10 ^ 6 = 1 / 2 := by norm_num
      have := mul_lt_mul_of_pos_right h (show (0 : ℝ) < 10 ^ 6 by norm_num)
      rw [e] at this
      generalize mu * 10 ^ 6 = y at *
      have : (0 : ℝ) < nearestEven y := by linarith only [this, he]
      exact absurd this (not_lt.2 hn')
    have h2 : (1e-6 : ℝ) ≤ fixed 6 mu := by
      have : (1 : ℝ) ≤ nearestEven (mu * 10 ^ 6) := by exact_mod_cast h1
      unfold fixed
      rw [le_div_iff₀ (by positivity)]
      norm_num at this ⊢
      linarith
    unfold cosine reread
    rw [if_neg (by linarith)]
    have hp : 0 < fixed 6 mu := lt_of_lt_of_le (by norm_num) h2
    exact lt_of_lt_of_le (by positivity) (DiskFloat.binary_between 52 hp).1

/-- The code takes the sun to be up exactly when it is above the horizon. -/
def C162_full : Prop := ∀ mu : ℝ, |mu| ≤ 1 → (0 < cosine mu ↔ 0 < mu)

/-- C162: false: with a cosine of 0.0000004 the sun is above the horizon and the results of the step are those of the night. -/
theorem C162_fails : ¬ C162_full := by
  intro h
  have h1 := (h 4e-7 (by norm_num [abs_le])).2 (by norm_num)
  have h2 := (C162_day _).1 h1
  norm_num at h2

/-- C162: the sun is never up by its digits when it is below the horizon, and a cosine from 0.000001 on is never lost. -/
theorem C162_day_partial (mu : ℝ) : (0 < cosine mu → 0 < mu) ∧ (1e-6 ≤ mu → 0 < cosine mu) := by
  refine ⟨fun h => lt_trans (by norm_num) ((C162_day mu).1 h), fun h => (C162_day mu).2 (lt_of_lt_of_le (by norm_num) h)⟩

/-- A number near the digits has these digits. -/
private theorem fixed_near {m v : ℝ} (h : |v - fixed 6 m| ≤ 1e-9) : fixed 6 v = fixed 6 m := by
  have hv : |v * 10 ^ 6 - nearestEven (m * 10 ^ 6)| < 1 / 2 := by
    have e2 : v * 10 ^ 6 - nearestEven (m * 10 ^ 6) = (v - fixed 6 m) * 10 ^ 6 := by unfold fixed; ring
    rw [e2, abs_mul, abs_of_pos (by positivity : (0 : ℝ) < 10 ^ 6)]
    norm_num at h ⊢
    linarith
  unfold fixed
  rw [nearestEven_eq hv]

/-- C162: printing the result again gives the same number. -/
theorem C162_again (mu : ℝ) (h : |mu| ≤ 1) : cosine (cosine mu) = cosine mu := by
  have near : ∀ m : ℝ, 0 ≤ m → m ≤ 1 → 0 ≤ fixed 6 m ∧ (1 / 2 : ℝ) ^ 53 * fixed 6 m ≤ 1e-9 := by
    intro m h0 h1
    have hf0 : 0 ≤ fixed 6 m := by have := fixed_mono 6 h0; rwa [fixed_zero] at this
    have hf1 : fixed 6 m ≤ 2 := by
      have := abs_le.1 (fixed_error 6 m)
      norm_num at this
      linarith
    refine ⟨hf0, (mul_le_mul_of_nonneg_left hf1 (by positivity)).trans (by norm_num)⟩
  have hb := abs_le.1 h
  rcases le_or_gt 0 mu with hm | hm
  · obtain ⟨a, b⟩ := near mu hm hb.2
    have hn := IdwFloat.C144_nearest 52 (fixed 6 mu)
    rw [abs_of_nonneg a] at hn
    have e : cosine mu = IdwFloat.binary 53 (fixed 6 mu) := (reread_neg (fixed 6) (fixed_zero 6) mu hm).2
    have e0 : 0 ≤ cosine mu := by
      have := (C162_order hm).1
      unfold cosine reread at this
      rw [if_neg (lt_irrefl _), fixed_zero, DiskFloat.binary_zero] at this
      exact this
    have e' : cosine (cosine mu) = IdwFloat.binary 53 (fixed 6 (cosine mu)) := (reread_neg (fixed 6) (fixed_zero 6) _ e0).2
    rw [e', fixed_near (m := mu) (by rw [e]; exact hn.trans b), e]
  · obtain ⟨a, b⟩ := near (-mu) (by linarith) (by linarith)
    have hn := IdwFloat.C144_nearest 52 (-fixed 6 (-mu))
    rw [abs_neg, abs_of_nonneg a] at hn
    have e : cosine mu = IdwFloat.binary 53 (-fixed 6 (-mu)) := by
      have := (reread_neg (fixed 6) (fixed_zero 6) (-mu) (by linarith)).1
      rwa [neg_neg] at this
    have e0 : 0 ≤ -cosine mu := by
      have := (C162_order hm.le).1
      unfold cosine reread at this
      rw [if_neg (lt_irrefl _), fixed_zero, DiskFloat.binary_zero] at this
      unfold cosine reread
      linarith
    have e' : cosine (cosine mu) = IdwFloat.binary 53 (-fixed 6 (-cosine mu)) := by
      have := (reread_neg (fixed 6) (fixed_zero 6) _ e0).1
      rwa [neg_neg] at this
    rw [e', fixed_near (m := -mu) (v := -cosine mu) (by
      rw [e, ← abs_neg]
      refine le_trans (le_of_eq ?_) (hn.trans b)
      congr 1; ring), e]

/-- C162: `sunang` at a single position of the earth gives, for every date from 1900 on, a cosine, an azimuth and a distance in their
ranges; they are those of the full precision up to the digits that are cut. With arrays of positions, or when asked, nothing is cut. -/
theorem C162_sunang (t : Calendar.DT) (hv : t.Valid) (hy1 : 1900 ≤ t.year) (hy : t.year ≤ 9999) (lat long : ℝ) (hlat : |lat| ≤ 90)
    (hlong : |long| ≤ 180) : ∃ turns mu az r mu' az' r',
      (∀ fuel, turns ≤ fuel → sunang true false fuel t lat long = .ok (mu', az', r') ∧ sunang true true fuel t lat long = .ok (mu, az, r) ∧
        sunang false false fuel t lat long = .ok (mu, az, r)) ∧
      |mu'| ≤ 1 ∧ |az'| ≤ 180 ∧ |r' - 1| ≤ 0.0177 ∧ |mu' - mu| ≤ 5.1e-7 ∧ |az' - az| ≤ 0.0051 ∧ |r' - r| ≤ 5.1e-5 := by
  obtain ⟨turns, mu, az, r, h, h1, h2, h3⟩ := Sun.C90_defined t hv hy1 hy lat long hlat hlong
  have a := C162_cosine mu h1
  have b := C162_azimuth az h2
  have c := C162_radius r h3
  refine ⟨turns, mu, az, r, cosine mu, azimuth az, radius r, fun fuel hf => ?_, a.1, b.1, c.2.2, a.2.trans (by norm_num),
    b.2.1.trans (by norm_num), c.1.trans (by norm_num)⟩
  unfold sunang
  rw [h fuel hf]
  simp

/-! ### Examples -/

/-- A sun 30 degrees up. -/
example : |cosine (1 / 2)| ≤ 1 ∧ 0 < cosine (1 / 2) :=
  ⟨(C162_cosine _ (by norm_num [abs_le])).1, (C162_day _).2 (by norm_num)⟩

/-- The digits of a third. -/
example : |cosine (1 / 3) - 1 / 3| ≤ 5e-7 + 2 * (1 / 2) ^ 53 := (C162_cosine _ (by norm_num [abs_le])).2

/-- 123.456 degrees from south are printed as 123.46. -/
example : general 5 123.456 = 123.46 := by
  have hl : Int.log 10 (123.456 : ℝ) = 2 := log_eq (by norm_num) (by norm_num)
  unfold general
  rw [if_neg (by norm_num), hl, nearestEven_eq (k := 12346) (by norm_num [abs_lt])]
  norm_num

/-- A perihelion distance. -/
example : |radius 0.9833 - 0.9833| ≤ 5e-6 + 2 * (1 / 2) ^ 53 := (C162_radius 0.9833 (by norm_num [abs_le])).2.1 (by norm_num)

/-- New year of 2020 in Idaho. -/
example : ∃ turns mu az r, ∀ fuel, turns ≤ fuel → sunang true false fuel ⟨2020, 1, 1, 68400⟩ 43.2 (-116.8) = .ok (mu, az, r) := by
  obtain ⟨turns, _, _, _, mu, az, r, h, _⟩ := C162_sunang ⟨2020, 1, 1, 68400⟩ ⟨by decide, (Calendar.C18_domain 2020 1 1).1 ⟨1, by decide⟩, by decide⟩ (by decide)
    (by decide) 43.2 (-116.8)
    (by norm_num [abs_le]) (by norm_num [abs_le])
  exact ⟨turns, mu, az, r, fun f hf => (h f hf).1⟩

end Verif.SunDigits
