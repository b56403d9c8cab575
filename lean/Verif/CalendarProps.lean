import Verif.Calendar
import Mathlib.Data.Rat.Floor
import Mathlib.Tactic.Linarith
import Mathlib.Tactic.IntervalCases
import Mathlib.Tactic.FieldSimp
import Mathlib.Tactic.Ring

/-! C17-C19: water day, day of year, list of dates. -/

namespace Verif.Calendar

/-! ### Specification of the calendar -/

/-- Gregorian leap years. -/
def Leap (y : Nat) : Prop := (4 ∣ y ∧ ¬ 100 ∣ y) ∨ 400 ∣ y

/-- Gregorian month lengths. -/
inductive MonthLength (y : Nat) : Nat → Nat → Prop
  | long (m : Nat) (h : m ∈ [1, 3, 5, 7, 8, 10, 12]) : MonthLength y m 31
  | short (m : Nat) (h : m ∈ [4, 6, 9, 11]) : MonthLength y m 30
  | feb (h : ¬ Leap y) : MonthLength y 2 28
  | febLeap (h : Leap y) : MonthLength y 2 29

/-- A valid date. -/
def Valid (y m d : Nat) : Prop := ∃ n, MonthLength y m n ∧ 1 ≤ d ∧ d ≤ n

/-- The following day. -/
inductive NextDay : Nat × Nat × Nat → Nat × Nat × Nat → Prop
  | day (y m d n : Nat) (h : MonthLength y m n) (hd : d < n) : NextDay (y, m, d) (y, m, d + 1)
  | month (y m n : Nat) (h : MonthLength y m n) (hm : m < 12) : NextDay (y, m, n) (y, m + 1, 1)
  | year (y : Nat) : NextDay (y, 12, 31) (y + 1, 1, 1)

theorem leapyear_iff (y : Nat) : leapyear y = true ↔ Leap y := by
  simp only [leapyear, Leap, Bool.or_eq_true, Bool.and_eq_true, beq_iff_eq, bne_iff_ne, ne_eq]
  omega

/-! ### C18 -/

/-- `numdays` gives the Gregorian month lengths, and fails for anything that is not a month. -/
theorem C18_month_lengths (y m n : Nat) : numdays y m = some n ↔ MonthLength y m n := by
  constructor
  · intro h
    unfold numdays at h
    split at h
    · rename_i hm
      obtain ⟨h1, h2⟩ := hm
      by_cases hl : leapyear y = true
      · interval_cases m <;> simp [ndays, hl] at h <;> subst h
        all_goals first
          | exact .febLeap ((leapyear_iff y).1 hl)
          | exact .long _ (by decide)
          | exact .short _ (by decide)
      · interval_cases m <;> simp [ndays, hl] at h <;> subst h
        all_goals first
          | exact .feb (fun h => hl ((leapyear_iff y).2 h))
          | exact .long _ (by decide)
          | exact .short _ (by decide)
    · cases h
  · intro h
    cases h with
    | long m h =>
      simp at h
      rcases h with rfl | rfl | rfl | rfl | rfl | rfl | rfl <;> simp [numdays, ndays]
    | short m h =>
      simp at h
      rcases h with rfl | rfl | rfl | rfl <;> simp [numdays, ndays]
    | feb h =>
      have : leapyear y = false := by
        rw [Bool.eq_false_iff]; intro e; exact h ((leapyear_iff y).1 e)
      simp [numdays, ndays, this]
    | febLeap h =>
      simp [numdays, ndays, (leapyear_iff y).2 h]

theorem monthLength_cases {y m n : Nat} (h : MonthLength y m n) : 1 ≤ m ∧ m ≤ 12 := by
  cases h with
  | long m h => simp at h; omega
  | short m h => simp at h; omega
  | feb => omega
  | febLeap => omega

/-- Closed form of `yearday`. -/
theorem yearday_eq {y m n : Nat} (h : MonthLength y m n) (d : Nat) (h1 : 1 ≤ d) (h2 : d ≤ n) :
    yearday y m d = some (daysBefore m + (if 2 < m ∧ leapyear y then 1 else 0) + d) := by
  have hn := (C18_month_lengths y m n).2 h
  obtain ⟨hm1, hm2⟩ := monthLength_cases h
  simp only [yearday, hn, h1, h2, and_self, if_true]
  by_cases hl : leapyear y = true
  · interval_cases m <;> simp [addMonths, numdays, ndays, daysBefore, hl] <;> omega
  · interval_cases m <;> simp [addMonths, numdays, ndays, daysBefore, hl] <;> omega

/-- `yearday` is defined exactly on valid dates. -/
theorem C18_domain (y m d : Nat) : (∃ k, yearday y m d = some k) ↔ Valid y m d := by
  constructor
  · rintro ⟨k, hk⟩
    unfold yearday at hk
    split at hk
    · cases hk
    · rename_i n hn
      split at hk
      · exact ⟨n, (C18_month_lengths y m n).1 hn, ‹_›⟩
      · cases hk
  · rintro ⟨n, h, h1, h2⟩
    exact ⟨_, yearday_eq h d h1 h2⟩

/-- 1 January is day 1. -/
theorem C18_first_day (y : Nat) : yearday y 1 1 = some 1 := by
  have := yearday_eq (y := y) (m := 1) (n := 31) (.long 1 (by decide)) 1 (by omega) (by omega)
  simpa [daysBefore] using this

/-- Each following day of the year has the next number: `yearday` counts the days since 1 January. -/
theorem C18_next_day (y m d m' d' : Nat) (h : NextDay (y, m, d) (y, m', d')) (h1 : 1 ≤ d) (k : Nat)
    (hk : yearday y m d = some k) : yearday y m' d' = some (k + 1) := by
  cases h with
  | day y m d n h hd =>
    rw [yearday_eq h d h1 (by omega)] at hk
    cases hk
    rw [yearday_eq h (d + 1) (by omega) (by omega)]
    congr 1
  | month y m n h hm =>
    rw [yearday_eq h d h1 (Nat.le_refl _)] at hk
    cases hk
    have h2 : ∃ n', MonthLength y (m + 1) n' ∧ 1 ≤ n' := by
      obtain ⟨hm1, -⟩ := monthLength_cases h
      interval_cases m
      case «1» =>
        by_cases hl : Leap y
        · exact ⟨29, .febLeap hl, by omega⟩
        · exact ⟨28, .feb hl, by omega⟩
      all_goals first
        | exact ⟨31, .long _ (by decide), by omega⟩
        | exact ⟨30, .short _ (by decide), by omega⟩
    obtain ⟨n', h2, h3⟩ := h2
    rw [yearday_eq h2 1 (by omega) h3]
    congr 1
    cases h with
    | long m h =>
      simp at h
      rcases h with rfl | rfl | rfl | rfl | rfl | rfl | rfl <;>
        by_cases hl : leapyear y = true <;> simp [daysBefore, hl] at hm ⊢
    | short m h =>
      simp at h
      rcases h with rfl | rfl | rfl | rfl <;>
        by_cases hl : leapyear y = true <;> simp [daysBefore, hl]
    | feb h =>
      have : ¬ leapyear y = true := fun e => h ((leapyear_iff y).1 e)
      simp [daysBefore, this]
    | febLeap h =>
      simp [daysBefore, (leapyear_iff y).2 h]

/-- Range of the day number: 1 to 365, or 366 in leap years. -/
theorem C18_range (y m d k : Nat) (hk : yearday y m d = some k) :
    1 ≤ k ∧ k ≤ 366 ∧ (¬ Leap y → k ≤ 365) := by
  obtain ⟨n, h, h1, h2⟩ := (C18_domain y m d).1 ⟨k, hk⟩
  rw [yearday_eq h d h1 h2] at hk
  cases hk
  have hl := leapyear_iff y
  cases h with
  | long m h =>
    simp at h
    rcases h with rfl | rfl | rfl | rfl | rfl | rfl | rfl <;>
      by_cases hy : leapyear y = true <;> simp [daysBefore, hy] at hl ⊢ <;> (try simp [hl]) <;> omega
  | short m h =>
    simp at h
    rcases h with rfl | rfl | rfl | rfl <;>
      by_cases hy : leapyear y = true <;> simp [daysBefore, hy] at hl ⊢ <;> (try simp [hl]) <;> omega
  | feb h => simp [daysBefore]; omega
  | febLeap h => simp [daysBefore]; omega

/-- Strictly increasing within the year. -/
theorem C18_strictly_increasing (y m d m' d' k k' : Nat) (hk : yearday y m d = some k)
    (hk' : yearday y m' d' = some k') (h : m < m' ∨ (m = m' ∧ d < d')) : k < k' := by
  obtain ⟨n, hl, h1, h2⟩ := (C18_domain y m d).1 ⟨k, hk⟩
  obtain ⟨n', hl', h1', h2'⟩ := (C18_domain y m' d').1 ⟨k', hk'⟩
  rw [yearday_eq hl d h1 h2] at hk
  rw [yearday_eq hl' d' h1' h2'] at hk'
  cases hk; cases hk'
  rcases h with h | ⟨rfl, h⟩
  · have hn := (C18_month_lengths y m n).2 hl
    obtain ⟨hm1, hm2⟩ := monthLength_cases hl
    obtain ⟨hm1', hm2'⟩ := monthLength_cases hl'
    have key : daysBefore m + (if 2 < m ∧ leapyear y then 1 else 0) + n ≤
        daysBefore m' + (if 2 < m' ∧ leapyear y then 1 else 0) := by
      clear hl hl' h1 h2 h1' h2'
      by_cases hy : leapyear y = true
      · interval_cases m <;> simp [numdays, ndays, hy] at hn <;> subst hn <;>
          interval_cases m' <;> simp [daysBefore, hy] at h ⊢
      · interval_cases m <;> simp [numdays, ndays, hy] at hn <;> subst hn <;>
          interval_cases m' <;> simp [daysBefore, hy] at h ⊢
    omega
  · omega

/-- Every day number of the year belongs to exactly one date. -/
theorem C18_bijective (y k : Nat) (h1 : 1 ≤ k) (h2 : k ≤ 365 ∨ (k = 366 ∧ Leap y)) :
    ∃ m d, yearday y m d = some k ∧ ∀ m' d', yearday y m' d' = some k → m' = m ∧ d' = d := by
  have hex : ∃ m d, yearday y m d = some k := by
    have hfeb : ∃ n, MonthLength y 2 n ∧ n = if leapyear y then 29 else 28 := by
      by_cases hy : leapyear y = true
      · exact ⟨29, .febLeap ((leapyear_iff y).1 hy), by simp [hy]⟩
      · exact ⟨28, .feb (fun h => hy ((leapyear_iff y).2 h)), by simp [hy]⟩
    obtain ⟨nf, hf, hnf⟩ := hfeb
    have go : ∀ m n, MonthLength y m n →
        daysBefore m + (if 2 < m ∧ leapyear y then 1 else 0) < k →
        k ≤ daysBefore m + (if 2 < m ∧ leapyear y then 1 else 0) + n →
        ∃ m d, yearday y m d = some k := by
      intro m n h a b
      refine ⟨m, k - (daysBefore m + (if 2 < m ∧ leapyear y then 1 else 0)), ?_⟩
      rw [yearday_eq h _ (by omega) (by omega)]
      congr 1
      omega
    have l1 := go 1 31 (.long _ (by decide))
    have l2 := go 2 nf hf
    have l3 := go 3 31 (.long _ (by decide))
    have l4 := go 4 30 (.short _ (by decide))
    have l5 := go 5 31 (.long _ (by decide))
    have l6 := go 6 30 (.short _ (by decide))
    have l7 := go 7 31 (.long _ (by decide))
    have l8 := go 8 31 (.long _ (by decide))
    have l9 := go 9 30 (.short _ (by decide))
    have l10 := go 10 31 (.long _ (by decide))
    have l11 := go 11 30 (.short _ (by decide))
    have l12 := go 12 31 (.long _ (by decide))
    have hL := leapyear_iff y
    by_cases hy : leapyear y = true
    · simp only [daysBefore, hy, and_true, if_true] at *
      by_contra hcon
      simp only [hcon] at *
      simp at l1 l2 l3 l4 l5 l6 l7 l8 l9 l10 l11 l12
      omega
    · have hnl : ¬ Leap y := fun h => hy (hL.2 h)
      simp only [daysBefore, hy, and_false, if_false, hnl, or_false] at *
      by_contra hcon
      simp only [hcon] at *
      simp at l1 l2 l3 l4 l5 l6 l7 l8 l9 l10 l11 l12
      simp at hnf
      omega
  obtain ⟨m, d, hk⟩ := hex
  refine ⟨m, d, hk, fun m' d' hk' => ?_⟩
  rcases Nat.lt_trichotomy m m' with h | h | h
  · exact absurd (C18_strictly_increasing y m d m' d' k k hk hk' (.inl h)) (by omega)
  · subst h
    refine ⟨rfl, ?_⟩
    rcases Nat.lt_trichotomy d d' with h | h | h
    · exact absurd (C18_strictly_increasing y m d m d' k k hk hk' (.inr ⟨rfl, h⟩)) (by omega)
    · exact h.symm
    · exact absurd (C18_strictly_increasing y m d' m d k k hk' hk (.inr ⟨rfl, h⟩)) (by omega)
  · exact absurd (C18_strictly_increasing y m' d' m d k k hk' hk (.inl h)) (by omega)

/-- 29 February of a leap year is a valid date, day 60; 1 March of an ordinary year too. -/
example : yearday 2020 2 29 = some 60 ∧ yearday 2021 2 29 = none ∧ yearday 2021 3 1 = some 60 := by
  decide

example : NextDay (2020, 2, 28) (2020, 2, 29) :=
  .day 2020 2 28 29 (.febLeap ((leapyear_iff 2020).1 (by decide))) (by omega)

example : Leap 2000 ∧ ¬ Leap 1900 := by unfold Leap; omega

/-! ### C17 -/

theorem ordinal_jan1 (y : Nat) :
    ordinal y 1 1 = ((y : Int) - 1) * 365 + ((y : Int) - 1) / 4 - ((y : Int) - 1) / 100 +
      ((y : Int) - 1) / 400 + 1 := by
  simp [ordinal, daysBefore]

/-- The day number used to subtract dates counts calendar days. -/
theorem ordinal_next (a b : Nat × Nat × Nat) (h : NextDay a b) (hd : 1 ≤ a.2.2) :
    ordinal b.1 b.2.1 b.2.2 = ordinal a.1 a.2.1 a.2.2 + 1 := by
  have hyd : ∀ y m n d, MonthLength y m n → 1 ≤ d → d ≤ n → ∃ k : Nat, yearday y m d = some k ∧
      ordinal y m d = ordinal y 1 1 - 1 + k := by
    intro y m n d h h1 h2
    refine ⟨_, yearday_eq h d h1 h2, ?_⟩
    rw [ordinal_jan1]
    simp only [ordinal]
    push_cast
    ring
  cases h with
  | day y m d n h hd' =>
    obtain ⟨k, hk, ho⟩ := hyd y m n d h hd (by omega)
    obtain ⟨k', hk', ho'⟩ := hyd y m n (d + 1) h (by omega) (by omega)
    rw [C18_next_day y m d m (d + 1) (.day y m d n h hd') hd k hk] at hk'
    cases hk'
    simp only [ho, ho']; push_cast; ring
  | month y m n h hm =>
    obtain ⟨k, hk, ho⟩ := hyd y m n n h hd (Nat.le_refl _)
    have hk2 := C18_next_day y m n (m + 1) 1 (.month y m n h hm) hd k hk
    obtain ⟨n', hl', h1', h2'⟩ := (C18_domain y (m + 1) 1).1 ⟨_, hk2⟩
    obtain ⟨k', hk', ho'⟩ := hyd y (m + 1) n' 1 hl' h1' h2'
    rw [hk2] at hk'
    cases hk'
    simp only [ho, ho']; push_cast; ring
  | year y =>
    simp only [ordinal, daysBefore]
    have hl := leapyear_iff y
    by_cases hy : leapyear y = true
    · have : Leap y := hl.1 hy
      simp only [Leap] at this
      simp [hy]
      omega
    · have : ¬ Leap y := fun h => hy (hl.2 h)
      simp only [Leap] at this
      simp [hy]
      omega

/-- A valid time of a valid date. -/
def DT.Valid (t : DT) : Prop := 1 ≤ t.year ∧ Calendar.Valid t.year t.month t.day ∧ t.sec < 86400

/-- Length of a year: 1 January to 1 January. -/
theorem ordinal_year (y : Nat) (h : 1 ≤ y) :
    ordinal (y + 1) 1 1 = ordinal y 1 1 + (if leapyear y then 366 else 365) := by
  have hl := leapyear_iff y
  simp only [ordinal_jan1]
  by_cases hy : leapyear y = true
  · have : Leap y := hl.1 hy
    simp only [Leap] at this
    simp [hy]
    omega
  · have : ¬ Leap y := fun h => hy (hl.2 h)
    simp only [Leap] at this
    simp [hy]
    omega

/-- Position of a valid time relative to 1 October of its year. -/
theorem instant_oct (t : DT) (hv : t.Valid) :
    (t.month < 10 → t.instant < (⟨t.year, 10, 1, 0⟩ : DT).instant ∧
      (⟨t.year, 1, 1, 0⟩ : DT).instant ≤ t.instant) ∧
    (10 ≤ t.month → (⟨t.year, 10, 1, 0⟩ : DT).instant ≤ t.instant ∧
      t.instant < (⟨t.year + 1, 1, 1, 0⟩ : DT).instant) := by
  obtain ⟨hy1, ⟨n, hl, hd1, hd2⟩, hs⟩ := hv
  have hyr := ordinal_year t.year hy1
  have hn := (C18_month_lengths t.year t.month n).2 hl
  obtain ⟨hm1, hm2⟩ := monthLength_cases hl
  simp only [DT.instant, hyr]
  simp only [ordinal]
  generalize ((t.year : Int) - 1) * 365 + ((t.year : Int) - 1) / 4 - ((t.year : Int) - 1) / 100 +
      ((t.year : Int) - 1) / 400 = B
  generalize t.month = m at *
  by_cases hy : leapyear t.year = true
  · interval_cases m <;> simp [numdays, ndays, hy] at hn <;> subst hn <;>
      simp [daysBefore, hy] <;> omega
  · interval_cases m <;> simp [numdays, ndays, hy] at hn <;> subst hn <;>
      simp [daysBefore, hy] <;> omega

/-- The water year: changes exactly at 1 October. -/
theorem C17_water_year (t : DT) (hv : t.Valid) :
    (waterDay t).2 = if t.month < 10 then t.year else t.year + 1 := by
  obtain ⟨h1, h2⟩ := instant_oct t hv
  by_cases hm : t.month < 10
  · simp [waterDay, hm, (h1 hm).1]
  · simp [waterDay, hm, Int.not_lt.2 (h2 (by omega)).1]

theorem waterDay_fst (t : DT) :
    (waterDay t).1 = ((t.instant - (⟨(waterDay t).2 - 1, 10, 1, 0⟩ : DT).instant : Int) : ℚ) /
      86400 := by
  simp only [waterDay]
  generalize t.instant - _ = d
  have := Int.mul_ediv_add_emod d 86400
  have h2 : (d : ℚ) = 86400 * ((d / 86400 : Int) : ℚ) + ((d % 86400 : Int) : ℚ) := by
    exact_mod_cast this.symm
  rw [h2]
  field_simp

/-- 1 October 00:00 is day 0 of the next year's water year. -/
theorem C17_october_first (y : Nat) : waterDay ⟨y, 10, 1, 0⟩ = (0, y + 1) := by
  simp [waterDay]

/-- Within a water year, the water day increases by exactly the days elapsed. -/
theorem C17_elapsed (s t : DT) (h : (waterDay s).2 = (waterDay t).2) :
    (waterDay t).1 - (waterDay s).1 = ((t.instant - s.instant : Int) : ℚ) / 86400 := by
  rw [waterDay_fst, waterDay_fst, h]
  push_cast
  ring

/-- Within a water year it is monotone in time. -/
theorem C17_monotone (s t : DT) (h : (waterDay s).2 = (waterDay t).2) :
    s.instant ≤ t.instant ↔ (waterDay s).1 ≤ (waterDay t).1 := by
  have := C17_elapsed s t h
  constructor
  · intro hle
    have h1 : (0 : ℚ) ≤ ((t.instant - s.instant : Int) : ℚ) / 86400 := by
      apply div_nonneg
      · exact_mod_cast Int.sub_nonneg.2 hle
      · norm_num
    linarith
  · intro hle
    have h1 : (0 : ℚ) ≤ ((t.instant - s.instant : Int) : ℚ) / 86400 := by linarith
    have h2 : (0 : ℚ) ≤ ((t.instant - s.instant : Int) : ℚ) := by
      have := mul_nonneg h1 (by norm_num : (0 : ℚ) ≤ 86400)
      rwa [div_mul_cancel₀ _ (by norm_num)] at this
    have : 0 ≤ t.instant - s.instant := by exact_mod_cast h2
    omega

theorem ordinal_oct (y : Nat) :
    ordinal y 10 1 = ordinal y 1 1 + (if leapyear y then 274 else 273) := by
  rw [ordinal_jan1]
  simp only [ordinal, daysBefore]
  by_cases h : leapyear y = true <;> simp [h] <;> ring

/-- The water day lies in `[0, 365)`, or `[0, 366)` when the water year is a leap year. -/
theorem C17_range (t : DT) (hv : t.Valid) (hy : 2 ≤ t.year) :
    0 ≤ (waterDay t).1 ∧ (waterDay t).1 < if leapyear (waterDay t).2 then 366 else 365 := by
  obtain ⟨h1, h2⟩ := instant_oct t hv
  have hwy := C17_water_year t hv
  have hbounds : 0 ≤ t.instant - (⟨(waterDay t).2 - 1, 10, 1, 0⟩ : DT).instant ∧
      t.instant - (⟨(waterDay t).2 - 1, 10, 1, 0⟩ : DT).instant <
        86400 * (if leapyear (waterDay t).2 then 366 else 365) := by
    rw [hwy]
    clear hwy
    by_cases hm : t.month < 10
    · rw [if_pos hm]
      obtain ⟨ha, hb⟩ := h1 hm
      have hyr := ordinal_year (t.year - 1) (by omega)
      rw [show t.year - 1 + 1 = t.year by omega] at hyr
      generalize t.instant = T at *
      simp only [DT.instant] at *
      rw [ordinal_oct] at ha ⊢
      simp only [Nat.cast_zero, add_zero] at *
      split <;> split at ha <;> split at hyr <;> simp_all <;> omega
    · rw [if_neg hm]
      obtain ⟨ha, hb⟩ := h2 (by omega)
      have hyr := ordinal_year t.year (by omega)
      rw [Nat.add_sub_cancel]
      generalize t.instant = T at *
      simp only [DT.instant] at *
      rw [ordinal_oct] at ha ⊢
      simp only [Nat.cast_zero, add_zero] at *
      split <;> split at ha <;> split at hyr <;> simp_all <;> omega
  rw [waterDay_fst]
  obtain ⟨ha, hb⟩ := hbounds
  generalize t.instant - (⟨(waterDay t).2 - 1, 10, 1, 0⟩ : DT).instant = D at *
  constructor
  · apply div_nonneg
    · exact_mod_cast ha
    · norm_num
  · rw [div_lt_iff₀ (by norm_num)]
    split at hb
    · have : (D : ℚ) < ((86400 * 366 : Int) : ℚ) := by exact_mod_cast hb
      rw [if_pos ‹_›]
      refine lt_of_lt_of_eq this ?_
      norm_num
    · have : (D : ℚ) < ((86400 * 365 : Int) : ℚ) := by exact_mod_cast hb
      rw [if_neg ‹_›]
      refine lt_of_lt_of_eq this ?_
      norm_num

/-- 15 February 2020, 06:00 is day 137.25 of water year 2020. -/
example : waterDay ⟨2020, 2, 15, 21600⟩ = (137 + 1 / 4, 2020) := by
  rw [Prod.ext_iff]
  constructor
  · rw [waterDay_fst]
    have : (waterDay ⟨2020, 2, 15, 21600⟩).2 = 2020 := by decide
    rw [this]
    have : ((⟨2020, 2, 15, 21600⟩ : DT).instant - (⟨2020 - 1, 10, 1, 0⟩ : DT).instant) = 11858400 := by
      decide
    rw [this]
    norm_num
  · decide

example : DT.Valid ⟨2020, 2, 29, 86399⟩ :=
  ⟨by decide, ⟨29, .febLeap ((leapyear_iff 2020).1 (by decide)), by decide, by decide⟩, by decide⟩

/-! ### C19 -/

theorem mem_dateRangeFrom (step : Nat) (hs : 0 < step) (fuel : Nat) (start stop : Int)
    (hf : (stop - start + 1).toNat ≤ fuel) (x : Int) :
    x ∈ dateRangeFrom start stop step fuel ↔ ∃ k : Nat, x = start + k * step ∧ x ≤ stop := by
  induction fuel generalizing start with
  | zero =>
    simp only [dateRangeFrom, List.not_mem_nil, false_iff, not_exists, not_and]
    rintro k rfl
    have : (0 : Int) ≤ (k : Int) * step := by positivity
    omega
  | succ fuel ih =>
    simp only [dateRangeFrom]
    split
    · rename_i hle
      rw [List.mem_cons, ih (start + step) (by omega)]
      constructor
      · rintro (rfl | ⟨k, rfl, h⟩)
        · exact ⟨0, by simp, hle⟩
        · exact ⟨k + 1, by push_cast; ring, h⟩
      · rintro ⟨k, rfl, h⟩
        cases k with
        | zero => simp
        | succ k => exact .inr ⟨k, by push_cast; ring, h⟩
    · simp only [List.not_mem_nil, false_iff, not_exists, not_and]
      rintro k rfl
      have : (0 : Int) ≤ (k : Int) * step := by positivity
      omega

theorem dateRangeFrom_get (step : Nat) (fuel : Nat) (start stop : Int) (i : Nat) (x : Int)
    (h : (dateRangeFrom start stop step fuel)[i]? = some x) : x = start + i * step := by
  induction fuel generalizing start i with
  | zero => simp [dateRangeFrom] at h
  | succ fuel ih =>
    simp only [dateRangeFrom] at h
    split at h
    · cases i with
      | zero => simp at h; simp [h]
      | succ i =>
        simp only [List.getElem?_cons_succ] at h
        rw [ih _ _ h]; push_cast; ring
    · simp at h

/-- The dates are exactly the multiples of the step from the start that are not after the end. -/
theorem C19_complete (start stop : Int) (step : Nat) (l : List Int)
    (h : dateRange start stop step = some l) (x : Int) :
    x ∈ l ↔ ∃ k : Nat, x = start + k * step ∧ x ≤ stop := by
  unfold dateRange at h
  split at h
  · cases h
  · cases h
    exact mem_dateRangeFrom step (by omega) _ start stop (Nat.le_refl _) x

/-- The `i`-th date is `start + i*step`: it begins with the start, the step is constant, and the dates
strictly increase. -/
theorem C19_regular (start stop : Int) (step : Nat) (l : List Int)
    (h : dateRange start stop step = some l) :
    (∀ (i : Nat) x, l[i]? = some x → x = start + i * step) ∧ l.Pairwise (· < ·) := by
  unfold dateRange at h
  split at h
  · cases h
  · rename_i hs
    cases h
    refine ⟨fun i x => dateRangeFrom_get step _ start stop i x, ?_⟩
    generalize (stop - start + 1).toNat = fuel
    rw [List.pairwise_iff_getElem]
    intro i j hi hj hij
    have h1 := dateRangeFrom_get step fuel start stop i _ (List.getElem?_eq_getElem hi)
    have h2 := dateRangeFrom_get step fuel start stop j _ (List.getElem?_eq_getElem hj)
    rw [h1, h2]
    have : (i : Int) * step < j * step := by
      apply Int.mul_lt_mul_of_pos_right
      · exact_mod_cast hij
      · omega
    omega

/-- The run starts with the start date, unless the range is empty because the end is before the
start; a positive step is always accepted. -/
theorem C19_starts (start stop : Int) (step : Nat) (hs : 0 < step) :
    ∃ l, dateRange start stop step = some l ∧
      (start ≤ stop → l.head? = some start) ∧ (stop < start → l = []) := by
  refine ⟨_, by unfold dateRange; rw [if_neg (by omega)], ?_, ?_⟩
  · intro h
    have : (stop - start + 1).toNat = (stop - start).toNat + 1 := by omega
    rw [this]
    simp [dateRangeFrom, h]
  · intro h
    have : (stop - start + 1).toNat = 0 := by omega
    rw [this]; rfl

/-- The number of time steps. -/
theorem C19_length (start stop : Int) (step : Nat) (h : start ≤ stop) (l : List Int)
    (hl : dateRange start stop step = some l) :
    (l.length : Int) = (stop - start) / step + 1 := by
  have hs : 0 < step := by
    rcases Nat.eq_zero_or_pos step with h0 | h0
    · subst h0; simp [dateRange] at hl
    · exact h0
  have hc := C19_complete start stop step l hl
  have hr := (C19_regular start stop step l hl).1
  have hs' : (0 : Int) < step := by exact_mod_cast hs
  -- the quotient is the index of the last date
  have hq : 0 ≤ (stop - start) / (step : Int) := Int.ediv_nonneg (by omega) (by omega)
  have hle : (stop - start) / (step : Int) * step ≤ stop - start := Int.ediv_mul_le _ (by omega)
  have hlt : stop - start < ((stop - start) / (step : Int) + 1) * step := by
    have := Int.lt_ediv_add_one_mul_self (stop - start) hs'
    exact this
  generalize hqd : (stop - start) / (step : Int) = q at *
  obtain ⟨n, rfl⟩ := Int.eq_ofNat_of_zero_le hq
  apply Int.le_antisymm
  · -- the last date is not after the end
    by_contra hcon
    have hlen : n + 1 < l.length := by omega
    have hx := hr (n + 1) _ (List.getElem?_eq_getElem hlen)
    have hm := (hc _).1 (List.getElem_mem hlen)
    obtain ⟨-, -, hb⟩ := hm
    rw [hx] at hb
    push_cast at hb
    omega
  · -- the date of index n is in the list, at index n
    have hm : start + n * step ∈ l := (hc _).2 ⟨n, rfl, by omega⟩
    rw [List.mem_iff_getElem?] at hm
    obtain ⟨j, hj⟩ := hm
    have h1 := hr j _ hj
    have h2 : (n : Int) = j := by
      have : (n : Int) * step = j * step := by omega
      exact Int.eq_of_mul_eq_mul_right (by omega) this
    have h3 : j < l.length := by
      rcases Nat.lt_or_ge j l.length with h | h
      · exact h
      · rw [List.getElem?_eq_none h] at hj; cases hj
    omega

/-- Hourly dates over two and a half hours. -/
example : dateRange 0 150 60 = some [0, 60, 120] := by decide

end Verif.Calendar
