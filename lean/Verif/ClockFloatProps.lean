import Verif.ClockFloat
import Verif.StormsProps
import Verif.IdwFloatProps

/-!
C149: what rounding does to the storm clock.
-/

namespace Verif.ClockFloat
open Verif.Storms

variable {ι : Type} [Fintype ι]

/-- Specification: the step resets the clock of cell `i`. -/
def Resets (mass thresh : ℝ) (i : ι) : Step ι → Prop
  | .dry => False
  | .wet precip dpt perc storming => storming = true ∧ (∃ j, dpt j < 2) ∧ mass ≤ precip i ∧ thresh ≤ perc i

/-- A rounding with relative error `u`. -/
def Error (u : ℝ) (rnd : ℝ → ℝ) : Prop := 0 ≤ u ∧ u < 1 ∧ ∀ x, |rnd x - x| ≤ u * |x|

theorem Error.bounds {u : ℝ} {rnd : ℝ → ℝ} (h : Error u rnd) {x : ℝ} (hx : 0 ≤ x) :
    (1 - u) * x ≤ rnd x ∧ rnd x ≤ (1 + u) * x := by
  have := h.2.2 x
  rw [abs_of_nonneg hx, abs_le] at this
  constructor <;> linarith [this.1, this.2]

theorem tick_cases (rnd : ℝ → ℝ) (ts mass thresh : ℝ) (days : ι → ℝ) (s : Step ι) (i : ι) :
    (Resets mass thresh i s → tick rnd ts mass thresh days s i = 0) ∧
    (¬ Resets mass thresh i s → tick rnd ts mass thresh days s i = rnd (days i + stepDays rnd ts)) := by
  cases s with
  | dry => exact ⟨fun h => h.elim, fun _ => rfl⟩
  | wet precip dpt perc storming =>
    unfold Resets tick pixel
    simp only
    constructor
    · rintro ⟨h1, h2, h3, h4⟩
      rw [if_pos ⟨h1, h2⟩, if_pos ⟨h3, h4⟩]
    · intro hn
      split
      · next hc => exact if_neg fun h' => hn ⟨hc.1, hc.2, h'.1, h'.2⟩
      · rfl

theorem step_bounds {u : ℝ} {rnd : ℝ → ℝ} (hr : Error u rnd) {ts : ℝ} (hts : 0 ≤ ts) :
    (1 - u) ^ 2 * (ts / 1440) ≤ stepDays rnd ts ∧ stepDays rnd ts ≤ (1 + u) ^ 2 * (ts / 1440) := by
  have h1 := hr.1
  have h2 := hr.2.1
  have a := hr.bounds (x := ts / 60) (by positivity)
  have a0 : 0 ≤ rnd (ts / 60) := le_trans (mul_nonneg (by linarith) (by positivity)) a.1
  have b := hr.bounds (x := rnd (ts / 60) / 24) (by positivity)
  unfold stepDays
  constructor
  · refine le_trans (le_of_eq ?_) (le_trans (mul_le_mul_of_nonneg_left (div_le_div_of_nonneg_right a.1 (by norm_num : (0 : ℝ) ≤ 24))
      (by linarith : 0 ≤ 1 - u)) b.1)
    ring
  · refine le_trans b.2 (le_trans (mul_le_mul_of_nonneg_left (div_le_div_of_nonneg_right a.2 (by norm_num : (0 : ℝ) ≤ 24))
      (by linarith : 0 ≤ 1 + u)) (le_of_eq ?_))
    ring

theorem step_nonneg {u : ℝ} {rnd : ℝ → ℝ} (hr : Error u rnd) {ts : ℝ} (hts : 0 ≤ ts) : 0 ≤ stepDays rnd ts :=
  le_trans (by have := hr.2.1; positivity) (step_bounds hr hts).1

/-- Without a reset the clock shows the start value and the time elapsed, up to the factors `(1 - u) ^ (k + 2)` and
`(1 + u) ^ (k + 2)` after `k` steps. -/
theorem C149_running (u : ℝ) (rnd : ℝ → ℝ) (hr : Error u rnd) (ts mass thresh : ℝ) (hts : 0 ≤ ts) (days : ι → ℝ) (i : ι)
    (hd : 0 ≤ days i) (h : List (Step ι)) (hn : ∀ s ∈ h, ¬ Resets mass thresh i s) :
    (1 - u) ^ (h.length + 2) * (days i + h.length * (ts / 1440)) ≤ run rnd ts mass thresh days h i ∧
    run rnd ts mass thresh days h i ≤ (1 + u) ^ (h.length + 2) * (days i + h.length * (ts / 1440)) := by
  have h1 := hr.1
  have h2 := hr.2.1
  have l2 : 0 ≤ 1 - u := by linarith
  have q0 : 0 ≤ ts / 1440 := by positivity
  have hs := step_bounds hr hts
  have main : (1 - u) ^ h.length * (days i + h.length * stepDays rnd ts) ≤ run rnd ts mass thresh days h i ∧
      run rnd ts mass thresh days h i ≤ (1 + u) ^ h.length * (days i + h.length * stepDays rnd ts) := by
    have hdt := step_nonneg hr hts
    induction h using List.reverseRecOn with
    | nil => simp [run]
    | append_singleton h s ih =>
      obtain ⟨a, b⟩ := ih fun s' hs' => hn s' (List.mem_append_left _ hs')
      have e : run rnd ts mass thresh days (h ++ [s]) i = rnd (run rnd ts mass thresh days h i + stepDays rnd ts) := by
        unfold run
        rw [List.foldl_append]
        exact (tick_cases rnd ts mass thresh _ s i).2 (hn s (by simp))
      have p1 : (1 - u) ^ h.length ≤ 1 := pow_le_one₀ l2 (by linarith)
      have p2 : 1 ≤ (1 + u) ^ h.length := one_le_pow₀ (by linarith)
      have s0 : 0 ≤ days i + h.length * stepDays rnd ts := by positivity
      have r0 : 0 ≤ run rnd ts mass thresh days h i + stepDays rnd ts :=
        add_nonneg (le_trans (mul_nonneg (pow_nonneg l2 _) s0) a) hdt
      have c := hr.bounds r0
      rw [e, List.length_append, List.length_singleton]
      push_cast
      constructor
      · refine le_trans ?_ c.1
        rw [pow_succ', mul_assoc]
        refine mul_le_mul_of_nonneg_left ?_ l2
        have := mul_le_mul_of_nonneg_right p1 hdt
        nlinarith
      · refine le_trans c.2 ?_
        rw [pow_succ', mul_assoc]
        refine mul_le_mul_of_nonneg_left ?_ (by linarith)
        have := mul_le_mul_of_nonneg_right p2 hdt
        nlinarith
  have k0 : (0 : ℝ) ≤ h.length := Nat.cast_nonneg _
  constructor
  · refine le_trans ?_ main.1
    rw [pow_add, mul_assoc]
    refine mul_le_mul_of_nonneg_left ?_ (pow_nonneg l2 _)
    have p : (1 - u) ^ 2 ≤ 1 := pow_le_one₀ l2 (by linarith)
    have a := mul_le_mul_of_nonneg_right p hd
    have b := mul_le_mul_of_nonneg_left hs.1 k0
    nlinarith
  · refine le_trans main.2 ?_
    rw [pow_add, mul_assoc]
    refine mul_le_mul_of_nonneg_left ?_ (by positivity)
    have p : 1 ≤ (1 + u) ^ 2 := one_le_pow₀ (by linarith)
    have a := mul_le_mul_of_nonneg_right p hd
    have b := mul_le_mul_of_nonneg_left hs.2 k0
    nlinarith

/-- After a reset the clock shows the time elapsed since, whatever came before, up to the same factors. -/
theorem C149_since (u : ℝ) (rnd : ℝ → ℝ) (hr : Error u rnd) (ts mass thresh : ℝ) (hts : 0 ≤ ts) (days : ι → ℝ) (i : ι)
    (pre suf : List (Step ι)) (s : Step ι) (hs : Resets mass thresh i s) (hn : ∀ s ∈ suf, ¬ Resets mass thresh i s) :
    (1 - u) ^ (suf.length + 2) * (suf.length * (ts / 1440)) ≤ run rnd ts mass thresh days (pre ++ s :: suf) i ∧
    run rnd ts mass thresh days (pre ++ s :: suf) i ≤ (1 + u) ^ (suf.length + 2) * (suf.length * (ts / 1440)) := by
  have e : run rnd ts mass thresh days (pre ++ s :: suf) =
      run rnd ts mass thresh (tick rnd ts mass thresh (run rnd ts mass thresh days pre) s) suf := by
    simp [run]
  have z := (tick_cases rnd ts mass thresh (run rnd ts mass thresh days pre) s i).1 hs
  have := C149_running u rnd hr ts mass thresh hts (tick rnd ts mass thresh (run rnd ts mass thresh days pre) s) i (le_of_eq z.symm)
    suf hn
  rw [z, zero_add] at this
  rw [e]
  exact this

/-- The clock goes on at every step without a reset while its value is less than the step divided by `u` (less the step). -/
theorem C149_ticks (u : ℝ) (rnd : ℝ → ℝ) (hr : Error u rnd) (ts mass thresh : ℝ) (hts : 0 ≤ ts) (days : ι → ℝ) (i : ι)
    (hd : 0 ≤ days i) (s : Step ι) (hn : ¬ Resets mass thresh i s) (hu : u * (days i + stepDays rnd ts) < stepDays rnd ts) :
    days i < tick rnd ts mass thresh days s i := by
  rw [(tick_cases rnd ts mass thresh days s i).2 hn]
  have := (hr.bounds (add_nonneg hd (step_nonneg hr hts))).1
  nlinarith

/-- Without rounding this is the clock of C28. -/
theorem C149_exact (ts mass thresh : ℝ) (days precip dpt perc : ι → ℝ) (storming : Bool) :
    tick id ts mass thresh days (.wet precip dpt perc storming) =
      timeSinceStormPixel precip dpt perc storming (ts / 60 / 24) mass thresh days := by
  unfold tick pixel timeSinceStormPixel stepDays
  simp only [id]

/-- The factors as a bound on the relative error. -/
theorem factor_bound {u : ℝ} (h0 : 0 ≤ u) (k : ℕ) (hk : k * u ≤ 1 / 2) :
    1 - 2 * (k * u) ≤ (1 - u) ^ k ∧ (1 + u) ^ k ≤ 1 + 2 * (k * u) := by
  rcases Nat.eq_zero_or_pos k with rfl | hpos
  · simp
  have hk1 : (1 : ℝ) ≤ k := by exact_mod_cast hpos
  have u1 : u ≤ 1 / 2 := by nlinarith
  have b : 1 - k * u ≤ (1 - u) ^ k := by
    have := one_add_mul_le_pow (a := -u) (by linarith) k
    rw [show 1 + (k : ℝ) * -u = 1 - k * u by ring, show 1 + -u = 1 - u by ring] at this
    exact this
  have ku : 0 ≤ k * u := by positivity
  refine ⟨by linarith, ?_⟩
  have m : (1 + u) ^ k * (1 - u) ^ k ≤ 1 := by
    rw [← mul_pow]
    exact pow_le_one₀ (mul_nonneg (by linarith) (by linarith)) (by nlinarith)
  have p : 0 ≤ (1 + u) ^ k := by positivity
  nlinarith [mul_le_mul_of_nonneg_left b p]

/-- In double precision, with steps of a minute or longer, the clock is right within a hundredth of a second as long as the
last storm was at most 366 days ago. -/
theorem C149_double (ts mass thresh : ℝ) (hts : 1 ≤ ts) (days : ι → ℝ) (i : ι) (pre suf : List (Step ι)) (s : Step ι)
    (hs : Resets mass thresh i s) (hn : ∀ s ∈ suf, ¬ Resets mass thresh i s) (hy : suf.length * (ts / 1440) ≤ 366) :
    |run (IdwFloat.binary 53) ts mass thresh days (pre ++ s :: suf) i - suf.length * (ts / 1440)| ≤ 1 / 100 / 86400 := by
  have hr : Error ((1 / 2) ^ 53) (IdwFloat.binary 53) := ⟨by positivity, by norm_num, IdwFloat.C144_nearest 52⟩
  have hb := C149_since _ _ hr ts mass thresh (by linarith) days i pre suf s hs hn
  have k0 : (0 : ℝ) ≤ suf.length := Nat.cast_nonneg _
  have hk : (suf.length : ℝ) ≤ 527040 := by nlinarith
  have hf := factor_bound (u := (1 / 2) ^ 53) (by positivity) (suf.length + 2) (by push_cast; norm_num; linarith)
  have x0 : 0 ≤ suf.length * (ts / 1440) := by positivity
  generalize (suf.length : ℝ) * (ts / 1440) = x at *
  have e : 2 * (((suf.length + 2 : ℕ) : ℝ) * (1 / 2) ^ 53) ≤ 1 / 100 / 86400 / 366 := by
    push_cast
    norm_num
    linarith
  rw [abs_le]
  have a := mul_le_mul_of_nonneg_right hf.1 x0
  have b := mul_le_mul_of_nonneg_right hf.2 x0
  have c := mul_le_mul_of_nonneg_right e x0
  constructor
  · nlinarith [hb.1]
  · nlinarith [hb.2]

/-- The day of the last storm, in double precision: right within a second, for water days up to 367 and the clock within a
hundredth of a second. -/
theorem C149_day (day days t : ℝ) (h0 : 0 ≤ day) (h1 : day ≤ 367) (ht : 0 ≤ t) (ht' : t ≤ 366)
    (hd : |days - t| ≤ 1 / 100 / 86400) :
    |lastStormDay (IdwFloat.binary 53) day days - (day - t - 1 / 1000)| ≤ 1 / 86400 := by
  have r : ∀ x, |x| ≤ 1000 → |IdwFloat.binary 53 x - x| ≤ 1 / 10 ^ 12 := fun x hx =>
    le_trans (IdwFloat.C144_nearest 52 x) (le_trans (mul_le_mul_of_nonneg_left hx (by positivity)) (by norm_num))
  rw [abs_le] at hd
  have e1 := r (day - days) (by rw [abs_le]; constructor <;> linarith [hd.1, hd.2])
  have e2 := r (1 / 1000) (by rw [abs_le]; constructor <;> norm_num)
  unfold lastStormDay
  generalize IdwFloat.binary 53 (day - days) = a at *
  generalize IdwFloat.binary 53 (1 / 1000) = b at *
  rw [abs_le] at e1 e2
  have e3 := r (a - b) (by rw [abs_le]; constructor <;> linarith [hd.1, hd.2, e1.1, e1.2, e2.1, e2.2])
  rw [abs_le] at e3 ⊢
  constructor <;> linarith [hd.1, hd.2, e1.1, e1.2, e2.1, e2.2, e3.1, e3.2]

/-- An hourly run: a storm, a step with rain on warm ground and two dry steps; three hours, within a hundredth of a second. -/
example : |run (ι := Unit) (IdwFloat.binary 53) 60 1 (1 / 2) (fun _ => 7)
    ([.dry] ++ .wet (fun _ => 2) (fun _ => 0) (fun _ => 1) true ::
      [.wet (fun _ => 5) (fun _ => 3) (fun _ => 0) true, .dry, .dry]) () - 3 * (60 / 1440)| ≤ 1 / 100 / 86400 := by
  have := C149_double (ι := Unit) 60 1 (1 / 2) (by norm_num) (fun _ => 7) () [.dry]
    [.wet (fun _ => 5) (fun _ => 3) (fun _ => 0) true, .dry, .dry] (.wet (fun _ => 2) (fun _ => 0) (fun _ => 1) true)
    ⟨rfl, ⟨(), by norm_num⟩, by norm_num, by norm_num⟩ ?_ (by norm_num)
  · norm_num at this ⊢
    exact this
  · intro s hs
    simp only [List.mem_cons, List.not_mem_nil, or_false] at hs
    rcases hs with rfl | rfl | rfl
    · rintro ⟨-, ⟨_, h⟩, -⟩
      norm_num at h
    · exact id
    · exact id

/-- Water day 100.5 and a clock that is a thousandth of a second ahead of three hours. -/
example : |lastStormDay (IdwFloat.binary 53) (201 / 2) (1 / 8 + 1 / 1000 / 86400) - (201 / 2 - 1 / 8 - 1 / 1000)| ≤ 1 / 86400 :=
  C149_day _ _ _ (by norm_num) (by norm_num) (by norm_num) (by norm_num) (by rw [abs_le]; constructor <;> norm_num)

/-- The clock goes on for hourly steps and a value of three hundred days. -/
example : (fun _ : Unit => (300 : ℝ)) () < tick (IdwFloat.binary 53) 60 1 (1 / 2) (fun _ => 300) (.dry : Step Unit) () := by
  have hr : Error ((1 / 2) ^ 53) (IdwFloat.binary 53) := ⟨by positivity, by norm_num, IdwFloat.C144_nearest 52⟩
  have hb := (step_bounds hr (ts := 60) (by norm_num)).1
  refine C149_ticks _ _ hr 60 1 (1 / 2) (by norm_num) (fun _ : Unit => 300) () (by norm_num) _ id ?_
  have : (1 : ℝ) / 25 ≤ (1 - (1 / 2) ^ 53) ^ 2 * (60 / 1440) := by norm_num
  norm_num at hb this ⊢
  nlinarith

end Verif.ClockFloat
