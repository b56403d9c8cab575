import Verif.DewpointBrentProps

/-! C189: what an error in the vapor pressure does to the dew point that the solver returns
(`smrf/envphys/core/dewpt.c`, `smrf/envphys/core/topotherm.c` `sati`). -/

namespace Verif.Dewpoint
open Verif.Vapor

/-- The machine precision of the code. -/
noncomputable def machine : ℝ := 22204460492503131 / 10 ^ 32

/-- The solver finds a temperature, and close to it there is one with at least the given pressure and one
with at most the given pressure: close in degrees, or close in pressure at the rate of 0.4 Pa a degree. -/
theorem near_root (e t : ℝ) (he : 0 < e) (he2 : e ≤ 3 / 2 * seaLevel) (ht : 1 / 10000 ≤ t) (ht2 : t ≤ 10) :
    ∃ N x, (∀ n, N ≤ n → dewPoint n e machine t = some (.root x)) ∧
      (∃ p k, 0 < p ∧ p ≤ 1000 ∧ 0 ≤ k ∧ k ≤ 6 ∧ e ≤ sat p + k ∧ |p - x| + 5 / 2 * k ≤ 2 * t + 1 / 10 ^ 11) ∧
      ∃ q k, 0 < q ∧ q ≤ 1000 ∧ 0 ≤ k ∧ k ≤ 6 ∧ sat q ≤ e + k ∧ |q - x| + 5 / 2 * k ≤ 2 * t + 1 / 10 ^ 11 := by
  obtain ⟨N, a, b, x, h0, hax, hxb, hb2, -, -, h⟩ := C43_found e t he he2 ht
  refine ⟨N, x, fun n hn => (h n hn).2.2, ?_⟩
  obtain ⟨ha, hb, hd⟩ := h N le_rfl
  obtain ⟨h1, h2, h3⟩ := lowerLoop_spec _ N freeze a freeze_pos ha
  obtain ⟨h4, h5⟩ := upperLoop_spec _ N (freeze + 15) b (by linarith [freeze_pos]) hb
  have hab : a < b := by linarith
  unfold dewPoint at hd
  rw [ha, hb] at hd
  simp only [Option.some.injEq] at hd
  obtain ⟨-, hcase⟩ := C43_zerobr _ _ t a b (by norm_num) (by linarith) hab.ne x hd
  have hx0 : 0 < x := by linarith
  have hx1 : x ≤ 1000 := by linarith
  have hx : |x| ≤ 1000 := by rw [abs_of_pos hx0]; exact hx1
  rcases hcase with ⟨hc, -⟩ | hc | ⟨y, hy, hopp, hlt⟩
  · have hk : tol0 (22204460492503131 / 10 ^ 32) t a b ≤ t / 2 + 1 / 10 ^ 12 := by
      unfold tol0
      have : (if |a| ≤ |b| then |b| else |a|) ≤ 1000 := by
        split
        · rw [abs_of_pos (by linarith)]; exact hb2
        · rw [abs_of_pos h0]; linarith
      generalize (if |a| ≤ |b| then |b| else |a|) = M at this
      norm_num
      linarith
    have hc' := _root_.abs_le.1 (hc.trans hk)
    norm_num at hc'
    refine ⟨⟨x, t / 2 + 1 / 10 ^ 12, hx0, hx1, by positivity, ?_, ?_, ?_⟩,
      ⟨x, t / 2 + 1 / 10 ^ 12, hx0, hx1, by positivity, ?_, ?_, ?_⟩⟩
    · norm_num; linarith
    · norm_num; linarith
    · rw [sub_self, abs_zero]; norm_num; linarith
    · norm_num; linarith
    · norm_num; linarith
    · rw [sub_self, abs_zero]; norm_num; linarith
  · refine ⟨⟨x, 0, hx0, hx1, le_rfl, by norm_num, by linarith, ?_⟩, ⟨x, 0, hx0, hx1, le_rfl, by norm_num, by linarith, ?_⟩⟩ <;>
    · rw [sub_self, abs_zero]; norm_num; linarith
  · rw [Set.uIcc_of_le hab.le] at hy
    have hy0 : 0 < y := lt_of_lt_of_le h0 hy.1
    have hy1 : y ≤ 1000 := hy.2.trans hb2
    have hyx : |y - x| ≤ 2 * t + 1 / 10 ^ 11 := by
      refine hlt.le.trans ?_
      norm_num
      linarith
    have hxx : |x - x| ≤ 2 * t + 1 / 10 ^ 11 := by rw [sub_self, abs_zero]; positivity
    rcases hopp with ⟨o1, o2⟩ | ⟨o1, o2⟩ <;> simp only at o1 o2
    · exact ⟨⟨y, 0, hy0, hy1, le_rfl, by norm_num, by linarith, by linarith⟩,
        ⟨x, 0, hx0, hx1, le_rfl, by norm_num, by linarith, by linarith⟩⟩
    · exact ⟨⟨x, 0, hx0, hx1, le_rfl, by norm_num, by linarith, by linarith⟩,
        ⟨y, 0, hy0, hy1, le_rfl, by norm_num, by linarith, by linarith⟩⟩

/-- From 20 Pa up, an error of 1 Pa in the vapor pressure changes the dew point that the solver returns by at
most 2.5 degrees besides four times its tolerance. -/
theorem C189_dew_point (e e' t : ℝ) (h : 20 ≤ e) (h' : 20 ≤ e') (hs : e ≤ 3 / 2 * seaLevel)
    (hs' : e' ≤ 3 / 2 * seaLevel) (ht : 1 / 10000 ≤ t) (ht2 : t ≤ 10) :
    ∃ N x x', (∀ n, N ≤ n → dewPoint n e machine t = some (.root x) ∧ dewPoint n e' machine t = some (.root x')) ∧
      |x' - x| ≤ 5 / 2 * |e' - e| + 4 * t + 1 / 10 ^ 10 := by
  have side (e e' x x' p k q k' : ℝ) (h : 20 ≤ e) (p0 : 0 < p) (k0 : 0 ≤ k) (k6 : k ≤ 6)
      (hp : e ≤ sat p + k) (hpx : |p - x| + 5 / 2 * k ≤ 2 * t + 1 / 10 ^ 11) (q1 : q ≤ 1000) (k0' : 0 ≤ k')
      (hq : sat q ≤ e' + k') (hqx : |q - x'| + 5 / 2 * k' ≤ 2 * t + 1 / 10 ^ 11) :
      x' - x ≤ 5 / 2 * |e' - e| + 4 * t + 1 / 10 ^ 10 := by
    have l1 := le_abs_self (p - x)
    have l2 := neg_le_abs (q - x')
    have l3 := le_abs_self (e' - e)
    have l4 := abs_nonneg (e' - e)
    norm_num at hpx hqx ⊢
    rcases le_total q p with c | c
    · linarith
    · have := sat_slope p q p0 c q1 (by linarith)
      linarith
  obtain ⟨N, x, hx, ⟨p, k, a1, a2, a3, a4, a5, a6⟩, q, l, b1, b2, b3, b4, b5, b6⟩ := near_root e t (by linarith) hs ht ht2
  obtain ⟨N', x', hx', ⟨p', k', a1', a2', a3', a4', a5', a6'⟩, q', l', b1', b2', b3', b4', b5', b6'⟩ :=
    near_root e' t (by linarith) hs' ht ht2
  refine ⟨max N N', x, x', fun n hn => ⟨hx n (le_of_max_le_left hn), hx' n (le_of_max_le_right hn)⟩, ?_⟩
  have s1 := side e e' x x' p k q' l' h a1 a3 a4 a5 a6 b2' b3' b5' b6'
  have s2 := side e' e x' x p' k' q l h' a1' a3' a4' a5' a6' b2 b3 b5 b6
  rw [abs_sub_comm e] at s2
  rw [_root_.abs_le]
  constructor <;> linarith

/-- The limit of the dew point by the air temperature adds at most the fifth of a degree it takes away. -/
theorem C189_limited (d d' ta y y' : ℝ) (h : limitDew (some d) (some ta) = some y)
    (h' : limitDew (some d') (some ta) = some y') : |y' - y| ≤ |d' - d| + 2 / 10 := by
  unfold limitDew at h h'
  simp only at h h'
  have n := abs_nonneg (d' - d)
  have l1 := le_abs_self (d' - d)
  have l2 := neg_le_abs (d' - d)
  by_cases a : ta ≤ d <;> by_cases b : ta ≤ d' <;> simp only [a, b, if_true, if_false, Option.some.injEq] at h h' <;>
    subst h <;> subst h' <;> rw [_root_.abs_le] <;> constructor <;> linarith

/-- Below freezing (pressures up to 600 Pa) the bound is relative: with both pressures at least `m`, a hundredth of
`m` of error makes at most 0.17 degrees. -/
theorem C189_cold (m e e' t : ℝ) (hm : 20 ≤ m) (h : m ≤ e) (h' : m ≤ e') (hs : e ≤ 600) (hs' : e' ≤ 600)
    (ht : 1 / 10000 ≤ t) (ht2 : t ≤ 1 / 10) :
    ∃ N x x', (∀ n, N ≤ n → dewPoint n e machine t = some (.root x) ∧ dewPoint n e' machine t = some (.root x')) ∧
      |x' - x| ≤ |e' - e| / (59 / 1000 * m) + 4 * t + 1 / 10 ^ 10 := by
  have hsea : (600 : ℝ) ≤ 3 / 2 * seaLevel := by norm_num [seaLevel]
  have side (e e' x x' p k q k' : ℝ) (h : m ≤ e) (hs' : e' ≤ 600) (p0 : 0 < p) (k0 : 0 ≤ k)
      (hp : e ≤ sat p + k) (hpx : |p - x| + 5 / 2 * k ≤ 2 * t + 1 / 10 ^ 11) (q1 : q ≤ 1000) (k0' : 0 ≤ k')
      (hq : sat q ≤ e' + k') (hqx : |q - x'| + 5 / 2 * k' ≤ 2 * t + 1 / 10 ^ 11) :
      x' - x ≤ |e' - e| / (59 / 1000 * m) + 4 * t + 1 / 10 ^ 10 := by
    have l0 := abs_nonneg (p - x)
    have l0' := abs_nonneg (q - x')
    have l1 := le_abs_self (p - x)
    have l2 := neg_le_abs (q - x')
    have l3 := le_abs_self (e' - e)
    have l4 : 0 ≤ |e' - e| / (59 / 1000 * m) := by positivity
    norm_num at hpx hqx ⊢
    rcases le_total q p with c | c
    · linarith
    · have hqf : q ≤ freeze := by
        by_contra hn
        have := C41_increasing freeze q freeze_pos (not_le.1 hn) q1
        rw [show sat freeze = satIce freeze by unfold sat; rw [if_neg (lt_irrefl _)], satIce_freeze] at this
        linarith
      have hpf := c.trans hqf
      have sl := satIce_slope p q p0 c hqf
      unfold sat at hp hq
      rw [if_neg (not_lt.2 hpf)] at hp
      rw [if_neg (not_lt.2 hqf)] at hq
      have hsp : 984 / 1000 * m ≤ satIce p := by linarith
      have s2 := mul_le_mul_of_nonneg_right hsp (sub_nonneg.2 c)
      have s3 : (q - p) * (59 / 1000 * m) ≤ |e' - e| + (k + k') := by
        have := mul_nonneg (show 0 ≤ m by linarith) (sub_nonneg.2 c)
        nlinarith
      have s4 : q - p ≤ (|e' - e| + (k + k')) / (59 / 1000 * m) := (le_div_iff₀ (by positivity)).2 s3
      rw [add_div] at s4
      have s5 : (k + k') / (59 / 1000 * m) ≤ 5 / 2 * (k + k') := by
        rw [div_le_iff₀ (by positivity)]
        nlinarith [mul_nonneg (add_nonneg k0 k0') (sub_nonneg.2 hm)]
      linarith
  obtain ⟨N, x, hx, ⟨p, k, a1, a2, a3, a4, a5, a6⟩, q, l, b1, b2, b3, b4, b5, b6⟩ :=
    near_root e t (by linarith) (by linarith) ht (by linarith)
  obtain ⟨N', x', hx', ⟨p', k', a1', a2', a3', a4', a5', a6'⟩, q', l', b1', b2', b3', b4', b5', b6'⟩ :=
    near_root e' t (by linarith) (by linarith) ht (by linarith)
  refine ⟨max N N', x, x', fun n hn => ⟨hx n (le_of_max_le_left hn), hx' n (le_of_max_le_right hn)⟩, ?_⟩
  have s1 := side e e' x x' p k q' l' h hs' a1 a3 a5 a6 b2' b3' b5' b6'
  have s2 := side e' e x' x p' k' q l h' hs a1' a3' a5' a6' b2 b3 b5 b6
  rw [abs_sub_comm e] at s2
  rw [_root_.abs_le]
  constructor <;> linarith

/-- Vapor pressures of 590 and 600 Pa with the tolerance of 0.01 degrees: the dew points differ by at most a third
of a degree. -/
example : ∃ N x x', (∀ n, N ≤ n → dewPoint n 590 machine (1 / 100) = some (.root x) ∧
    dewPoint n 600 machine (1 / 100) = some (.root x')) ∧ |x' - x| ≤ 1 / 3 := by
  obtain ⟨N, x, x', h1, h2⟩ := C189_cold 590 590 600 (1 / 100) (by norm_num) (by norm_num) (by norm_num) (by norm_num)
    (by norm_num) (by norm_num) (by norm_num)
  refine ⟨N, x, x', h1, h2.trans ?_⟩
  norm_num [abs_of_pos]

/-- Across the freezing point, 600 and 620 Pa. -/
example : ∃ N x x', (∀ n, N ≤ n → dewPoint n 600 machine (1 / 100) = some (.root x) ∧
    dewPoint n 620 machine (1 / 100) = some (.root x')) ∧ |x' - x| ≤ 51 := by
  obtain ⟨N, x, x', h1, h2⟩ := C189_dew_point 600 620 (1 / 100) (by norm_num) (by norm_num) (by norm_num [seaLevel])
    (by norm_num [seaLevel]) (by norm_num) (by norm_num)
  refine ⟨N, x, x', h1, h2.trans ?_⟩
  norm_num [abs_of_pos]

/-- A dew point at the air temperature is lowered, one just below it is kept. -/
example : limitDew (some 3) (some 3) = some (3 - 2 / 10) ∧ limitDew (some (29 / 10)) (some 3) = some (29 / 10) := by
  unfold limitDew
  norm_num

end Verif.Dewpoint
