import Verif.SunProps

/-!
Sun position of a date: it is defined for every date from 1900 on (C90), the true anomaly (C91), the equatorial
coordinates (C92).
-/

namespace Verif.Sun

open Verif.Calendar (DT)

theorem dsign_one (x : ℝ) : dsign 1 x = if 0 ≤ x then 1 else -1 := by
  unfold dsign
  simp

/-- The quadrant correction of `p27` and `p44`. -/
theorem quadrant (v s : ℝ) (hv : -90 < v ∧ v < 90) :
    let w := if dsign 1 v ≠ dsign 1 s then v + 180 else v
    let w := if w < 0 then w + 360 else w
    0 ≤ w ∧ w < 360 := by
  intro w w'
  simp only [w', w, dsign_one]
  by_cases h1 : 0 ≤ v <;> by_cases h2 : 0 ≤ s <;> simp only [h1, h2, if_true, if_false, ne_eq, not_true_eq_false]
  · rw [if_neg (by linarith)]; constructor <;> linarith
  · rw [if_pos (show ¬ ((1 : ℝ) = -1) by norm_num), if_neg (by linarith)]; constructor <;> linarith
  · rw [not_le] at h1
    rw [if_pos (show ¬ ((-1 : ℝ) = 1) by norm_num), if_neg (by linarith)]; constructor <;> linarith
  · rw [not_le] at h1
    rw [if_pos (by linarith)]; constructor <;> linarith

theorem arctan_deg (x : ℝ) : -90 < Real.arctan x / degrd ∧ Real.arctan x / degrd < 90 := by
  have h1 := Real.neg_pi_div_two_lt_arctan x
  have h2 := Real.arctan_lt_pi_div_two x
  have hd := degrd_pos
  rw [lt_div_iff₀ hd, div_lt_iff₀ hd, degrd_eq]
  constructor <;> linarith

theorem p44_range (long obl : ℝ) : 0 ≤ p44 long obl ∧ p44 long obl < 360 := by
  unfold p44
  exact quadrant _ _ (arctan_deg _)

theorem hourAngle_range {p51 a b : ℝ} (h1 : 0 ≤ p51 ∧ p51 < 360) (h2 : 0 ≤ a ∧ a < 360) (h3 : 0 ≤ b ∧ b < 360) :
    |hourAngle p51 a b| ≤ 180 := by
  unfold hourAngle
  simp only
  rw [abs_le]
  by_cases c1 : a - b > 180
  · rw [if_pos c1]
    split
    · constructor <;> linarith
    · split <;> constructor <;> linarith
  · rw [if_neg c1]
    split
    · constructor <;> linarith
    · split <;> constructor <;> linarith

/-- C90: the hour angle is the hour angle of the mean sun at that time of the day plus the equation of time, up to
full turns. -/
theorem C90_hour_angle (p51 a b : ℝ) : ∃ k : Int, hourAngle p51 a b = (p51 - 180) + (a - b) + 360 * k := by
  unfold hourAngle
  simp only
  by_cases c1 : a - b > 180
  · rw [if_pos c1]
    split
    · exact ⟨-2, by push_cast; ring⟩
    · split
      · exact ⟨0, by push_cast; ring⟩
      · exact ⟨-1, by push_cast; ring⟩
  · rw [if_neg c1]
    split
    · exact ⟨-1, by push_cast; ring⟩
    · split
      · exact ⟨1, by push_cast; ring⟩
      · exact ⟨0, by push_cast; ring⟩

/-- A negative mean ascension, as `fmod` gives for dates before 1900, can leave the hour angle out of range, which
`sunpath` rejects. -/
example : hourAngle 0 (-50) 314 = -184 := by
  unfold hourAngle; norm_num

theorem p35_bound (a b : ℝ) : |p35 a b| ≤ 0.0028 := by
  unfold p35
  have h1 := abs_le.1 (Real.abs_cos_le_one (p31 b * degrd))
  have h2 := abs_le.1 (Real.abs_cos_le_one (2 * p24 a b * degrd))
  have h3 := abs_le.1 (Real.abs_cos_le_one (2 * p31 b * degrd))
  have h4 := abs_le.1 (Real.abs_cos_le_one (2 * p32 b * degrd))
  rw [abs_le]
  constructor
  · rw [le_div_iff₀ (by norm_num)]; norm_num; linarith [h1.1, h2.1, h3.2, h4.1]
  · rw [div_le_iff₀ (by norm_num)]; norm_num; linarith [h1.2, h2.2, h3.1, h4.2]

theorem p43_bound {c : ℝ} (h1 : 0 ≤ c) (h2 : c ≤ 82) : 22 ≤ p43 c ∧ p43 c ≤ 23.46 := by
  unfold p43
  norm_num
  have e : -(41 / 25000000) + 503 / 1000000000 * c ≤ 42 / 1000000 := by linarith
  have e' : -(2 / 1000000) ≤ -(41 / 25000000) + 503 / 1000000000 * c := by linarith
  set u := -(41 / 25000000) + 503 / 1000000000 * c
  have f : c * u ≤ 0.0036 := by norm_num; nlinarith
  have f' : -0.0002 ≤ c * u := by norm_num; nlinarith
  norm_num at f f'
  constructor <;> nlinarith

/-- The declination of the sun is at most the obliquity. -/
theorem declination_le {long obl : ℝ} (h1 : 0 ≤ obl) (h2 : obl ≤ 90) : |declination long obl| ≤ obl * degrd := by
  unfold declination
  have hd := degrd_pos
  have hpi := Real.pi_pos
  have hr : obl * degrd ≤ Real.pi / 2 := by rw [degrd_eq]; nlinarith
  have h0 : 0 ≤ obl * degrd := by positivity
  have hs : 0 ≤ Real.sin (obl * degrd) := Real.sin_nonneg_of_nonneg_of_le_pi h0 (by linarith)
  have hL := abs_le.1 (Real.abs_sin_le_one (long * degrd))
  have e : Real.arcsin (Real.sin (obl * degrd)) = obl * degrd := Real.arcsin_sin (by linarith) hr
  have e' : Real.arcsin (-Real.sin (obl * degrd)) = -(obl * degrd) := by rw [Real.arcsin_neg, e]
  rw [abs_le]
  constructor
  · rw [← e']
    exact Real.monotone_arcsin (by nlinarith [hL.1])
  · conv_rhs => rw [← e]
    exact Real.monotone_arcsin (by nlinarith [hL.2])

theorem radius_near (e p : ℝ) (he : 0 ≤ e) : |radius e p - 1| ≤ e := by
  unfold radius
  have h := abs_le.1 (Real.abs_cos_le_one (p * degrd))
  rw [abs_le]
  norm_num
  constructor <;> nlinarith [h.1, h.2]

/-- The angles of a date from 1900 on are within the bounds that `sunpath` checks. -/
theorem afterKepler_range {n : Int} {sec : Nat} (h1 : 1 ≤ n) (h2 : n ≤ 2959000) (hs : sec < 86400) (x : ℝ) :
    |(afterKepler ((sec : ℝ) / 10.0 / 24.0) (centuries n sec * 36525) (centuries n sec) x).1| ≤ 23.6 * Real.pi / 180 ∧
    |(afterKepler ((sec : ℝ) / 10.0 / 24.0) (centuries n sec * 36525) (centuries n sec) x).2.1| ≤ Real.pi ∧
    |(afterKepler ((sec : ℝ) / 10.0 / 24.0) (centuries n sec * 36525) (centuries n sec) x).2.2 - 1| ≤ 0.0176 := by
  obtain ⟨c1, c2, c3⟩ := centuries_bounds (by omega) h2 hs
  have c3 := c3 h1
  set c := centuries n sec
  have hd := degrd_pos
  have hpi := Real.pi_pos
  have ho := p43_bound c3 c2
  have hn := abs_le.1 (p35_bound (c * 36525) c)
  norm_num at ho hn
  unfold afterKepler
  simp only
  refine ⟨?_, ?_, ?_⟩
  · refine le_trans (declination_le (by linarith) (by linarith)) ?_
    rw [degrd_eq]
    norm_num
    nlinarith
  · have a3 : (sec : ℝ) < 86400 := by exact_mod_cast hs
    have a4 : (0 : ℝ) ≤ sec := Nat.cast_nonneg _
    have hp45 : 0 ≤ p45 (c * 36525) c ∧ p45 (c * 36525) c < 360 := by
      unfold p45
      apply fmod_nonneg _ (by norm_num)
      have := (fmod_nonneg (show (0 : ℝ) ≤ 0.98564734 * (c * 36525) by positivity) (show (0 : ℝ) < 360 by norm_num)).1
      have : (0 : ℝ) ≤ 3.8708e-4 * c * c := by positivity
      have : (0 : ℝ) ≤ 279.6909832 := by norm_num
      linarith
    have := hourAngle_range (p51 := (sec : ℝ) / 10.0 / 24.0) (by norm_num; constructor <;> linarith) hp45
      (p44_range (p41 (c * 36525) c (p27 (p26 c) (x / degrd)) (radius (p26 c) (x / degrd))) (p43 c + p35 (c * 36525) c))
    rw [abs_mul, abs_neg, abs_of_pos hd]
    calc _ ≤ 180 * degrd := mul_le_mul_of_nonneg_right this hd.le
      _ = Real.pi := by rw [degrd_eq]; ring
  · have he := p26_bounds c1 c2
    refine le_trans (radius_near _ _ ?_) he.2
    have := he.1
    norm_num at this
    linarith

/-- C90: for every date from 1900 on and every place of the earth the position of the sun is defined: no check fails,
no division by zero, the loop ends. The cosine is a cosine and the earth is near its mean distance. -/
theorem C90_defined (t : DT) (hv : t.Valid) (hy1 : 1900 ≤ t.year) (hy : t.year ≤ 9999) (lat long : ℝ)
    (hlat : |lat| ≤ 90) (hlong : |long| ≤ 180) :
    ∃ turns mu az r, (∀ fuel, turns ≤ fuel → sunang fuel t lat long = .ok (mu, az, r)) ∧ |mu| ≤ 1 ∧ |az| ≤ 180 ∧
      |r - 1| ≤ 0.0176 := by
  obtain ⟨turns, r, hr⟩ := C69_every_date t hv hy
  have hk := hr turns le_rfl
  obtain ⟨n, x, hb, hn2, e⟩ : ∃ (n : Int) (x : ℝ), 1 ≤ n ∧ n ≤ 2959000 ∧
      r = afterKepler ((t.sec : ℝ) / 10.0 / 24.0) (centuries n t.sec * 36525) (centuries n t.sec) x := by
    unfold ephemeris at hk
    cases hn : dayTerm t.year t.month t.day with
    | none => rw [hn] at hk; cases hk
    | some n =>
      obtain ⟨b1, b2, b3⟩ := dayTerm_bounds hn hv.1 hy
      rw [hn] at hk
      simp only at hk
      split at hk
      · cases hk
        exact ⟨n, _, b3 hy1, b2, rfl⟩
      all_goals cases hk
  obtain ⟨d1, d2, d3⟩ := afterKepler_range hb hn2 hv.2.2 x
  rw [← e] at d1 d2 d3
  have hpi := Real.pi_pos
  rw [abs_le] at hlat hlong
  have hl : |lat * Real.pi / 180| ≤ Real.pi / 2 := by rw [abs_le]; constructor <;> nlinarith [hlat.1, hlat.2]
  have hg : |long * Real.pi / 180| ≤ Real.pi := by rw [abs_le]; constructor <;> nlinarith [hlong.1, hlong.2]
  obtain ⟨mu, az, hs⟩ := (C68_partial (lat * Real.pi / 180) (long * Real.pi / 180) r.1 r.2.1).1 ⟨hl, hg, d1, d2⟩
  have hpos := C67_position _ _ _ _ _ _ (abs_le.1 hl) hs
  refine ⟨turns, mu, az * 180 / Real.pi, r.2.2, fun fuel hf => ?_, hpos.2.1, ?_, d3⟩
  · unfold sunang
    rw [hr fuel hf]
    obtain ⟨r1, r2, r3⟩ := r
    simp only at hs ⊢
    rw [hs]
  · obtain ⟨_, _, _, _, a1, a2⟩ := hpos
    rw [abs_div, abs_mul, abs_of_pos hpi, div_le_iff₀ hpi, abs_of_pos (by norm_num : (0 : ℝ) < 180)]
    have : |az| ≤ Real.pi := abs_le.2 ⟨a1, a2.le⟩
    nlinarith

/-- Reynolds Mountain on a leap day. -/
example : (⟨2024, 2, 29, 3600⟩ : DT).Valid ∧ |(43.06 : ℝ)| ≤ 90 ∧ |(-116.75 : ℝ)| ≤ 180 := by
  refine ⟨⟨by decide, (Calendar.C18_domain 2024 2 29).1 ⟨60, by decide⟩, by decide⟩, ?_, ?_⟩ <;>
    norm_num [abs_le]

/-! ### C91: true anomaly -/

theorem cos_two_arctan (x : ℝ) : Real.cos (2 * Real.arctan x) = (1 - x ^ 2) / (1 + x ^ 2) := by
  rw [Real.cos_two_mul, Real.cos_arctan, div_pow, one_pow, Real.sq_sqrt (by positivity)]
  field_simp
  ring

theorem sin_two_arctan (x : ℝ) : Real.sin (2 * Real.arctan x) = 2 * x / (1 + x ^ 2) := by
  have h : (0 : ℝ) ≤ 1 + x ^ 2 := by positivity
  rw [Real.sin_two_mul, Real.cos_arctan, Real.sin_arctan]
  have := Real.mul_self_sqrt h
  have hp : 0 < Real.sqrt (1 + x ^ 2) := Real.sqrt_pos.2 (by positivity)
  set R := Real.sqrt (1 + x ^ 2)
  rw [← this]
  field_simp

/-- The angle before the quadrant correction. -/
theorem p27_eq {e p13 : ℝ} (he : 0 ≤ e) (he1 : e < 1) (hc : Real.cos (p13 * degrd / 2) ≠ 0) :
    0 ≤ p27 e p13 ∧ p27 e p13 < 360 ∧ ∃ k : Int, p27 e p13 * degrd =
      2 * Real.arctan (Real.sqrt ((1 + e) / (1 - e)) * Real.tan (p13 * degrd / 2)) + k * (2 * Real.pi) := by
  have hd := degrd_pos
  have hpi := Real.pi_pos
  unfold p27
  simp only
  have ee : p13 / 2.0 * degrd = p13 * degrd / 2 := by norm_num; ring
  rw [ee, show (2.0 : ℝ) = 2 by norm_num, show (1.0 : ℝ) = 1 by norm_num]
  set A := Real.arctan (Real.sqrt ((1 + e) / (1 - e)) * Real.tan (p13 * degrd / 2)) with hA
  have hs : 0 < Real.sqrt ((1 + e) / (1 - e)) := Real.sqrt_pos.2 (div_pos (by linarith) (by linarith))
  have hsin : Real.sin (p13 * degrd) = 2 * Real.tan (p13 * degrd / 2) * Real.cos (p13 * degrd / 2) ^ 2 := by
    rw [show p13 * degrd = 2 * (p13 * degrd / 2) by ring, Real.sin_two_mul, Real.tan_eq_sin_div_cos,
      show 2 * (p13 * degrd / 2) / 2 = p13 * degrd / 2 by ring]
    field_simp
  have hc2 : 0 < Real.cos (p13 * degrd / 2) ^ 2 := by positivity
  have hiff : 0 ≤ 2 * A / degrd ↔ 0 ≤ Real.sin (p13 * degrd) := by
    have e1 : 0 ≤ 2 * A / degrd ↔ 0 ≤ A := by
      constructor
      · intro h
        by_contra hn
        rw [not_le] at hn
        have : 2 * A / degrd < 0 := div_neg_of_neg_of_pos (by linarith) hd
        linarith
      · intro h; positivity
    have e2 : 0 ≤ A ↔ 0 ≤ Real.tan (p13 * degrd / 2) := by
      rw [hA, Real.arctan_nonneg]
      exact mul_nonneg_iff_of_pos_left hs
    rw [e1, e2, hsin]
    constructor
    · intro h; positivity
    · intro h
      by_contra hn
      rw [not_le] at hn
      nlinarith
  have hds : dsign 1 (2 * A / degrd) = dsign 1 (Real.sin (p13 * degrd)) := by
    rw [dsign_one, dsign_one]
    by_cases h : 0 ≤ 2 * A / degrd
    · rw [if_pos h, if_pos (hiff.1 h)]
    · rw [if_neg h, if_neg (fun h' => h (hiff.2 h'))]
  rw [if_neg (not_not.2 hds)]
  have hr := arctan_deg (Real.sqrt ((1 + e) / (1 - e)) * Real.tan (p13 * degrd / 2))
  rw [← hA] at hr
  have e2 : 2 * A / degrd = 2 * (A / degrd) := by ring
  by_cases h0 : 2 * A / degrd < 0
  · rw [if_pos h0]
    refine ⟨by linarith, by linarith, 1, ?_⟩
    rw [add_mul, div_mul_cancel₀ _ hd.ne', degrd_eq]
    push_cast; ring
  · rw [if_neg h0]
    refine ⟨by linarith, by linarith, 0, ?_⟩
    rw [div_mul_cancel₀ _ hd.ne']
    push_cast; ring

/-- C91: the true anomaly is the direction of the planet on its ellipse: with the eccentric anomaly `E` the position
relative to the focus, in units of the semi-major axis, is `(cos E - e, √(1 - e²) sin E)`, at the distance
`1 - e cos E`. Excluded is the aphelion itself, where the tangent is undefined. -/
theorem C91_position (e p13 : ℝ) (he : 0 ≤ e) (he1 : e < 1) (hc : Real.cos (p13 * degrd / 2) ≠ 0) :
    radius e p13 * Real.cos (p27 e p13 * degrd) = Real.cos (p13 * degrd) - e ∧
      radius e p13 * Real.sin (p27 e p13 * degrd) = Real.sqrt (1 - e ^ 2) * Real.sin (p13 * degrd) ∧
      0 ≤ p27 e p13 ∧ p27 e p13 < 360 := by
  obtain ⟨r1, r2, k, hk⟩ := p27_eq he he1 hc
  refine ⟨?_, ?_, r1, r2⟩
  all_goals
    rw [hk]
    have hq : 0 < (1 + e) / (1 - e) := div_pos (by linarith) (by linarith)
    have hsq := Real.sq_sqrt hq.le
    unfold radius
    rw [show (1.0 : ℝ) = 1 by norm_num, show p13 * degrd = 2 * (p13 * degrd / 2) by ring,
      show 2 * (p13 * degrd / 2) / 2 = p13 * degrd / 2 by ring]
    set h := p13 * degrd / 2
    have ht : Real.tan h = Real.sin h / Real.cos h := Real.tan_eq_sin_div_cos h
    have hp := Real.sin_sq_add_cos_sq h
    have h1e : (1 - e) ≠ 0 := by linarith
    have hden : 0 < (1 - e) * Real.cos h ^ 2 + (1 + e) * Real.sin h ^ 2 := by
      have : 0 < Real.cos h ^ 2 := by positivity
      nlinarith [sq_nonneg (Real.sin h)]
  · rw [Real.cos_add_int_mul_two_pi, cos_two_arctan, mul_pow, hsq, ht, Real.cos_two_mul]
    have e1 : 1 + (1 + e) / (1 - e) * (Real.sin h / Real.cos h) ^ 2 =
        ((1 - e) * Real.cos h ^ 2 + (1 + e) * Real.sin h ^ 2) / ((1 - e) * Real.cos h ^ 2) := by
      field_simp
    have e2 : 1 - (1 + e) / (1 - e) * (Real.sin h / Real.cos h) ^ 2 =
        ((1 - e) * Real.cos h ^ 2 - (1 + e) * Real.sin h ^ 2) / ((1 - e) * Real.cos h ^ 2) := by
      field_simp
    have e3 : 1 - e * (2 * Real.cos h ^ 2 - 1) = (1 - e) * Real.cos h ^ 2 + (1 + e) * Real.sin h ^ 2 := by
      linear_combination (-(1 + e)) * hp
    rw [e1, e2, e3, div_div_div_cancel_right₀ (mul_ne_zero h1e (pow_ne_zero 2 hc)), mul_div_cancel₀ _ hden.ne']
    linear_combination (-(1 + e)) * hp
  · rw [Real.sin_add_int_mul_two_pi, sin_two_arctan, mul_pow, hsq, ht, Real.sin_two_mul, Real.cos_two_mul]
    have e1 : 1 + (1 + e) / (1 - e) * (Real.sin h / Real.cos h) ^ 2 =
        ((1 - e) * Real.cos h ^ 2 + (1 + e) * Real.sin h ^ 2) / ((1 - e) * Real.cos h ^ 2) := by
      field_simp
    have e3 : 1 - e * (2 * Real.cos h ^ 2 - 1) = (1 - e) * Real.cos h ^ 2 + (1 + e) * Real.sin h ^ 2 := by
      linear_combination (-(1 + e)) * hp
    have e4 : Real.sqrt (1 - e ^ 2) = (1 - e) * Real.sqrt ((1 + e) / (1 - e)) := by
      have : 1 - e ^ 2 = (1 - e) ^ 2 * ((1 + e) / (1 - e)) := by field_simp; ring
      rw [this, Real.sqrt_mul (sq_nonneg _), Real.sqrt_sq (by linarith)]
    rw [e1, e3, e4]
    set q := Real.sqrt ((1 + e) / (1 - e))
    set D := (1 - e) * Real.cos h ^ 2 + (1 + e) * Real.sin h ^ 2
    field_simp

/-- A quarter of the orbit after the perihelion. -/
example : Real.cos (90 * degrd / 2) ≠ 0 := by
  rw [degrd_eq]
  apply ne_of_gt
  apply Real.cos_pos_of_mem_Ioo
  have := Real.pi_pos
  constructor <;> linarith

/-- C91: the distance obeys the equation of the ellipse. -/
theorem C91_ellipse (e p13 : ℝ) (he : 0 ≤ e) (he1 : e < 1) (hc : Real.cos (p13 * degrd / 2) ≠ 0) :
    radius e p13 * (1 + e * Real.cos (p27 e p13 * degrd)) = 1 - e ^ 2 := by
  have h := (C91_position e p13 he he1 hc).1
  unfold radius at h ⊢
  rw [show (1.0 : ℝ) = 1 by norm_num] at h ⊢
  linear_combination e * h

/-! ### C92: equatorial coordinates -/

/-- C92: right ascension and declination are the direction of the sun on the ecliptic, in equatorial coordinates:
the longitude `L` on the ecliptic, the obliquity `o`. Excluded are the solstices, where the tangent is undefined, and
the autumn equinox. -/
theorem C92_equatorial (long obl : ℝ) (hcos : Real.cos (long * degrd) ≠ 0)
    (hsin : Real.sin (long * degrd) ≠ 0 ∨ 0 < Real.cos (long * degrd)) (ho : 0 < Real.cos (obl * degrd)) :
    direction (declination long obl) (p44 long obl * degrd) =
      (Real.cos (long * degrd), Real.sin (long * degrd) * Real.cos (obl * degrd),
        Real.sin (long * degrd) * Real.sin (obl * degrd)) ∧ 0 ≤ p44 long obl ∧ p44 long obl < 360 := by
  refine ⟨?_, p44_range long obl⟩
  set L := long * degrd with hL
  set o := obl * degrd with hO
  have p1 := Real.sin_sq_add_cos_sq L
  have p2 := Real.sin_sq_add_cos_sq o
  have hd := degrd_pos
  have hb : |Real.sin L * Real.sin o| ≤ 1 := by
    rw [abs_mul]
    exact mul_le_one₀ (Real.abs_sin_le_one _) (abs_nonneg _) (Real.abs_sin_le_one _)
  rw [abs_le] at hb
  have hsd : Real.sin (declination long obl) = Real.sin L * Real.sin o := by
    unfold declination; exact Real.sin_arcsin hb.1 hb.2
  set x := Real.tan L * Real.cos o with hx
  have hT : Real.tan L = Real.sin L / Real.cos L := Real.tan_eq_sin_div_cos L
  set R := Real.sqrt (1 + x ^ 2) with hR
  have hR0 : 0 < R := Real.sqrt_pos.2 (by positivity)
  have hR2 : R ^ 2 = 1 + x ^ 2 := Real.sq_sqrt (by positivity)
  have hcd : Real.cos (declination long obl) = |Real.cos L| * R := by
    unfold declination
    rw [← hL, ← hO, Real.cos_arcsin, ← Real.sqrt_sq_eq_abs, hR, ← Real.sqrt_mul (sq_nonneg _)]
    congr 1
    rw [hx, hT]
    field_simp
    linear_combination (-1) * p1 - (Real.sin L ^ 2) * p2
  have ca : Real.cos (Real.arctan x) = 1 / R := Real.cos_arctan x
  have sa : Real.sin (Real.arctan x) = x / R := Real.sin_arctan x
  have hxv : Real.cos L * x = Real.sin L * Real.cos o := by
    rw [hx, hT]; field_simp
  -- the angle: the arc tangent, half a turn more when the cosine is negative
  have hang : ∃ k : Int, p44 long obl * degrd =
      Real.arctan x + (if 0 < Real.cos L then 0 else Real.pi) + k * (2 * Real.pi) := by
    unfold p44
    rw [← hL, ← hO, ← hx]
    simp only
    set v := Real.arctan x / degrd with hv
    have hvd : v * degrd = Real.arctan x := div_mul_cancel₀ _ hd.ne'
    have hvs : 0 ≤ v ↔ 0 ≤ x := by
      rw [← Real.arctan_nonneg (x := x), ← hvd]
      exact (mul_nonneg_iff_of_pos_right hd).symm
    have final : ∀ w : ℝ, ∃ k : Int, (if w < 0 then w + 360 else w) * degrd = w * degrd + k * (2 * Real.pi) := by
      intro w
      split
      · exact ⟨1, by rw [degrd_eq]; push_cast; ring⟩
      · exact ⟨0, by push_cast; ring⟩
    by_cases hc : 0 < Real.cos L
    · have : (0 ≤ v ↔ 0 ≤ Real.sin L) := by
        rw [hvs]
        constructor
        · intro h
          by_contra hn
          rw [not_le] at hn
          have : Real.sin L * Real.cos o < 0 := mul_neg_of_neg_of_pos hn ho
          have : 0 ≤ Real.cos L * x := by positivity
          linarith
        · intro h
          by_contra hn
          rw [not_le] at hn
          have : 0 ≤ Real.sin L * Real.cos o := by positivity
          have : Real.cos L * x < 0 := mul_neg_of_pos_of_neg hc hn
          linarith
      have hds : dsign 1 v = dsign 1 (Real.sin L) := by
        rw [dsign_one, dsign_one]
        by_cases h : 0 ≤ v
        · rw [if_pos h, if_pos (this.1 h)]
        · rw [if_neg h, if_neg (fun h' => h (this.2 h'))]
      rw [if_neg (not_not.2 hds), if_pos hc]
      obtain ⟨k, hk⟩ := final v
      exact ⟨k, by rw [hk, hvd, add_zero]⟩
    · have hneg : Real.cos L < 0 := lt_of_le_of_ne (not_lt.1 hc) hcos
      have hs0 : Real.sin L ≠ 0 := by
        rcases hsin with h | h
        · exact h
        · exact absurd h hc
      have : (0 ≤ v ↔ ¬ 0 ≤ Real.sin L) := by
        rw [hvs]
        constructor
        · intro h hn
          have h3 : 0 < Real.sin L * Real.cos o := mul_pos (lt_of_le_of_ne hn (Ne.symm hs0)) ho
          have : Real.cos L * x ≤ 0 := mul_nonpos_of_nonpos_of_nonneg hneg.le h
          linarith
        · intro h
          rw [not_le] at h
          by_contra hn
          rw [not_le] at hn
          have : Real.sin L * Real.cos o < 0 := mul_neg_of_neg_of_pos h ho
          have : 0 < Real.cos L * x := mul_pos_of_neg_of_neg hneg hn
          linarith
      have hds : dsign 1 v ≠ dsign 1 (Real.sin L) := by
        rw [dsign_one, dsign_one]
        by_cases h : 0 ≤ v
        · rw [if_pos h, if_neg (this.1 h)]; norm_num
        · rw [if_neg h, if_pos (not_not.1 (fun h' => h (this.2 h')))]; norm_num
      rw [if_pos hds, if_neg hc]
      obtain ⟨k, hk⟩ := final (v + 180)
      exact ⟨k, by rw [hk, add_mul, hvd, degrd_eq]; ring⟩
  obtain ⟨k, hk⟩ := hang
  unfold direction
  rw [hk, Real.cos_add_int_mul_two_pi, Real.sin_add_int_mul_two_pi, hcd, hsd]
  by_cases hc : 0 < Real.cos L
  · rw [if_pos hc, add_zero, ca, sa, abs_of_pos hc, ← hxv]
    refine Prod.ext ?_ (Prod.ext ?_ rfl) <;> simp only <;> field_simp
  · have hneg : Real.cos L < 0 := lt_of_le_of_ne (not_lt.1 hc) hcos
    rw [if_neg hc, Real.cos_add_pi, Real.sin_add_pi, ca, sa, abs_of_neg hneg, ← hxv]
    refine Prod.ext ?_ (Prod.ext ?_ rfl) <;> simp only <;> field_simp

/-- In the second quadrant. -/
example : Real.cos (120 * degrd) ≠ 0 ∧ Real.sin (120 * degrd) ≠ 0 ∧ 0 < Real.cos (23 * degrd) := by
  rw [degrd_eq]
  have hpi := Real.pi_pos
  refine ⟨ne_of_lt ?_, ne_of_gt ?_, ?_⟩
  · exact Real.cos_neg_of_pi_div_two_lt_of_lt (by linarith) (by linarith)
  · exact Real.sin_pos_of_pos_of_lt_pi (by linarith) (by linarith)
  · apply Real.cos_pos_of_mem_Ioo
    constructor <;> linarith

/-- C92: at the autumn equinox itself the right ascension is 0 instead of 180 degrees: the sine of the longitude and
the arc tangent are both zero, which the comparison of signs takes for the same half plane. -/
theorem C92_autumn_equinox (obl : ℝ) : p44 180 obl = 0 := by
  unfold p44
  have e : (180 : ℝ) * degrd = Real.pi := by rw [degrd_eq]; ring
  rw [e, Real.tan_pi, zero_mul, Real.arctan_zero, zero_div, Real.sin_pi]
  simp

end Verif.Sun
