import Verif.SunOrbitProps

/-!
The ephemeris as a whole (C94): the result of `ephemeris` is the direction of the sun on its orbit.
-/

namespace Verif.Sun

open Verif.Calendar (DT ordinal)

/-! ### Specification: elements of the orbit, in degrees, for `T` Julian centuries since the epoch -/

/-- Equality of angles in degrees. -/
def SameDeg (a b : ℝ) : Prop := ∃ k : Int, a = b + 360 * k

/-- Mean anomaly. -/
noncomputable def meanAnomaly (T : ℝ) : ℝ := 358.47583 + 0.985600267 * 36525 * T - 1.5e-4 * T ^ 2 - 3e-6 * T ^ 3

/-- Mean longitude. -/
noncomputable def meanLongitude (T : ℝ) : ℝ := 279.69668 + 0.9856473354 * 36525 * T + 3.03e-4 * T ^ 2

/-- Right ascension of the mean sun. -/
noncomputable def meanAscension (T : ℝ) : ℝ := 279.6909832 + 0.98564734 * 36525 * T + 3.8708e-4 * T ^ 2

/-- Eccentricity. -/
noncomputable def eccentricity (T : ℝ) : ℝ := 0.01675104 - 4.18e-5 * T - 1.26e-7 * T ^ 2

/-- Mean obliquity. -/
noncomputable def obliquity (T : ℝ) : ℝ := 23.452294 - 0.0130125 * T - 1.64e-6 * T ^ 2 + 5.03e-7 * T ^ 3

theorem SameDeg_fmod {a b : ℝ} (h : SameDeg a b) : SameDeg (fmod a 360) b := by
  obtain ⟨k, hk⟩ := h
  obtain ⟨l, hl⟩ := fmod_int a 360
  exact ⟨k - l, by rw [hl, hk]; push_cast; ring⟩

theorem p24_same (T : ℝ) : SameDeg (p24 (T * 36525) T) (meanLongitude T) := by
  unfold p24 meanLongitude
  apply SameDeg_fmod
  obtain ⟨l, hl⟩ := fmod_int (0.9856473354 * (T * 36525)) 360
  exact ⟨-l, by rw [hl]; push_cast; ring⟩

theorem p25_same (T : ℝ) : SameDeg (p25 (T * 36525) T) (meanAnomaly T) := by
  unfold p25 meanAnomaly
  apply SameDeg_fmod
  obtain ⟨l, hl⟩ := fmod_int (0.985600267 * (T * 36525)) 360
  refine ⟨-l, ?_⟩
  rw [hl]
  push_cast
  rw [show (-1.5e-4 : ℝ) = -(1.5e-4) by norm_num, show (-3.e-6 : ℝ) = -(3e-6) by norm_num]
  ring

theorem p45_same (T : ℝ) : SameDeg (p45 (T * 36525) T) (meanAscension T) := by
  unfold p45 meanAscension
  apply SameDeg_fmod
  obtain ⟨l, hl⟩ := fmod_int (0.98564734 * (T * 36525)) 360
  exact ⟨-l, by rw [hl]; push_cast; ring⟩

theorem p26_same (T : ℝ) : p26 T = eccentricity T := by
  unfold p26 eccentricity
  norm_num
  ring

theorem p43_same (T : ℝ) : p43 T = obliquity T := by
  unfold p43 obliquity
  norm_num
  ring

/-! ### The perturbations are small -/

theorem p33_bound (T : ℝ) : |p33 T| ≤ 0.002 := by
  unfold p33
  have h1 := abs_le.1 (Real.abs_sin_le_one (p30 T * degrd))
  have h2 := abs_le.1 (Real.abs_sin_le_one (3 * p30 T * degrd))
  have h3 := abs_le.1 (Real.abs_sin_le_one ((p30 T + p28 T) * degrd))
  have h4 := abs_le.1 (Real.abs_sin_le_one ((p30 T - p28 T) * degrd))
  rw [abs_le]
  constructor
  · rw [le_div_iff₀ (by norm_num)]; norm_num; linarith [h1.1, h2.1, h3.1, h4.2]
  · rw [div_le_iff₀ (by norm_num)]; norm_num; linarith [h1.2, h2.2, h3.2, h4.1]

theorem p34_bound {T : ℝ} (h0 : 0 ≤ T) (h2' : T ≤ 3) (a : ℝ) : |p34 a T| ≤ 0.0054 := by
  unfold p34
  have h1 := abs_le.1 (Real.abs_sin_le_one (p31 T * degrd))
  have h2 := abs_le.1 (Real.abs_sin_le_one (2 * p31 T * degrd))
  have h3 := abs_le.1 (Real.abs_sin_le_one (2 * p32 T * degrd))
  have h4 := abs_le.1 (Real.abs_sin_le_one (2 * p24 a T * degrd))
  have h5 := abs_le.1 (Real.abs_sin_le_one (p28 T * degrd))
  set s := Real.sin (p31 T * degrd)
  have hq : |-(17.234 - 0.017 * T) * s| ≤ 17.234 := by
    rw [abs_le]
    norm_num
    constructor <;> nlinarith [h1.1, h1.2]
  rw [abs_le] at hq
  norm_num at hq
  rw [abs_le]
  constructor
  · rw [le_div_iff₀ (by norm_num)]; norm_num; linarith [hq.1, h2.1, h3.2, h4.2, h5.1]
  · rw [div_le_iff₀ (by norm_num)]; norm_num; linarith [hq.2, h2.2, h3.1, h4.1, h5.2]

theorem p36_bound {T : ℝ} (h0 : 0 ≤ T) (h2' : T ≤ 2.02) : |p36 T| ≤ 0.0033 := by
  unfold p36
  have h1 := abs_le.1 (Real.abs_sin_le_one ((31.8 + 119 * T) * degrd))
  have h2 := abs_le.1 (Real.abs_sin_le_one ((57.24 + 150.27 * T) * degrd))
  have h3 := abs_le.1 (Real.abs_sin_le_one ((315.6 + 893.3 * T) * degrd))
  have h4 := abs_le.1 (Real.abs_sin_le_one ((231.19 + 20.2 * T) * degrd))
  have hd : degrd ≤ 0.0176 := by
    rw [degrd_eq]; have := Real.pi_lt_d2; norm_num at this ⊢; linarith
  have hd0 := degrd_pos
  set s := Real.sin ((57.24 + 150.27 * T) * degrd)
  have hc : 0 ≤ (1.882 - 0.016 * T) * degrd ∧ (1.882 - 0.016 * T) * degrd ≤ 0.034 := by
    norm_num at h2' hd ⊢
    constructor
    · apply mul_nonneg _ hd0.le; linarith
    · nlinarith
  have hq : |((1.882 - 0.016 * T) * degrd) * s| ≤ 0.034 := by
    rw [abs_mul, abs_of_nonneg hc.1]
    calc _ ≤ (1.882 - 0.016 * T) * degrd * 1 := mul_le_mul_of_nonneg_left (abs_le.2 h2) hc.1
      _ ≤ 0.034 := by linarith [hc.2]
  rw [abs_le] at hq
  have ht : 0 ≤ T * T ∧ T * T ≤ 4.0804 := by
    norm_num at h2' ⊢
    constructor <;> nlinarith
  set u := ((1.882 - 0.016 * T) * degrd) * s
  have e : (1.089 : ℝ) * T * T = 1.089 * (T * T) := by ring
  rw [e, abs_le]
  norm_num at hq ht
  constructor
  · rw [le_div_iff₀ (by norm_num)]; norm_num; linarith [hq.1, h1.1, h3.1, h4.1, ht.1]
  · rw [div_le_iff₀ (by norm_num)]; norm_num; linarith [hq.2, h1.2, h3.2, h4.2, ht.2]

theorem p41_near {T : ℝ} (h0 : 0 ≤ T) (h2' : T ≤ 2.02) (nu r : ℝ) (hr : 0.98 ≤ r) :
    |p41 (T * 36525) T nu r - (nu + p24 (T * 36525) T - p25 (T * 36525) T)| ≤ 0.017 := by
  have a1 := abs_le.1 (p33_bound T)
  have a2 := abs_le.1 (p34_bound h0 (by norm_num at h2'; linarith) (T * 36525))
  have a3 := abs_le.1 (p36_bound h0 h2')
  have a4 : -0.0059 ≤ -20.47 / r / 3600 ∧ -20.47 / r / 3600 ≤ 0 := by
    have hr0 : 0 < r := by norm_num at hr; linarith
    constructor
    · rw [le_div_iff₀ (by norm_num), le_div_iff₀ hr0]; norm_num at hr ⊢; linarith
    · rw [div_le_iff₀ (by norm_num), div_le_iff₀ hr0]; norm_num
  unfold p41
  norm_num at a1 a2 a3 a4
  rw [abs_le]
  norm_num
  constructor <;> linarith [a1.1, a1.2, a2.1, a2.2, a3.1, a3.2, a4.1, a4.2]

/-- C94: for every date of the years 1900 to 2100 the result of the ephemeris is the direction of the sun. `T` counts
Julian centuries from 31 December 1899 at noon. The mean anomaly `M` gives the eccentric anomaly `E` by Kepler's
equation and from it the distance and the true anomaly `nu`; the longitude `L` follows within 0.017 degrees (the
perturbations); with the obliquity `o` (nutation within 0.0028 degrees) it gives the declination and the right
ascension `al`. The longitude `w` at which the sun is overhead moves westwards with the time of the day, corrected by
the difference of the ascensions of the mean and the true sun. -/
theorem C94_sun_vector_partial (t : DT) (hv : t.Valid) (hy1 : 1900 ≤ t.year) (hy : t.year ≤ 2100) (fuel : Nat) (d w r : ℝ)
    (h : ephemeris fuel t = .ok (d, w, r)) :
    ∃ T M E x nu L o al A : ℝ,
      T = (((ordinal t.year t.month t.day - ordinal 1899 12 31 : Int) : ℝ) - 1 / 2 + t.sec / 86400) / 36525 ∧
      SameDeg M (meanAnomaly T) ∧
      Solves (M * (Real.pi / 180)) (eccentricity T) x ∧ |E - x| ≤ 2e-8 ∧
      r = 1 - eccentricity T * Real.cos E ∧
      (Real.cos (E / 2) ≠ 0 → r * Real.cos (nu * (Real.pi / 180)) = Real.cos E - eccentricity T ∧
        r * Real.sin (nu * (Real.pi / 180)) = Real.sqrt (1 - eccentricity T ^ 2) * Real.sin E) ∧
      (∃ k : Int, |L - (nu + meanLongitude T - meanAnomaly T) - 360 * k| ≤ 0.017) ∧
      |o - obliquity T| ≤ 0.0028 ∧
      (Real.cos (L * (Real.pi / 180)) ≠ 0 →
        (Real.sin (L * (Real.pi / 180)) ≠ 0 ∨ 0 < Real.cos (L * (Real.pi / 180))) →
        direction d (al * (Real.pi / 180)) =
          (Real.cos (L * (Real.pi / 180)), Real.sin (L * (Real.pi / 180)) * Real.cos (o * (Real.pi / 180)),
            Real.sin (L * (Real.pi / 180)) * Real.sin (o * (Real.pi / 180)))) ∧
      SameDeg A (meanAscension T) ∧
      SameDeg (w / (Real.pi / 180)) (-15 * ((t.sec : ℝ) / 3600 - 12) - (A - al)) := by
  have hd := degrd_pos
  obtain ⟨n, hn⟩ : ∃ n, dayTerm t.year t.month t.day = some n := ⟨_, C93_partial _ _ _ hv.2.1 hy1 hy⟩
  have hno : n = ordinal t.year t.month t.day - ordinal 1899 12 31 := by
    rw [C93_partial _ _ _ hv.2.1 hy1 hy] at hn
    exact (Option.some.inj hn).symm
  obtain ⟨b1, b2, b3⟩ := dayTerm_bounds hn hv.1 (by omega)
  obtain ⟨c1, c2, c3⟩ := centuries_bounds b1 b2 hv.2.2
  have c3 := c3 (b3 hy1)
  have hn2 : n ≤ 73415 := by
    unfold dayTerm at hn
    cases hyd : Calendar.yearday t.year t.month t.day with
    | none => rw [hyd] at hn; cases hn
    | some k =>
      rw [hyd] at hn
      have hk := Calendar.C18_range _ _ _ k hyd
      have hn : Int.tdiv (((t.year : Int) - 1900) * 36525 - 25) 100 + (k : Int) = n := Option.some.inj hn
      by_cases h0 : 1901 ≤ t.year
      · rw [Int.tdiv_eq_ediv_of_nonneg (by omega)] at hn
        omega
      · have : t.year = 1900 := by omega
        rw [this, show Int.tdiv ((((1900 : Nat) : Int) - 1900) * 36525 - 25) 100 = 0 by decide] at hn
        omega
  have c4 : centuries n t.sec ≤ 2.02 := by
    have a2 : (n : ℝ) ≤ 73415 := by exact_mod_cast hn2
    have a3 : (t.sec : ℝ) ≤ 86400 := by exact_mod_cast hv.2.2.le
    unfold centuries
    rw [div_le_iff₀ (by norm_num)]; norm_num; linarith
  unfold ephemeris at h
  rw [hn] at h
  simp only at h
  split at h
  case h_1 x hx =>
    change kepler (p25 (centuries n t.sec * 36525) (centuries n t.sec) * degrd) (p26 (centuries n t.sec)) fuel
      (p25 (centuries n t.sec * 36525) (centuries n t.sec) * degrd) = .ok x at hx
    change Out.ok (afterKepler ((t.sec : ℝ) / 10.0 / 24.0) (centuries n t.sec * 36525) (centuries n t.sec) x) =
      .ok (d, w, r) at h
    have hT : centuries n t.sec =
        (((ordinal t.year t.month t.day - ordinal 1899 12 31 : Int) : ℝ) - 1 / 2 + t.sec / 86400) / 36525 := by
      rw [← hno]; unfold centuries; norm_num; ring
    set T := centuries n t.sec
    obtain ⟨e1, e2⟩ := p26_bounds c1 c2
    have e1' : 0 ≤ p26 T := le_trans (by norm_num) e1
    have e2' : p26 T < 1 := lt_of_le_of_lt e2 (by norm_num)
    have h := Out.ok.inj h
    unfold afterKepler at h
    simp only [Prod.mk.injEq] at h
    obtain ⟨hd1, hw1, hr1⟩ := h
    have hxd : x / degrd * degrd = x := div_mul_cancel₀ _ hd.ne'
    obtain ⟨sol, hsol, _⟩ := C69_unique (p25 (T * 36525) T * degrd) (p26 T) e1' e2'
    have hacc := C69_accuracy _ _ sol x _ fuel e1' e2' hsol hx
    obtain ⟨pp, ex, _, _⟩ := kepler_last _ _ _ _ _ hx
    have hM := fmod_lt (a := 358.47583 + fmod (0.985600267 * (T * 36525)) 360 + T * T * (-1.5e-4 + -3.e-6 * T))
      (b := 360) (by norm_num)
    change |p25 (T * 36525) T| < 360 at hM
    have hpi4 := Real.pi_lt_four
    have hdd : degrd ≤ 0.023 := by rw [degrd_eq]; norm_num; linarith
    have hxb : |x| ≤ 9 := by
      rw [ex]
      have q1 : |p25 (T * 36525) T * degrd| ≤ 8.5 := by
        rw [abs_mul, abs_of_pos hd]
        calc _ ≤ 360 * 0.023 := mul_le_mul hM.le hdd hd.le (by norm_num)
          _ ≤ _ := by norm_num
      have q2 : |p26 T * Real.sin pp| ≤ 0.0176 := by
        rw [abs_mul, abs_of_nonneg e1']
        calc _ ≤ p26 T * 1 := mul_le_mul_of_nonneg_left (Real.abs_sin_le_one _) e1'
          _ ≤ _ := by linarith
      have := abs_add_le (p25 (T * 36525) T * degrd) (p26 T * Real.sin pp)
      norm_num at q1 q2 this ⊢
      linarith
    have hfin : p26 T / (1 - p26 T) * (tolerance * |x|) ≤ 2e-8 := by
      have q1 : p26 T / (1 - p26 T) ≤ 0.018 := by
        rw [div_le_iff₀ (by linarith)]
        norm_num at e2 ⊢
        linarith
      have q0 : 0 ≤ p26 T / (1 - p26 T) := div_nonneg e1' (by linarith)
      calc _ ≤ 0.018 * (tolerance * 9) := by
            apply mul_le_mul q1 _ (by have := tolerance_pos; positivity) (by norm_num)
            exact mul_le_mul_of_nonneg_left hxb tolerance_pos.le
        _ ≤ _ := by unfold tolerance; norm_num
    have hrad : 0.98 ≤ radius (p26 T) (x / degrd) := by
      have := abs_le.1 (radius_near (p26 T) (x / degrd) e1')
      norm_num at e2 this ⊢
      linarith [this.1]
    have h41 := p41_near c3 c4 (p27 (p26 T) (x / degrd)) (radius (p26 T) (x / degrd)) hrad
    set nu := p27 (p26 T) (x / degrd) with hnu
    set L := p41 (T * 36525) T nu (radius (p26 T) (x / degrd)) with hL
    set o := p43 T + p35 (T * 36525) T with ho
    have h43 := p43_bound c3 c2
    have h35 := p35_bound (T * 36525) T
    have h35' := abs_le.1 h35
    have hco : 0 < Real.cos (o * degrd) := by
      apply Real.cos_pos_of_mem_Ioo
      norm_num at h43 h35'
      have hpi := Real.pi_pos
      have o1 : 0 < o := by rw [ho]; linarith [h43.1, h35'.1]
      have o2 : o < 90 := by rw [ho]; linarith [h43.2, h35'.2]
      rw [degrd_eq]
      constructor <;> nlinarith
    obtain ⟨k1, hk1⟩ := p24_same T
    obtain ⟨k2, hk2⟩ := p25_same T
    refine ⟨T, p25 (T * 36525) T, x, sol, nu, L, o, p44 L o, p45 (T * 36525) T, hT, p25_same T, ?_, ?_, ?_, ?_, ?_, ?_, ?_,
      p45_same T, ?_⟩
    · rw [← degrd_eq, ← p26_same]; exact hsol
    · exact le_trans hacc hfin
    · rw [← hr1, ← p26_same]; unfold radius; rw [hxd]; norm_num
    · intro hc
      have := C91_position (p26 T) (x / degrd) e1' e2' (by rw [hxd]; exact hc)
      rw [hxd] at this
      rw [← degrd_eq, ← p26_same, ← hr1]
      exact ⟨this.1, this.2.1⟩
    · refine ⟨k1 - k2, ?_⟩
      rw [hk1, hk2] at h41
      convert h41 using 2
      push_cast; ring
    · rw [← p43_same, ho, add_sub_cancel_left]; exact h35
    · intro q1 q2
      rw [← degrd_eq] at q1 q2 ⊢
      rw [← hd1]
      exact (C92_equatorial L o q1 q2 hco).1
    · obtain ⟨k, hk⟩ := C90_hour_angle ((t.sec : ℝ) / 10.0 / 24.0) (p45 (T * 36525) T) (p44 L o)
      refine ⟨-k, ?_⟩
      rw [← degrd_eq, ← hw1, mul_div_cancel_right₀ _ hd.ne', hk]
      push_cast
      norm_num
      ring
  all_goals cases h

/-- A date to which C94 applies. -/
example : (⟨1998, 2, 15, 43200⟩ : DT).Valid ∧ ∃ fuel d w r, ephemeris fuel ⟨1998, 2, 15, 43200⟩ = .ok (d, w, r) := by
  have hv : (⟨1998, 2, 15, 43200⟩ : DT).Valid :=
    ⟨by decide, (Calendar.C18_domain 1998 2 15).1 ⟨46, by decide⟩, by decide⟩
  obtain ⟨turns, r, h⟩ := C69_every_date _ hv (by decide)
  exact ⟨hv, turns, r.1, r.2.1, r.2.2, h turns le_rfl⟩

/-- C94: `sunang` gives the cosine of the angle between that direction and the zenith of the place and the azimuth
from south towards east, in degrees. -/
theorem C94_place (fuel : Nat) (t : DT) (lat long mu az r : ℝ) (hlat : |lat| ≤ 90)
    (h : sunang fuel t lat long = .ok (mu, az, r)) :
    ∃ d w, ephemeris fuel t = .ok (d, w, r) ∧
      mu = dot (direction d w) (direction (lat * (Real.pi / 180)) (long * (Real.pi / 180))) ∧
      dot (direction d w) (south (lat * (Real.pi / 180)) (long * (Real.pi / 180))) =
        Real.sqrt (1 - mu ^ 2) * Real.cos (az * (Real.pi / 180)) ∧
      dot (direction d w) (east (long * (Real.pi / 180))) = Real.sqrt (1 - mu ^ 2) * Real.sin (az * (Real.pi / 180)) := by
  have hpi := Real.pi_pos
  unfold sunang at h
  cases he : ephemeris fuel t with
  | ok p =>
    rw [he] at h
    obtain ⟨d, w, r'⟩ := p
    simp only at h
    cases hs : sunpath (lat * Real.pi / 180) (long * Real.pi / 180) d w with
    | ok q =>
      rw [hs] at h
      obtain ⟨m, a⟩ := q
      simp only [Out.ok.injEq, Prod.mk.injEq] at h
      obtain ⟨h1, h2, h3⟩ := h
      rw [abs_le] at hlat
      have := C67_position _ _ _ _ _ _ (by constructor <;> nlinarith [hlat.1, hlat.2]) hs
      subst h1 h3
      have ea : az * (Real.pi / 180) = a := by rw [← h2]; field_simp
      rw [mul_div_assoc, mul_div_assoc] at this
      rw [ea]
      exact ⟨d, w, rfl, this.1, this.2.2.1, this.2.2.2.1⟩
    | divZero => rw [hs] at h; cases h
    | assertion => rw [hs] at h; cases h
    | invalid => rw [hs] at h; cases h
    | noFuel => rw [hs] at h; cases h
  | divZero => rw [he] at h; cases h
  | assertion => rw [he] at h; cases h
  | invalid => rw [he] at h; cases h
  | noFuel => rw [he] at h; cases h

end Verif.Sun
