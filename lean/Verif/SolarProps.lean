import Verif.Solar
import Verif.TwostreamProps
import Verif.AlbedoProps

/-! C45 (net radiation), C46 (no sun), C47 (clouds), C48 (canopy). -/

namespace Verif.Solar
open Verif.Twostream

/-! ### C47 -/

/-- Corrected total is at most the clear-sky total, and not negative. -/
theorem C47_total (beam diffuse cf : ℝ) (hb : 0 ≤ beam) (h0 : 0 ≤ cf) (h1 : cf ≤ 1) :
    0 ≤ (cfCloud beam diffuse cf).1 ∧ (cfCloud beam diffuse cf).1 ≤ beam := by
  unfold cfCloud
  simp only
  constructor <;> nlinarith

/-- Heavier cloud never increases the total. -/
theorem C47_monotone (beam diffuse diffuse' cf cf' : ℝ) (hb : 0 ≤ beam) (h : cf ≤ cf') :
    (cfCloud beam diffuse cf).1 ≤ (cfCloud beam diffuse' cf').1 := by
  unfold cfCloud
  simp only
  nlinarith

/-- Corrected diffuse radiation is not negative; up to the clear-sky cutoff it is at most the corrected
total, above it it is the attenuated clear-sky diffuse radiation. -/
theorem C47_diffuse (beam diffuse cf : ℝ) (hb : 0 ≤ beam) (hd : 0 ≤ diffuse) (h0 : 0 ≤ cf) (h1 : cf ≤ 1) :
    0 ≤ (cfCloud beam diffuse cf).2 ∧
    (cf ≤ 99 / 100 → (cfCloud beam diffuse cf).2 ≤ (cfCloud beam diffuse cf).1) ∧
    (99 / 100 < cf → (cfCloud beam diffuse cf).2 ≤ diffuse) ∧
    (diffuse ≤ beam → (cfCloud beam diffuse cf).2 ≤ (cfCloud beam diffuse cf).1) ∧
    (cf ≤ 15 / 100 → (cfCloud beam diffuse cf).2 = (cfCloud beam diffuse cf).1) := by
  have hg : 0 ≤ beam * cf := mul_nonneg hb h0
  unfold cfCloud
  simp only
  by_cases h2 : 99 / 100 < cf
  · simp only [if_pos h2]
    refine ⟨mul_nonneg hd h0, fun h => absurd h (not_le.2 h2), fun _ => by nlinarith, fun h => ?_,
      fun h => absurd h (not_le.2 (by linarith))⟩
    nlinarith
  · simp only [if_neg h2]
    rw [not_lt] at h2
    by_cases h3 : cf ≤ 15 / 100
    · simp only [if_pos h3]
      exact ⟨hg, fun _ => le_refl _, fun h => absurd h (not_lt.2 h2), fun _ => le_refl _, fun _ => trivial⟩
    · simp only [if_neg h3]
      rw [not_le] at h3
      have hq : 138 / 100 * (cf - 15 / 100) ^ 2 ≤ 1 := by nlinarith
      have hq0 : 0 ≤ 138 / 100 * (cf - 15 / 100) ^ 2 := by positivity
      generalize 138 / 100 * (cf - 15 / 100) ^ 2 = q at *
      refine ⟨by nlinarith, fun _ => by nlinarith, fun h => absurd h (not_lt.2 h2), fun _ => by nlinarith,
        fun h => absurd h (not_le.2 h3)⟩

example : cfCloud 500 100 (1 / 2) = (250, 250 - 250 * (138 / 100 * (35 / 100) ^ 2)) := by
  unfold cfCloud; norm_num

/-! ### C48 -/

/-- Attenuated beam radiation is not negative and at most the input, whatever the sun angle. -/
theorem C48_beam_contraction (data height cosz k : ℝ) (hd : 0 ≤ data) (hh : 0 ≤ height) (hk : 0 ≤ k) :
    0 ≤ (vegBeam data height cosz k).1 ∧ (vegBeam data height cosz k).1 ≤ data := by
  unfold vegBeam
  simp only
  have hc : 0 < (if cosz ≤ 0 then (1 / 100 : ℝ) else cosz) := by
    split
    · norm_num
    · rename_i h; exact not_le.1 h
  generalize (if cosz ≤ 0 then (1 / 100 : ℝ) else cosz) = c at *
  have : Real.exp (-k * height / c) ≤ 1 := by
    apply Real.exp_le_one_iff.2
    rw [neg_mul, neg_div, neg_nonpos]
    positivity
  have h0 := Real.exp_pos (-k * height / c)
  exact ⟨mul_nonneg hd h0.le, by nlinarith⟩

/-- It decreases with canopy height and with extinction. -/
theorem C48_beam_decreasing (data height height' cosz k k' : ℝ) (hd : 0 ≤ data) (hh : 0 ≤ height)
    (hk : 0 ≤ k) (hhh : height ≤ height') (hkk : k ≤ k') :
    (vegBeam data height' cosz k').1 ≤ (vegBeam data height cosz k).1 ∧
    (0 < data → k * height < k' * height' →
      (vegBeam data height' cosz k').1 < (vegBeam data height cosz k).1) := by
  unfold vegBeam
  simp only
  have hc : 0 < (if cosz ≤ 0 then (1 / 100 : ℝ) else cosz) := by
    split
    · norm_num
    · rename_i h; exact not_le.1 h
  generalize (if cosz ≤ 0 then (1 / 100 : ℝ) else cosz) = c at *
  have hle : k * height ≤ k' * height' := mul_le_mul hkk hhh hh (le_trans hk hkk)
  constructor
  · apply mul_le_mul_of_nonneg_left _ hd
    apply Real.exp_le_exp.2
    apply div_le_div_of_nonneg_right _ hc.le
    linarith
  · intro hd' hlt
    apply mul_lt_mul_of_pos_left _ hd'
    apply Real.exp_lt_exp.2
    apply div_lt_div_of_pos_right _ hc
    linarith

/-- Without canopy or extinction the beam is unchanged; the diffuse correction is a contraction,
unchanged for unit transmissivity, monotone in it. -/
theorem C48_unchanged (data height cosz k : ℝ) (h : height = 0 ∨ k = 0) :
    (vegBeam data height cosz k).1 = data := by
  unfold vegBeam
  simp only
  rcases h with h | h <;> simp [h]

theorem C48_diffuse (data tau tau' : ℝ) (hd : 0 ≤ data) (h0 : 0 ≤ tau) (h1 : tau ≤ tau') (h2 : tau' ≤ 1) :
    0 ≤ vegDiffuse data tau ∧ vegDiffuse data tau ≤ vegDiffuse data tau' ∧ vegDiffuse data tau' ≤ data ∧
    vegDiffuse data 1 = data := by
  unfold vegDiffuse
  refine ⟨mul_nonneg h0 hd, by nlinarith, by nlinarith, one_mul _⟩

/-- The correction of all four components, whatever the illumination angle: the second call reads the
angles the first has overwritten, with no effect on the result. -/
theorem C48_veg_correct (r : Rad) (illum height tau k : ℝ) (hb : ∀ b c, 0 ≤ r.get b c) (hh : 0 ≤ height)
    (hk : 0 ≤ k) (h0 : 0 ≤ tau) (h1 : tau ≤ 1) (b : Band) (c : Comp) :
    0 ≤ (vegCorrect r illum height tau k).get b c ∧ (vegCorrect r illum height tau k).get b c ≤ r.get b c ∧
    (vegCorrect r illum height tau k).irBeam = (vegBeam r.irBeam height illum k).1 := by
  have hd := fun x (hx : 0 ≤ x) => C48_diffuse x tau 1 hx h0 h1 (le_refl _)
  have e : (vegBeam r.irBeam height (vegBeam r.visBeam height illum k).2 k).1 = (vegBeam r.irBeam height illum k).1 := by
    unfold vegBeam
    simp only
    by_cases hc : illum ≤ 0
    · simp only [if_pos hc]; norm_num
    · simp only [if_neg hc]
  unfold vegCorrect
  simp only
  refine ⟨?_, ?_, e⟩
  · cases b <;> cases c <;> simp only [Rad.get]
    · exact (C48_beam_contraction _ _ _ _ (hb .vis .beam) hh hk).1
    · exact (hd _ (hb .vis .diffuse)).1
    · exact (C48_beam_contraction _ _ _ _ (hb .ir .beam) hh hk).1
    · exact (hd _ (hb .ir .diffuse)).1
  · cases b <;> cases c <;> simp only [Rad.get]
    · exact (C48_beam_contraction _ _ _ _ (hb .vis .beam) hh hk).2
    · exact le_trans (hd _ (hb .vis .diffuse)).2.1 (hd _ (hb .vis .diffuse)).2.2.1
    · exact (C48_beam_contraction _ _ _ _ (hb .ir .beam) hh hk).2
    · exact le_trans (hd _ (hb .ir .diffuse)).2.1 (hd _ (hb .ir .diffuse)).2.2.1

example : (vegBeam 100 10 (-1) (1 / 1000)).1 = 100 * Real.exp (-1) := by
  unfold vegBeam; norm_num

/-! ### C46 -/

/-- With the sun at or below the horizon a step succeeds, every solar attribute is `None` and written
as zeros, and both albedos are zero: whatever the shading routine, the settings (valid or not), the
irradiance and the state before. -/
theorem C46_night {ι : Type} [Fintype ι] (S : Setup ι) (st : Var → Attr ι) (x : Step ι) (h : x.cosz ≤ 0) :
    timestep S st x = .ok (fun _ => Attr.none, fun _ => 0, fun _ => 0) ∧
    ∀ st' a b, timestep S st x = .ok (st', a, b) → ∀ v, written (st' v) = .ok fun _ => 0 := by
  have e : timestep S st x = .ok (fun _ => Attr.none, fun _ => 0, fun _ => 0) := by
    unfold timestep illumination distribute Albedo.distribute
    simp only [if_neg (not_lt.2 h)]
    rfl
  refine ⟨e, fun st' a b h' v => ?_⟩
  rw [e] at h'
  simp only [Except.ok.injEq, Prod.mk.injEq] at h'
  rw [← h'.1]
  rfl

/-- In every run, after every night step every solar output is zero. -/
theorem C46_night_run {ι : Type} [Fintype ι] (S : Setup ι) (st st' : Var → Attr ι) (pre : List (Step ι)) (x : Step ι)
    (h : x.cosz ≤ 0) (hr : run S st (pre ++ [x]) = .ok st') (v : Var) : written (st' v) = .ok fun _ => 0 := by
  induction pre generalizing st with
  | nil =>
    rw [List.nil_append, run, (C46_night S st x h).1] at hr
    simp only [run, Except.ok.injEq] at hr
    rw [← hr]
    rfl
  | cons y ys ih =>
    rw [List.cons_append, run] at hr
    split at hr
    · cases hr
    · exact ih _ hr

/-- C46 as stated, for the day: every solar output is computed in the step itself, that is, it does not
depend on what the attributes were before. -/
def C46_full : Prop :=
  ∀ (S : Setup Unit) (st st2 st' : Var → Attr Unit) (x : Step Unit) (a b : Unit → ℝ), 0 < x.cosz →
    timestep S st x = .ok (st', a, b) → ∃ st2', timestep S st2 x = .ok (st2', a, b) ∧ ∀ v, st2' v = st' v

/-- The variables that a step with the sun up computes. -/
def Computed (cfg : Cfg) : Var → Prop
  | .clear _ _ => True
  | .cloud _ _ => cfg.correctCloud = true
  | .veg _ _ => cfg.correctVeg = true
  | .net => True

/-- With the sun up the variables whose correction is switched on are arrays that depend on the inputs
of the step alone. Missing: cloud and canopy variables whose correction is off
(`C46_correction_off_fails`). -/
theorem C46_day_partial {ι : Type} [Fintype ι] (S : Setup ι) (st st2 st' : Var → Attr ι) (x : Step ι) (a b : ι → ℝ)
    (hc : 0 < x.cosz) (h : timestep S st x = .ok (st', a, b)) :
    ∃ st2', timestep S st2 x = .ok (st2', a, b) ∧
      ∀ v, Computed S.solar v → st2' v = st' v ∧ ∃ img, st' v = .array img ∧ written (st' v) = .ok img := by
  unfold timestep at h ⊢
  simp only at h ⊢
  split at h
  · cases h
  · rename_i v ir hal
    unfold distribute illumination at h ⊢
    simp only [if_pos hc] at h ⊢
    split at h
    · cases h
    · rename_i s' hs
      split at hs
      · cases hs
      · rename_i img1 e1
        split at hs
        · cases hs
        · rename_i img2 e2
          simp only [Except.ok.injEq, Prod.mk.injEq] at hs h
          obtain ⟨rfl, rfl, rfl⟩ := h
          subst hs
          refine ⟨_, rfl, fun w hw => ?_⟩
          cases w with
          | clear b c => exact ⟨rfl, _, rfl, rfl⟩
          | net => exact ⟨rfl, _, rfl, rfl⟩
          | cloud b c =>
            have hw' : S.solar.correctCloud = true := hw
            simp only [day, hw', if_true]
            exact ⟨trivial, _, rfl, rfl⟩
          | veg b c =>
            have hw' : S.solar.correctVeg = true := hw
            simp only [day, hw', if_true]
            exact ⟨trivial, _, rfl, rfl⟩

/-- With the cloud correction off, the cloud variables keep what they were: an output request fails if
there has been no night yet, and reports zeros in daylight ever after a night. The same holds for the
canopy. -/
theorem C46_correction_off_fails {ι : Type} [Fintype ι] (S : Setup ι) (st st' : Var → Attr ι) (x : Step ι)
    (a c : ι → ℝ) (hc : 0 < x.cosz) (hoff : S.solar.correctCloud = false)
    (h : timestep S st x = .ok (st', a, c)) (b : Band) (k : Comp) :
    st' (.cloud b k) = st (.cloud b k) ∧
    (st = initial ι → written (st' (.cloud b k)) = .error .attribute) ∧
    (∀ y : Step ι, y.cosz ≤ 0 → ∀ p q st0, timestep S st0 y = .ok (st, p, q) →
      written (st' (.cloud b k)) = .ok fun _ => 0) := by
  have e : st' (.cloud b k) = st (.cloud b k) := by
    unfold timestep at h
    simp only at h
    split at h
    · cases h
    · rename_i v ir hal
      unfold distribute illumination at h
      simp only [if_pos hc] at h
      split at h
      · cases h
      · rename_i s' hs
        split at hs
        · cases hs
        · split at hs
          · cases hs
          · simp only [Except.ok.injEq, Prod.mk.injEq] at hs h
            obtain ⟨rfl, rfl, rfl⟩ := h
            subst hs
            simp only [day, hoff]
            rfl
  refine ⟨e, fun hi => ?_, fun y hy p q st0 h0 => ?_⟩
  · rw [e, hi]; rfl
  · rw [e]
    exact (C46_night S st0 y hy).2 _ _ _ h0 _

/-! ### C45 -/

theorem twostreamAll_ok {ι : Type} {cosz s0 : ℝ} {tau : ι → ℝ} {omega g r0 : ℝ}
    (h : ∀ i, ∃ o, twostream cosz s0 (tau i) omega g r0 = .ok o) :
    ∃ f, twostreamAll cosz s0 tau omega g r0 = .ok f ∧ ∀ i, twostream cosz s0 (tau i) omega g r0 = .ok (f i) := by
  unfold twostreamAll
  rw [dif_neg (by
    rintro ⟨i, e, he⟩
    obtain ⟨o, ho⟩ := h i
    rw [ho] at he
    cases he)]
  refine ⟨_, rfl, fun i => ?_⟩
  obtain ⟨o, ho⟩ := h i
  simp only [ho]

theorem hysat_pos (z : ℝ) (h : z < 44000) :
    0 < hysat seaLevel stdAirtmp stdLapse (z / 1000) gravity molAir := by
  unfold hysat stdLapse
  rw [if_neg (by norm_num)]
  unfold seaLevel stdAirtmp
  apply mul_pos (by norm_num)
  apply Real.rpow_pos_of_pos
  apply div_pos (by norm_num)
  linarith

theorem tauAt_pos (tau z0 z : ℝ) (ht : 0 < tau) (h0 : z0 < 44000) (h : z < 44000) : 0 < tauAt tau z0 z := by
  unfold tauAt
  exact div_pos (mul_pos ht (hysat_pos z h)) (hysat_pos z0 h0)

/-- Parameters of the clear-sky model for which `C77_physical_partial` applies. -/
structure Valid (p : Clear) (cosz : ℝ) : Prop where
  tau : 0 < p.tau
  elev : p.tauElevation < 44000
  omega : 0 ≤ p.omega
  omega1 : p.omega < 1
  gamma : 0 ≤ p.gamma
  gamma1 : p.gamma < 1
  strong : 1 < p.omega * (4 - 3 * p.gamma)
  sun : ∃ b0, beta0 cosz p.gamma = .ok b0 ∧ ¬ Resonant cosz p.omega (hybrid b0 cosz p.omega p.gamma)

/-- `stoporad` succeeds, and its two images are the direct radiation on the slope plus the diffuse
radiation, and the diffuse radiation; both are not negative. -/
theorem stoporad_valid {ι : Type} [Fintype ι] (p : Clear) (topo : Topo ι) (s0 cosz : ℝ) (hidden : ι → Prop)
    (illum alb : ι → ℝ) (lo hi : ℝ) (b : Band) (hb : checkWavelengths lo hi = .ok b) (hc : 0 < cosz) (hs : 0 < s0)
    (hp : Valid p cosz) (hdem : ∀ i, topo.dem i < 44000) (ha : ∀ i, 0 ≤ alb i ∧ alb i ≤ 1) :
    ∃ img : ι → ℝ × ℝ, stoporad p topo s0 cosz hidden illum alb lo hi = .ok img ∧
      ∀ i, ∃ beam diffuse : ℝ, 0 ≤ beam ∧ 0 ≤ diffuse ∧
        (∃ o, twostream cosz s0 (tauAt p.tau p.tauElevation (topo.dem i)) p.omega p.gamma
            ((∑ i, alb i) / Fintype.card ι) = .ok o ∧ beam = s0 * o.btrans ∧ diffuse = s0 * cosz * (o.trans - o.btrans)) ∧
        ((hidden i ∧ img i = toporad beam diffuse 0 (topo.svf i) (topo.tcf i) cosz (alb i)) ∨
         (¬ hidden i ∧ img i = toporad beam diffuse (illum i) (topo.svf i) (topo.tcf i) cosz (alb i))) := by
  obtain ⟨b0, hb0, hres⟩ := hp.sun
  have hr : (∑ i, alb i) / Fintype.card ι ≤ 1 := by
    rcases Nat.eq_zero_or_pos (Fintype.card ι) with h0 | h0
    · rw [h0]; simp
    · rw [div_le_one (by exact_mod_cast h0)]
      calc ∑ i, alb i ≤ ∑ _i : ι, (1 : ℝ) := Finset.sum_le_sum fun i _ => (ha i).2
        _ = Fintype.card ι := by simp
  have key := fun i => C77_physical_partial cosz s0 (tauAt p.tau p.tauElevation (topo.dem i)) p.omega p.gamma _ b0 hs
    (tauAt_pos _ _ _ hp.tau hp.elev (hdem i)) hp.omega hp.omega1 hp.gamma hp.gamma1 hr hp.strong hb0 hres
  obtain ⟨f, hf, hfi⟩ := twostreamAll_ok fun i => (key i).imp fun o h => h.1
  refine ⟨_, by
    unfold stoporad
    simp only [hb, if_neg (not_lt.2 hc.le), hf]
    rfl, fun i => ?_⟩
  obtain ⟨o, ho, h1, h2, h3, h4, h5⟩ := key i
  rw [hfi i] at ho
  simp only [Except.ok.injEq] at ho
  rw [← ho] at h1 h2
  refine ⟨s0 * (f i).btrans, s0 * cosz * ((f i).trans - (f i).btrans), mul_nonneg hs.le h2,
    mul_nonneg (mul_nonneg hs.le hc.le) (sub_nonneg.2 h1),
    ⟨f i, hfi i, rfl, rfl⟩, ?_⟩
  by_cases hh : hidden i
  · left; refine ⟨hh, ?_⟩; simp only [if_pos hh]; rfl
  · right; refine ⟨hh, ?_⟩; simp only [if_neg hh]; rfl

/-- Both clear-sky images of a band are not negative, and the one called `beam` is at least the diffuse
one. Missing: weak scattering and resonant sun angles, where the diffuse radiation can be negative
(`C77_diffuse_fails`) or the computation fails. -/
theorem C45_nonneg_partial {ι : Type} [Fintype ι] (p : Clear) (topo : Topo ι) (s0 cosz : ℝ) (hidden : ι → Prop)
    (illum alb : ι → ℝ) (lo hi : ℝ) (b : Band) (hb : checkWavelengths lo hi = .ok b) (hc : 0 < cosz) (hs : 0 < s0)
    (hp : Valid p cosz) (hdem : ∀ i, topo.dem i < 44000) (ha : ∀ i, 0 ≤ alb i ∧ alb i ≤ 1)
    (hill : ∀ i, 0 ≤ illum i) (hsvf : ∀ i, 0 ≤ topo.svf i ∧ topo.svf i ≤ 1) (htcf : ∀ i, 0 ≤ topo.tcf i) :
    ∃ img, stoporad p topo s0 cosz hidden illum alb lo hi = .ok img ∧ ∀ i, 0 ≤ (img i).2 ∧ (img i).2 ≤ (img i).1 := by
  obtain ⟨img, h1, h2⟩ := stoporad_valid p topo s0 cosz hidden illum alb lo hi b hb hc hs hp hdem ha
  refine ⟨img, h1, fun i => ?_⟩
  obtain ⟨beam, diffuse, hb0, hd0, -, hi⟩ := h2 i
  have hdrad : ∀ x, 0 ≤ (toporad beam diffuse x (topo.svf i) (topo.tcf i) cosz (alb i)).2 := by
    intro x
    unfold toporad
    simp only
    have e1 := (hsvf i).1
    have e2 := sub_nonneg.2 (hsvf i).2
    have e3 := htcf i
    have e4 := (ha i).1
    positivity
  rcases hi with ⟨-, e⟩ | ⟨-, e⟩
  · rw [e]
    refine ⟨hdrad _, ?_⟩
    unfold toporad
    simp
  · rw [e]
    refine ⟨hdrad _, ?_⟩
    unfold toporad
    simp only
    have := mul_nonneg hb0 (hill i)
    linarith

/-- C45 as stated, for one cell without limits and corrections: net radiation is absorbed direct plus
absorbed diffuse radiation of both bands. `beam * illum` is the direct radiation on the slope. -/
def C45_full : Prop :=
  ∀ beamV diffV beamI diffI illum svf tcf cosz aV aI : ℝ,
    0 ≤ beamV → 0 ≤ diffV → 0 ≤ beamI → 0 ≤ diffI → 0 ≤ illum → 0 ≤ svf → svf ≤ 1 → 0 ≤ tcf →
    0 < cosz → 0 ≤ aV → aV ≤ 1 → 0 ≤ aI → aI ≤ 1 →
    let v := toporad beamV diffV illum svf tcf cosz aV
    let i := toporad beamI diffI illum svf tcf cosz aI
    calcNet none none ⟨v.1, v.2, i.1, i.2⟩ aV aI =
      (beamV * illum + v.2) * (1 - aV) + (beamI * illum + i.2) * (1 - aI)

/-- What is computed instead: the diffuse radiation of both bands enters twice. -/
theorem C45_net_partial (beamV diffV beamI diffI illum svf tcf cosz aV aI : ℝ) :
    let v := toporad beamV diffV illum svf tcf cosz aV
    let i := toporad beamI diffI illum svf tcf cosz aI
    calcNet none none ⟨v.1, v.2, i.1, i.2⟩ aV aI =
      (beamV * illum + 2 * v.2) * (1 - aV) + (beamI * illum + 2 * i.2) * (1 - aI) := by
  unfold calcNet toporad clamp
  simp only [Option.elim]
  ring

theorem C45_fails : ¬ C45_full := by
  intro h
  have h1 := h 0 1 0 0 0 1 0 1 0 0 (by norm_num) (by norm_num) (by norm_num) (by norm_num) (by norm_num)
    (by norm_num) (by norm_num) (by norm_num) (by norm_num) (by norm_num) (by norm_num) (by norm_num)
    (by norm_num)
  simp only at h1
  rw [C45_net_partial] at h1
  unfold toporad at h1
  norm_num at h1

/-- The same for a whole step of the module with both corrections off and no limits: net radiation
exceeds what is absorbed by exactly the absorbed diffuse radiation of both bands. -/
theorem C45_step_fails {ι : Type} [Fintype ι] (cfg : Cfg) (topo : Topo ι) (veg : Veg ι) (s0 : Band → ℝ) (hidden : ι → Prop)
    (st st' : Var → Attr ι) (cf illum : ι → ℝ) (cosz : ℝ) (albV albIr : ι → ℝ) (hc : 0 < cosz)
    (hlo : cfg.lo = none) (hhi : cfg.hi = none) (hcc : cfg.correctCloud = false) (hcv : cfg.correctVeg = false)
    (hs : ∀ b, 0 < s0 b) (hp : Valid cfg.clear cosz) (hdem : ∀ i, topo.dem i < 44000)
    (haV : ∀ i, 0 ≤ albV i ∧ albV i ≤ 1) (haI : ∀ i, 0 ≤ albIr i ∧ albIr i ≤ 1)
    (h : distribute cfg topo veg s0 hidden st cf (some illum) cosz albV albIr = .ok st') :
    ∃ net bV dV bI dI : ι → ℝ,
      st' .net = .array net ∧ st' (.clear .vis .diffuse) = .array dV ∧ st' (.clear .ir .diffuse) = .array dI ∧
      st' (.clear .vis .beam) = .array (fun i => bV i + dV i) ∧ st' (.clear .ir .beam) = .array (fun i => bI i + dI i) ∧
      (∀ i, ∃ o : Out, twostream cosz (s0 .vis) (tauAt cfg.clear.tau cfg.clear.tauElevation (topo.dem i)) cfg.clear.omega
        cfg.clear.gamma ((∑ i, albV i) / Fintype.card ι) = .ok o ∧
        (¬ hidden i → bV i = o.normal * illum i) ∧ (hidden i → bV i = 0)) ∧
      ∀ i, net i = (bV i + dV i) * (1 - albV i) + (bI i + dI i) * (1 - albIr i)
        + (dV i * (1 - albV i) + dI i * (1 - albIr i)) := by
  have wV : checkWavelengths (28 / 100) (7 / 10) = .ok .vis := by unfold checkWavelengths; norm_num
  have wI : checkWavelengths (7 / 10) (28 / 10) = .ok .ir := by unfold checkWavelengths; norm_num
  obtain ⟨vis, e1, f1⟩ := stoporad_valid cfg.clear topo (s0 .vis) cosz hidden illum albV _ _ _ wV hc (hs _) hp hdem haV
  obtain ⟨ir, e2, f2⟩ := stoporad_valid cfg.clear topo (s0 .ir) cosz hidden illum albIr _ _ _ wI hc (hs _) hp hdem haI
  unfold distribute at h
  simp only [if_pos hc, e1, e2, Except.ok.injEq] at h
  subst h
  refine ⟨_, fun i => (vis i).1 - (vis i).2, fun i => (vis i).2, fun i => (ir i).1 - (ir i).2, fun i => (ir i).2,
    rfl, rfl, rfl, ?_, ?_, ?_, ?_⟩
  · simp [day, Rad.get]
  · simp [day, Rad.get]
  · intro i
    obtain ⟨beam, diffuse, -, -, ⟨o, ho, hb, -⟩, hi⟩ := f1 i
    refine ⟨o, ho, fun hh => ?_, fun hh => ?_⟩
    · rcases hi with ⟨h', -⟩ | ⟨-, e⟩
      · exact absurd h' hh
      · obtain ⟨-, c, x, -, -, -, eo⟩ := twostream_ok hc ho
        simp only [e]
        unfold toporad
        simp only [add_sub_cancel_left, hb, eo]
        ring
    · rcases hi with ⟨-, e⟩ | ⟨h', -⟩
      · simp only [e]
        unfold toporad
        simp
      · exact absurd hh h'
  · intro i
    simp only [hcc, hcv, hlo, hhi]
    unfold calcNet clamp
    simp only [Option.elim]
    simp
    ring

/-- With both corrections on, each published image is the correction of the one before it, and net
radiation is taken from the last. -/
theorem C45_stages {ι : Type} [Fintype ι] (cfg : Cfg) (topo : Topo ι) (veg : Veg ι) (s0 : Band → ℝ) (hidden : ι → Prop)
    (st st' : Var → Attr ι) (cf illum : ι → ℝ) (cosz : ℝ) (albV albIr : ι → ℝ) (hc : 0 < cosz)
    (hlo : cfg.lo = none) (hhi : cfg.hi = none) (hcc : cfg.correctCloud = true) (hcv : cfg.correctVeg = true)
    (h : distribute cfg topo veg s0 hidden st cf (some illum) cosz albV albIr = .ok st') :
    ∃ (clear cloud canopy : Band → Comp → ι → ℝ) (net : ι → ℝ),
      (∀ b c, st' (.clear b c) = .array (clear b c) ∧ st' (.cloud b c) = .array (cloud b c) ∧
        st' (.veg b c) = .array (canopy b c)) ∧ st' .net = .array net ∧
      ∀ i,
        (∀ b, (cloud b .beam i, cloud b .diffuse i) = cfCloud (clear b .beam i) (clear b .diffuse i) (cf i)) ∧
        (∀ b, 0 < illum i → canopy b .beam i = cloud b .beam i * Real.exp (-veg.k i * veg.height i / illum i)) ∧
        (∀ b, canopy b .diffuse i = veg.tau i * cloud b .diffuse i) ∧
        net i = (canopy .vis .beam i + canopy .vis .diffuse i) * (1 - albV i)
          + (canopy .ir .beam i + canopy .ir .diffuse i) * (1 - albIr i) := by
  unfold distribute at h
  simp only [if_pos hc] at h
  split at h
  · cases h
  · rename_i ir hir
    split at h
    · cases h
    · rename_i vis hvis
      simp only [Except.ok.injEq] at h
      subst h
      refine ⟨fun b c i => Rad.get ⟨(vis i).1, (vis i).2, (ir i).1, (ir i).2⟩ b c,
        fun b c i => (cloudCorrect ⟨(vis i).1, (vis i).2, (ir i).1, (ir i).2⟩ (cf i)).get b c,
        fun b c i => (vegCorrect (cloudCorrect ⟨(vis i).1, (vis i).2, (ir i).1, (ir i).2⟩ (cf i)) (illum i) (veg.height i)
          (veg.tau i) (veg.k i)).get b c, _, fun b c => ⟨rfl, ?_, ?_⟩, rfl, fun i => ⟨?_, ?_, ?_, ?_⟩⟩
      · simp [day, hcc]
      · simp [day, hcc, hcv]
      · intro b; cases b <;> rfl
      · intro b hi
        cases b <;> simp [vegCorrect, vegBeam, Rad.get, not_le.2 hi]
      · intro b; cases b <;> rfl
      · simp [hlo, hhi, hcc, hcv, calcNet, clamp, Rad.get]

/-- Reflection from the terrain seen instead of the sky cannot give more than what falls on the
terrain, and a perfectly reflecting surrounding replaces the hidden part of the sky exactly. -/
theorem C45_terrain (beam diffuse illum svf tcf cosz alb : ℝ) (hb : 0 ≤ beam) (hd : 0 ≤ diffuse) (hc : 0 ≤ cosz)
    (hs : 0 ≤ svf) (hs1 : svf ≤ 1) (ht : 0 ≤ tcf) (ha : 0 ≤ alb) (hta : tcf * alb ≤ 1) :
    diffuse * svf ≤ (toporad beam diffuse illum svf tcf cosz alb).2 ∧
    (toporad beam diffuse illum svf tcf cosz alb).2 ≤ diffuse + beam * cosz * tcf * alb ∧
    (tcf * alb = 1 → (toporad beam diffuse illum svf tcf cosz alb).2 = diffuse + beam * cosz) ∧
    (svf = 1 → tcf = 0 → toporad beam diffuse cosz svf tcf cosz alb = (diffuse + beam * cosz, diffuse)) := by
  unfold toporad
  simp only
  have h1 : 0 ≤ tcf * alb := mul_nonneg ht ha
  have h2 : 0 ≤ diffuse * (1 - svf) := mul_nonneg hd (by linarith)
  have h3 : 0 ≤ beam * cosz := mul_nonneg hb hc
  refine ⟨by nlinarith, by nlinarith, fun e => ?_, fun e1 e2 => ?_⟩
  · linear_combination (diffuse * (1 - svf) + beam * cosz) * e
  · subst e1 e2; ext <;> simp

example : (toporad 400 100 (3 / 10) (9 / 10) (1 / 10) (1 / 2) (8 / 10)).2 ≤ 100 + 400 * (1 / 2) * (1 / 10) * (8 / 10) :=
  (C45_terrain _ _ _ _ _ _ _ (by norm_num) (by norm_num) (by norm_num) (by norm_num) (by norm_num) (by norm_num)
    (by norm_num) (by norm_num)).2.1

/-- A setting with one cell. -/
noncomputable def sampleSetup : Setup Unit where
  solar := { clear := ⟨100, 1 / 5, 85 / 100, 0⟩, correctCloud := false, correctVeg := false, lo := none, hi := none }
  albedo := { grain := 300, maxGrain := 2000, dirt := 2, decay := .none, veg := [], litter := [], lo := some 0, hi := some 1 }
  topo := ⟨fun _ => 1000, fun _ => 9 / 10, fun _ => 1 / 10⟩
  veg := ⟨fun _ => 0, fun _ => 1, fun _ => 0⟩
  vegType := fun _ => 1
  shade := fun _ _ => 1 / 2

noncomputable def sampleStep : Step Unit where
  time := 0
  cosz := 1 / 2
  cloudFactor := fun _ => 1
  stormDay := fun _ => 3
  s0 := fun _ => 600
  hidden := fun _ => False

theorem sample_valid : Valid sampleSetup.solar.clear (1 / 2) := by
  refine ⟨by norm_num [sampleSetup], by norm_num [sampleSetup], by norm_num [sampleSetup],
    by norm_num [sampleSetup], by norm_num [sampleSetup], by norm_num [sampleSetup], by norm_num [sampleSetup], ?_⟩
  refine ⟨1 / 2, beta0_zero (by norm_num) (by norm_num), fun hr => ?_⟩
  have h2 := hr.1
  simp only [sampleSetup] at h2
  rw [hybrid_iso] at h2
  simp only at h2
  rw [root_iso] at h2
  have hs : Real.sqrt (3 * (1 - 85 / 100)) < 1 := by rw [Real.sqrt_lt' one_pos]; norm_num
  linarith

/-- The step succeeds, whatever the state before it. -/
theorem sample_ok (st : Var → Attr Unit) : ∃ st' a b, timestep sampleSetup st sampleStep = .ok (st', a, b) := by
  have hacc : Albedo.Accepted 300 2000 2 := by norm_num [Albedo.Accepted]
  have hal : ∃ v ir, Albedo.distribute sampleSetup.albedo sampleSetup.vegType 0 (some fun _ => 1 / 2) (fun _ => 3) = .ok (v, ir) := by
    unfold Albedo.distribute
    simp only [sampleSetup, Albedo.albedo_ok _ _ _ _ _ hacc]
    exact ⟨_, _, rfl⟩
  obtain ⟨v, ir, hal⟩ := hal
  have hlim := Albedo.C36_published_in_limits sampleSetup.albedo 0 1 rfl rfl (by norm_num) sampleSetup.vegType 0 _ _ v ir hal
  have hv : ∀ i, 0 ≤ cells v i ∧ cells v i ≤ 1 := by
    intro i
    obtain ⟨⟨x, e, h1, h2⟩, -⟩ := hlim i
    unfold cells
    rw [e]
    exact ⟨h1, h2⟩
  have hi : ∀ i, 0 ≤ cells ir i ∧ cells ir i ≤ 1 := by
    intro i
    obtain ⟨-, x, e, h1, h2⟩ := hlim i
    unfold cells
    rw [e]
    exact ⟨h1, h2⟩
  have wV : checkWavelengths (28 / 100) (7 / 10) = .ok .vis := by unfold checkWavelengths; norm_num
  have wI : checkWavelengths (7 / 10) (28 / 10) = .ok .ir := by unfold checkWavelengths; norm_num
  obtain ⟨vis, e1, -⟩ := stoporad_valid sampleSetup.solar.clear sampleSetup.topo 600 (1 / 2) (fun _ => False) (fun _ => 1 / 2) (cells v) _ _ _ wV
    (by norm_num) (by norm_num) sample_valid (fun _ => by norm_num [sampleSetup]) hv
  obtain ⟨iri, e2, -⟩ := stoporad_valid sampleSetup.solar.clear sampleSetup.topo 600 (1 / 2) (fun _ => False) (fun _ => 1 / 2) (cells ir) _ _ _ wI
    (by norm_num) (by norm_num) sample_valid (fun _ => by norm_num [sampleSetup]) hi
  have hill : illumination sampleSetup.shade sampleStep.cosz = some fun _ => 1 / 2 := by
    unfold illumination
    rw [if_pos (by norm_num [sampleStep])]
    rfl
  have hd : ∃ st', distribute sampleSetup.solar sampleSetup.topo sampleSetup.veg sampleStep.s0 sampleStep.hidden st
      sampleStep.cloudFactor (some fun _ => 1 / 2) sampleStep.cosz (cells v) (cells ir) = .ok st' := by
    unfold distribute
    rw [show sampleStep.cosz = 1 / 2 from rfl, show sampleStep.s0 .ir = 600 from rfl, show sampleStep.s0 .vis = 600 from rfl,
      show sampleStep.hidden = fun _ => False from rfl]
    have h2 : (0 : ℝ) < 1 / 2 := by norm_num
    simp only [if_pos h2, e1, e2]
    exact ⟨_, rfl⟩
  obtain ⟨st', hd⟩ := hd
  refine ⟨st', cells v, cells ir, ?_⟩
  unfold timestep
  simp only [hill]
  rw [show sampleStep.time = 0 from rfl, show sampleStep.stormDay = fun _ => (3 : ℝ) from rfl, hal]
  simp only [hd]

theorem C46_fails : ¬ C46_full := by
  intro h
  obtain ⟨st', a, b, h1⟩ := sample_ok (initial Unit)
  have hc : 0 < sampleStep.cosz := by norm_num [sampleStep]
  obtain ⟨st2', h2, h3⟩ := h sampleSetup (initial Unit) (fun _ => .none) st' sampleStep a b hc h1
  have e1 := (C46_correction_off_fails sampleSetup _ st' sampleStep a b hc rfl h1 .vis .beam).1
  have e2 := (C46_correction_off_fails sampleSetup _ st2' sampleStep a b hc rfl h2 .vis .beam).1
  rw [h3, e1] at e2
  unfold initial at e2
  cases e2

example : ∃ st' a b, timestep sampleSetup (initial Unit) sampleStep = .ok (st', a, b) ∧
    written (st' (.cloud .vis .beam)) = .error .attribute := by
  obtain ⟨st', a, b, h1⟩ := sample_ok (initial Unit)
  exact ⟨st', a, b, h1, (C46_correction_off_fails sampleSetup _ st' sampleStep a b (by norm_num [sampleStep]) rfl h1 .vis
    .beam).2.1 rfl⟩

end Verif.Solar
