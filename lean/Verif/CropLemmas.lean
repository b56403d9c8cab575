import Verif.Crop
import Verif.RunLemmas

/-! Helper lemmas for C138: the modules, one by one, on a part of the domain. -/

namespace Verif.Crop
open Verif.Run

variable {ι κ D : Type}

theorem collect_crop (f : κ → ι) {g : ι → Option ℝ} {d : ι → ℝ} (h : collect g = some d) : collect (g ∘ f) = some (d ∘ f) :=
  collect_of _ fun k => collect_some h (f k)

theorem dewImage_crop (f : κ → ι) {n : Nat} {tol : ℝ} {vp ta d : ι → ℝ} (h : dewImage n tol vp ta = some d) :
    dewImage n tol (vp ∘ f) (ta ∘ f) = some (d ∘ f) := by
  unfold dewImage at h ⊢
  cases hc : collect fun i => dewCelsius n tol (vp i) with
  | none => rw [hc] at h; cases h
  | some e =>
    rw [hc] at h
    have h2 : collect (fun k => dewCelsius n tol ((vp ∘ f) k)) = some (e ∘ f) := collect_crop f hc
    rw [h2]
    have h3 : d = fun i => if ta i ≤ e i then ta i - 2 / 10 else e i := (Option.some.inj h).symm
    rw [h3]
    rfl

theorem vaporStep_crop [Fintype ι] [Fintype κ] (f : κ → ι) (c : Cfg ι D) (n : Nat) (img ta vp dew temp : ι → ℝ)
    (h : vaporStep c n img ta = .ok (vp, dew, temp)) :
    vaporStep (cfg f c) n (img ∘ f) (ta ∘ f) = .ok (vp ∘ f, dew ∘ f, temp ∘ f) := by
  unfold vaporStep at h ⊢
  simp only at h ⊢
  cases hd : dewImage n c.tol (c.vapor.cut img) ta with
  | none => rw [hd] at h; cases h
  | some d =>
    rw [hd] at h
    simp only at h
    have h2 : dewImage n (cfg f c).tol ((cfg f c).vapor.cut (img ∘ f)) (ta ∘ f) = some (d ∘ f) := dewImage_crop f hd
    rw [h2]
    simp only
    by_cases hw : c.wet = true
    · rw [if_pos hw] at h
      rw [if_pos (show (cfg f c).wet = true from hw)]
      cases hc : collect fun i => wetCelsius c.tol (ta i) (d i) (c.maps.dem i) with
      | none => rw [hc] at h; cases h
      | some w =>
        rw [hc] at h
        have h3 : collect (fun k => wetCelsius (cfg f c).tol ((ta ∘ f) k) ((d ∘ f) k) ((cfg f c).maps.dem k)) = some (w ∘ f) :=
          collect_crop f hc
        rw [h3]
        simp only [Except.ok.injEq, Prod.mk.injEq] at h ⊢
        obtain ⟨rfl, rfl, rfl⟩ := h
        exact ⟨rfl, rfl, rfl⟩
    · rw [if_neg hw] at h
      rw [if_neg (show ¬ (cfg f c).wet = true from hw)]
      simp only [Except.ok.injEq, Prod.mk.injEq] at h ⊢
      obtain ⟨rfl, rfl, rfl⟩ := h
      exact ⟨rfl, rfl, rfl⟩

theorem thermal_crop (f : κ → ι) (c : Thermal.Cfg) (g : Thermal.Maps ι) (ta vp dew cf : ι → ℝ) (o : Thermal.Out ι)
    (h : Thermal.distribute c g ⟨ta, vp, dew, cf⟩ = .ok o) :
    Thermal.distribute c (maps f g) ⟨ta ∘ f, vp ∘ f, dew ∘ f, cf ∘ f⟩ = .ok (thermal f o) := by
  unfold Thermal.distribute at h ⊢
  simp only at h ⊢
  cases hc : Thermal.clearSky c.sky g.dem (if c.terrain = true then some g.svf else none) ⟨ta, vp, dew, cf⟩ with
  | error e => rw [hc] at h; cases h
  | ok cth =>
    rw [hc] at h
    have h2 : Thermal.clearSky c.sky (maps f g).dem (if c.terrain = true then some (maps f g).svf else none)
        ⟨ta ∘ f, vp ∘ f, dew ∘ f, cf ∘ f⟩ = .ok (cth ∘ f) := by
      unfold Thermal.clearSky at hc ⊢
      cases hs : c.sky <;> rw [hs] at hc <;> simp only at hc ⊢
      · by_cases ht : c.terrain = true
        · simp only [if_pos ht] at hc ⊢
          split at hc
          · rename_i hall
            have hall' : ∀ k, (Thermal.topothermC ((ta ∘ f) k) ((dew ∘ f) k) ((maps f g).dem k) ((maps f g).svf k)).isSome :=
              fun k => hall (f k)
            rw [dif_pos hall']
            rw [← Except.ok.inj hc]
            rfl
          · cases hc
        · simp only [if_neg ht] at hc
          cases hc
      · rw [← Except.ok.inj hc]; rfl
      · rw [← Except.ok.inj hc]; rfl
      · rw [← Except.ok.inj hc]; rfl
    rw [h2]
    simp only at h ⊢
    rw [← Except.ok.inj h]
    congr 1
    unfold thermal
    have ht : ∀ (m : Thermal.Sky), Thermal.terrain m (if c.terrain = true then some (maps f g).svf else none) (ta ∘ f) (cth ∘ f) =
        Thermal.terrain m (if c.terrain = true then some g.svf else none) ta cth ∘ f := by
      intro m
      unfold Thermal.terrain
      by_cases ht : c.terrain = true
      · simp only [if_pos ht]
        by_cases hm : m = .marks1979
        · simp only [if_pos hm]
        · simp only [if_neg hm]; rfl
      · simp only [if_neg ht]
    rw [ht]
    cases c.cloud <;> cases c.veg <;> rfl

theorem albedo_crop (f : κ → ι) (a : Albedo.Cfg) (vt : ι → Int) (t : Int) (cz : Option (ι → ℝ)) (day : ι → ℝ)
    (v ir : ι → Option ℝ) (h : Albedo.distribute a vt t cz day = .ok (v, ir)) :
    Albedo.distribute a (vt ∘ f) t (cz.map (· ∘ f)) (day ∘ f) = .ok (v ∘ f, ir ∘ f) := by
  cases cz with
  | none =>
    simp only [Albedo.distribute, Except.ok.injEq, Prod.mk.injEq] at h
    obtain ⟨rfl, rfl⟩ := h
    rfl
  | some cz =>
    simp only [Albedo.distribute, Option.map_some] at h ⊢
    have halb : ∀ v0 ir0, Albedo.albedo day cz a.grain a.maxGrain a.dirt = .ok (v0, ir0) →
        Albedo.albedo (day ∘ f) (cz ∘ f) a.grain a.maxGrain a.dirt = .ok (v0 ∘ f, ir0 ∘ f) := by
      intro v0 ir0 h0
      unfold Albedo.albedo at h0 ⊢
      split_ifs at h0 ⊢ with h1 h2 h3
      cases e1 : Albedo.pySqrt a.grain with
      | error e => rw [e1] at h0; cases h0
      | ok r1 =>
        cases e2 : Albedo.pySqrt a.maxGrain with
        | error e => rw [e1, e2] at h0; cases h0
        | ok r2 =>
          cases e3 : Albedo.pySqrt (a.dirt * a.grain) with
          | error e => rw [e1, e2, e3] at h0; cases h0
          | ok r3 =>
            cases e4 : Albedo.pySqrt (a.dirt * a.maxGrain) with
            | error e => rw [e1, e2, e3, e4] at h0; cases h0
            | ok r4 =>
              rw [e1, e2, e3, e4] at h0
              have h5 := Except.ok.inj h0
              simp only [Prod.mk.injEq] at h5
              obtain ⟨rfl, rfl⟩ := h5
              rfl
    cases hal : Albedo.albedo day cz a.grain a.maxGrain a.dirt with
    | error e => rw [hal] at h; cases h
    | ok p =>
      obtain ⟨v0, ir0⟩ := p
      rw [hal] at h
      rw [halb v0 ir0 hal]
      simp only at h ⊢
      have key : ∀ (r : Except Albedo.Err ((ι → ℝ) × (ι → ℝ))) (r' : Except Albedo.Err ((κ → ℝ) × (κ → ℝ))),
          (∀ v1 ir1, r = .ok (v1, ir1) → r' = .ok (v1 ∘ f, ir1 ∘ f)) →
          (match r with
            | .error e => Except.error e
            | .ok (v', ir') => .ok (fun i => Utils.clampCell a.lo a.hi (some (v' i)), fun i => Utils.clampCell a.lo a.hi (some (ir' i)))) =
              Except.ok (v, ir) →
          (match r' with
            | .error e => Except.error e
            | .ok (v', ir') => .ok (fun i => Utils.clampCell a.lo a.hi (some (v' i)), fun i => Utils.clampCell a.lo a.hi (some (ir' i)))) =
              Except.ok (v ∘ f, ir ∘ f) := by
        intro r r' hr hm
        cases r with
        | error e => cases hm
        | ok p =>
          obtain ⟨v1, ir1⟩ := p
          rw [hr v1 ir1 rfl]
          simp only [Except.ok.injEq, Prod.mk.injEq] at hm ⊢
          obtain ⟨rfl, rfl⟩ := hm
          exact ⟨rfl, rfl⟩
      refine key _ _ ?_ h
      intro v1 ir1 hd
      cases hm : a.decay with
      | none =>
        rw [hm] at hd
        simp only [Except.ok.injEq, Prod.mk.injEq] at hd
        obtain ⟨rfl, rfl⟩ := hd
        rfl
      | date start stop pwr =>
        rw [hm] at hd
        simp only [Albedo.decayAlbPower] at hd ⊢
        have hdec : ∀ dec, Albedo.albDec a.veg vt start stop t pwr = .ok dec →
            Albedo.albDec a.veg (vt ∘ f) start stop t pwr = .ok (dec ∘ f) := by
          intro dec h0
          unfold Albedo.albDec at h0 ⊢
          simp only at h0 ⊢
          split_ifs at h0 ⊢
          · rw [← Except.ok.inj h0]; rfl
          · split at h0
            · cases h0
            · rw [← Except.ok.inj h0]; rfl
          · split at h0
            · cases h0
            · split at h0
              · cases h0
              · split at h0
                · cases h0
                · rw [← Except.ok.inj h0]; rfl
        cases hx : Albedo.albDec a.veg vt start stop t pwr with
        | error e => rw [hx] at hd; cases hd
        | ok dec =>
          rw [hx] at hd
          rw [hdec dec hx]
          simp only [Except.ok.injEq, Prod.mk.injEq] at hd ⊢
          obtain ⟨rfl, rfl⟩ := hd
          exact ⟨rfl, rfl⟩
      | hardy =>
        rw [hm] at hd
        simp only [Albedo.decayAlbHardy] at hd ⊢
        split at hd
        · cases hd
        · cases hd
        · simp only [Except.ok.injEq, Prod.mk.injEq] at hd
          obtain ⟨rfl, rfl⟩ := hd
          rfl

theorem twostreamAll_crop (f : κ → ι) (cosz s0 : ℝ) (tau : ι → ℝ) (omega g r0 : ℝ) (o : ι → Twostream.Out)
    (h : Twostream.twostreamAll cosz s0 tau omega g r0 = .ok o) :
    Twostream.twostreamAll cosz s0 (tau ∘ f) omega g r0 = .ok (o ∘ f) := by
  unfold Twostream.twostreamAll at h ⊢
  split at h
  · cases h
  · rename_i hn
    rw [dif_neg (fun ⟨k, e, he⟩ => hn ⟨f k, e, he⟩)]
    rw [← Except.ok.inj h]
    rfl

/-- The mean over the cells. -/
noncomputable def mean {α : Type} [Fintype α] (a : α → ℝ) : ℝ := (∑ i, a i) / Fintype.card α

theorem stoporad_crop [Fintype ι] [Fintype κ] (f : κ → ι) (p : Twostream.Clear) (T : Twostream.Topo ι) (s0 cosz : ℝ)
    (hidden : ι → Prop) (illum alb : ι → ℝ) (lo hi : ℝ) (hm : mean (alb ∘ f) = mean alb) (r : ι → ℝ × ℝ)
    (h : Twostream.stoporad p T s0 cosz hidden illum alb lo hi = .ok r) :
    Twostream.stoporad p ⟨T.dem ∘ f, T.svf ∘ f, T.tcf ∘ f⟩ s0 cosz (hidden ∘ f) (illum ∘ f) (alb ∘ f) lo hi = .ok (r ∘ f) := by
  unfold Twostream.stoporad at h ⊢
  cases hw : Twostream.checkWavelengths lo hi with
  | error e => rw [hw] at h; cases h
  | ok u =>
    rw [hw] at h
    simp only at h ⊢
    by_cases hc : cosz < 0
    · rw [if_pos hc] at h ⊢
      rw [← Except.ok.inj h]; rfl
    · rw [if_neg hc] at h ⊢
      have hm' : (∑ k, (alb ∘ f) k) / (Fintype.card κ : ℝ) = (∑ i, alb i) / (Fintype.card ι : ℝ) := hm
      rw [hm']
      cases ht : Twostream.twostreamAll cosz s0 (fun i => Twostream.tauAt p.tau p.tauElevation (T.dem i)) p.omega p.gamma
          ((∑ i, alb i) / (Fintype.card ι : ℝ)) with
      | error e => rw [ht] at h; cases h
      | ok o =>
        rw [ht] at h
        have h2 := twostreamAll_crop f _ _ _ _ _ _ o ht
        have h3 : Twostream.twostreamAll cosz s0 (fun k => Twostream.tauAt p.tau p.tauElevation ((T.dem ∘ f) k)) p.omega p.gamma
          ((∑ i, alb i) / (Fintype.card ι : ℝ)) = .ok (o ∘ f) := h2
        rw [h3]
        simp only at h ⊢
        rw [← Except.ok.inj h]
        rfl

theorem day_crop (f : κ → ι) (sc : Solar.Cfg) (veg : Solar.Veg ι) (st : Solar.Var → Solar.Attr ι) (clear : ι → Solar.Rad)
    (il cf av ai : ι → ℝ) : Solar.day sc ⟨veg.height ∘ f, veg.tau ∘ f, veg.k ∘ f⟩ (fun v => attr f (st v)) (clear ∘ f) (il ∘ f)
      (cf ∘ f) (av ∘ f) (ai ∘ f) = fun v => attr f (Solar.day sc veg st clear il cf av ai v) := by
  obtain ⟨cl, cc, cv, lo, hi⟩ := sc
  funext v
  cases v <;> cases cc <;> cases cv <;> rfl

theorem solar_crop [Fintype ι] [Fintype κ] (f : κ → ι) (S : Solar.Setup ι) (s0 : Twostream.Band → ℝ) (hidden : ι → Prop)
    (st st' : Solar.Var → Solar.Attr ι) (cf : ι → ℝ) (ill : Option (ι → ℝ)) (cosz : ℝ) (av ai : ι → ℝ)
    (hv : 0 < cosz → mean (av ∘ f) = mean av) (hi : 0 < cosz → mean (ai ∘ f) = mean ai)
    (h : Solar.distribute S.solar S.topo S.veg s0 hidden st cf ill cosz av ai = .ok st') :
    Solar.distribute (setup f S).solar (setup f S).topo (setup f S).veg s0 (hidden ∘ f) (fun v => attr f (st v)) (cf ∘ f)
      (ill.map (· ∘ f)) cosz (av ∘ f) (ai ∘ f) = .ok fun v => attr f (st' v) := by
  unfold Solar.distribute at h ⊢
  by_cases hc : 0 < cosz
  · rw [if_pos hc] at h ⊢
    cases ill with
    | none => cases h
    | some il =>
      simp only [Option.map_some] at h ⊢
      cases h1 : Twostream.stoporad S.solar.clear S.topo (s0 .ir) cosz hidden il ai (7 / 10) (28 / 10) with
      | error e => rw [h1] at h; cases h
      | ok ir =>
        rw [h1] at h
        simp only at h
        cases h2 : Twostream.stoporad S.solar.clear S.topo (s0 .vis) cosz hidden il av (28 / 100) (7 / 10) with
        | error e => rw [h2] at h; cases h
        | ok vis =>
          rw [h2] at h
          have e1 : Twostream.stoporad (setup f S).solar.clear (setup f S).topo (s0 .ir) cosz (hidden ∘ f) (il ∘ f) (ai ∘ f)
              (7 / 10) (28 / 10) = .ok (ir ∘ f) := stoporad_crop f _ _ _ _ _ _ _ _ _ (hi hc) _ h1
          have e2 : Twostream.stoporad (setup f S).solar.clear (setup f S).topo (s0 .vis) cosz (hidden ∘ f) (il ∘ f) (av ∘ f)
              (28 / 100) (7 / 10) = .ok (vis ∘ f) := stoporad_crop f _ _ _ _ _ _ _ _ _ (hv hc) _ h2
          rw [e1, e2]
          simp only at h ⊢
          rw [← Except.ok.inj h]
          congr 1
          exact day_crop f S.solar S.veg st (fun i => ⟨(vis i).1, (vis i).2, (ir i).1, (ir i).2⟩) il cf av ai
  · rw [if_neg hc] at h ⊢
    rw [← Except.ok.inj h]
    rfl

/-! ### Precipitation -/

section ppt
open scoped BigOperators
variable [Fintype ι] [Fintype κ]

theorem sum_zero {α : Type} [Fintype α] (a : α → ℝ) (h : ∀ i, 0 ≤ a i) : ∑ i, a i = 0 ↔ ¬ ∃ i, 0 < a i := by
  rw [Finset.sum_eq_zero_iff_of_nonneg fun i _ => h i]
  constructor
  · rintro h0 ⟨i, hi⟩
    rw [h0 i (Finset.mem_univ i)] at hi
    exact lt_irrefl _ hi
  · intro hn i _
    by_contra hc
    exact hn ⟨i, lt_of_le_of_ne (h i) (Ne.symm hc)⟩

omit [Fintype ι] [Fintype κ] in
/-- Something in the domain exactly when in the part. -/
theorem some_crop {P : ι → Prop} (f : κ → ι) (h : (∃ i, P i) → ∃ k, P (f k)) : (∃ k, P (f k)) ↔ ∃ i, P i :=
  ⟨fun ⟨k, hk⟩ => ⟨f k, hk⟩, h⟩

theorem marks_crop (f : κ → ι) (t p : ι → ℝ) (hr : (∃ i, 0 < p i) → ∃ k, 0 < p (f k)) :
    (Nasde.marks2017 (t ∘ f) (p ∘ f)).rhoS = (Nasde.marks2017 t p).rhoS ∘ f ∧
    (Nasde.marks2017 (t ∘ f) (p ∘ f)).pcs = (Nasde.marks2017 t p).pcs ∘ f := by
  unfold Nasde.marks2017
  by_cases hp : ∃ i, 0 < p i
  · have hp' : ∃ k, 0 < (p ∘ f) k := hr hp
    simp only [if_pos hp, if_pos hp']
    constructor
    · split_ifs with h1 h2 h2
      · rfl
      · exact absurd (h1.elim fun k hk => ⟨f k, hk⟩) h2
      · funext k
        have : ¬ 0 < p (f k) * Nasde.percentSnow 0 (Nasde.checkTemperature (K := ℝ) 0 (-10) (Nasde.checkTemperature (K := ℝ) 0 (-10) (t (f k))).1).1 :=
          fun hk => h1 ⟨k, hk⟩
        simp [Nasde.write, this]
      · rfl
    · split_ifs <;> rfl
  · have hp' : ¬ ∃ k, 0 < (p ∘ f) k := fun ⟨k, hk⟩ => hp ⟨f k, hk⟩
    simp only [if_neg hp, if_neg hp']
    exact ⟨rfl, rfl⟩

/-- `phase_and_density` as `precipStep` calls it. -/
noncomputable def phase {α : Type} [Fintype α] (m : String) (t p : α → ℝ) : (α → ℝ) × (α → ℝ) :=
  match Nasde.phaseAndDensity t p m with
  | .ok r => r
  | .error _ => (fun _ => 0, fun _ => 0)

theorem phase_crop (f : κ → ι) (m : String) (t p : ι → ℝ) (hp : ∀ i, 0 ≤ p i) (hr : (∃ i, 0 < p i) → ∃ k, 0 < p (f k)) :
    phase m (t ∘ f) (p ∘ f) = ((phase m t p).1 ∘ f, (phase m t p).2 ∘ f) := by
  unfold phase Nasde.phaseAndDensity
  by_cases h1 : m = "susong1999"
  · simp only [if_pos h1]
    have : ∀ k, Nasde.susong1999 (fun k => some ((t ∘ f) k)) (p ∘ f) k = Nasde.susong1999 (fun i => some (t i)) p (f k) := by
      intro k
      unfold Nasde.susong1999
      have e : ∑ k, (p ∘ f) k = 0 ↔ ∑ i, p i = 0 := by
        rw [sum_zero _ hp, sum_zero (a := p ∘ f) (fun k => hp (f k))]
        exact not_congr (some_crop f hr)
      by_cases h0 : ∑ i, p i = 0
      · rw [if_pos h0, if_pos (e.2 h0)]
      · rw [if_neg h0, if_neg (fun h => h0 (e.1 h))]
        rfl
    exact Prod.ext (funext fun k => congrArg Prod.snd (this k)) (funext fun k => congrArg Prod.fst (this k))
  · simp only [if_neg h1]
    by_cases h2 : m = "piecewise_susong1999"
    · simp only [if_pos h2]
      rfl
    · simp only [if_neg h2]
      by_cases h3 : m = "marks2017"
      · simp only [if_pos h3]
        obtain ⟨e1, e2⟩ := marks_crop f t p hr
        exact Prod.ext e1 e2
      · simp only [if_neg h3]
        rfl

theorem susong_crop (f : κ → ι) (pc : Precip.PCfg) (sum : D → ℝ) (dist : D → ι → ℝ) (m : String) (adj : D → D) (d : D)
    (temp : ι → ℝ) (s : Precip.PState ι) (hp : ∀ i, 0 ≤ dist d i) (hr : (∃ i, 0 < dist d i) → ∃ k, 0 < dist d (f k))
    (hsnow : (∃ i, 0 < (Precip.susongStep pc ⟨sum, dist, phase m, adj⟩ d temp s).perc i) →
      ∃ k, 0 < (Precip.susongStep pc ⟨sum, dist, phase m, adj⟩ d temp s).perc (f k)) :
    Precip.susongStep pc ⟨sum, fun d => dist d ∘ f, phase m, adj⟩ d (temp ∘ f) (ppt f s) =
      ppt f (Precip.susongStep pc ⟨sum, dist, phase m, adj⟩ d temp s) := by
  unfold Precip.susongStep at hsnow ⊢
  by_cases h0 : 0 < sum d
  · simp only [if_pos h0] at hsnow ⊢
    have hph := phase_crop f m temp (dist d) hp hr
    have hn : ∀ i, 0 ≤ (phase m temp (dist d)).2 i := fun i => (phase_range m temp (dist d) hp i).1
    have e : ∑ k, ((phase m temp (dist d)).2 ∘ f) k = 0 ↔ ∑ i, (phase m temp (dist d)).2 i = 0 := by
      rw [sum_zero _ hn, sum_zero (a := (phase m temp (dist d)).2 ∘ f) (fun k => hn (f k))]
      exact not_congr (some_crop f hsnow)
    rw [hph]
    unfold Storms.timeSinceStorm ppt
    simp only
    by_cases hz : ∑ i, (phase m temp (dist d)).2 i = 0
    · rw [if_pos hz, if_pos (e.2 hz)]
      rfl
    · rw [if_neg hz, if_neg (fun h => hz (e.1 h))]
      rfl
  · simp only [if_neg h0]
    rfl

theorem marksStep_crop (f : κ → ι) (pc : Precip.PCfg) (sum : D → ℝ) (dist : D → ι → ℝ) (m : String) (adj : D → D) (d : D)
    (storming : Bool) (total : Option (ι → ℝ)) (temp : ι → ℝ) (s : Precip.PState ι) (hp : ∀ i, 0 ≤ dist d i)
    (hr : (∃ i, 0 < dist d i) → ∃ k, 0 < dist d (f k)) (hc : (∃ i, temp i < 2) → ∃ k, temp (f k) < 2) :
    Precip.marksStep pc ⟨sum, fun d => dist d ∘ f, phase m, adj⟩ d storming (total.map (· ∘ f)) (temp ∘ f) (ppt f s) =
      ppt f (Precip.marksStep pc ⟨sum, dist, phase m, adj⟩ d storming total temp s) := by
  unfold Precip.marksStep
  by_cases h0 : 0 < sum d
  · simp only [if_pos h0]
    have hph := phase_crop f m temp (dist d) hp hr
    have e : (∃ k, (temp ∘ f) k < 2) ↔ ∃ i, temp i < 2 := some_crop f hc
    have e' : Storms.coldSomewhere (temp ∘ f) ↔ Storms.coldSomewhere temp := e
    simp only [hph, e, Storms.timeSinceStormPixel, e']
    unfold ppt
    by_cases h1 : ∃ i, temp i < 2 <;> cases storming <;> cases total <;> simp [h1, Storms.coldSomewhere] <;>
      first | rfl | exact ⟨rfl, rfl⟩
  · simp only [if_neg h0]
    rfl

/-- In a cell that is not colder than the limit nothing is redistributed. -/
theorem redist_warm (c : Cfg ι D) (x : In ι D) (dew wind p : ι → ℝ) (i : ι) (h : ¬ dew i < 1 / 2) : redist c x dew wind p i = p i := by
  unfold redist Precip.driftCell
  have h1 : (1 / 2 : ℝ) ≤ dew i := not_lt.1 h
  simp only [decide_eq_true h1, if_true]

/-- The precipitation step on a part that has rain, snow and cold cells when the domain has. -/
theorem precipStep_crop (f : κ → ι) (c : Cfg ι D) (x : In ι D) (dew temp wind : ι → ℝ) (s p : Precip.PState ι)
    (hp : ∀ i, 0 ≤ amount c x i) (hr : (∃ i, 0 < amount c x i) → ∃ k, 0 < amount c x (f k))
    (hsnow : (∃ i, 0 < p.perc i) → ∃ k, 0 < p.perc (f k)) (hc : (∃ i, temp i < 2) → ∃ k, temp (f k) < 2)
    (h : precipStep c x dew temp wind s = .ok p) :
    precipStep (cfg f c) (input f x) (dew ∘ f) (temp ∘ f) (wind ∘ f) (ppt f s) = .ok (ppt f p) := by
  unfold precipStep at h ⊢
  by_cases h1 : c.nasde ≠ "susong1999" ∧ c.nasde ≠ "piecewise_susong1999" ∧ c.nasde ≠ "marks2017"
  · rw [if_pos h1] at h; cases h
  · rw [if_neg h1] at h
    rw [if_neg (show ¬ ((cfg f c).nasde ≠ "susong1999" ∧ (cfg f c).nasde ≠ "piecewise_susong1999" ∧ (cfg f c).nasde ≠ "marks2017") from h1)]
    by_cases h2 : c.ppt.winstral = true ∧ (∃ i, dew i < 1 / 2) ∧ ¬ ∀ i, (Precip.dirIndex c.dirs (x.dirRound i)).isSome
    · rw [if_pos h2] at h; cases h
    · rw [if_neg h2] at h
      rw [if_neg (show ¬ ((cfg f c).ppt.winstral = true ∧ (∃ k, (dew ∘ f) k < 1 / 2) ∧
          ¬ ∀ k, (Precip.dirIndex (cfg f c).dirs ((input f x).dirRound k)).isSome) from
        fun ⟨a, ⟨k, hk⟩, b⟩ => h2 ⟨a, ⟨f k, hk⟩, fun hall => b fun k => hall (f k)⟩)]
      have h3 := Except.ok.inj h
      set env : Precip.PEnv ι D := ⟨c.sum, fun d => c.precip.cut (c.interp d), phase c.nasde, c.adjust⟩ with henv
      set env' : Precip.PEnv κ D := ⟨c.sum, fun d => (c.precip.cut (c.interp d)) ∘ f, phase c.nasde, c.adjust⟩ with henv'
      have e1 : p = Precip.pptStep c.ppt env ⟨x.precip, x.clipped, x.storming, x.stormTotal, temp, dew, redist c x dew wind⟩ s := h3.symm
      suffices hgoal : Precip.pptStep c.ppt env' ⟨x.precip, x.clipped, x.storming, x.stormTotal.map (· ∘ f), temp ∘ f, dew ∘ f,
        redist (cfg f c) (input f x) (dew ∘ f) (wind ∘ f)⟩ (ppt f s) = ppt f p from congrArg Except.ok hgoal
      -- the state before the wind
      let s1 : Precip.PState ι :=
        if c.ppt.grid = false then
          if c.ppt.marks = true then
            Precip.marksStep c.ppt env (if c.ppt.undercatch = true then c.adjust x.clipped else x.clipped) x.storming x.stormTotal temp s
          else if c.ppt.undercatch = true then Precip.susongStep c.ppt env (c.adjust x.precip) temp s
          else s
        else Precip.susongStep c.ppt env x.precip temp s
      let s1' : Precip.PState κ :=
        if c.ppt.grid = false then
          if c.ppt.marks = true then
            Precip.marksStep c.ppt env' (if c.ppt.undercatch = true then c.adjust x.clipped else x.clipped) x.storming
              (x.stormTotal.map (· ∘ f)) (temp ∘ f) (ppt f s)
          else if c.ppt.undercatch = true then Precip.susongStep c.ppt env' (c.adjust x.precip) (temp ∘ f) (ppt f s)
          else ppt f s
        else Precip.susongStep c.ppt env' x.precip (temp ∘ f) (ppt f s)
      have e2 : p = if c.ppt.winstral = true ∧ ∃ i, dew i < 1 / 2 then { s1 with precip := redist c x dew wind s1.precip } else s1 := e1
      have hperc : p.perc = s1.perc := by
        rw [e2]
        by_cases hh : c.ppt.winstral = true ∧ ∃ i, dew i < 1 / 2
        · rw [if_pos hh]
        · rw [if_neg hh]
      have hs1 : s1' = ppt f s1 := by
        rw [hperc] at hsnow
        simp only [s1, s1'] at hsnow ⊢
        unfold amount used at hp hr
        cases hg : c.ppt.grid with
        | true =>
          simp only [hg, reduceCtorEq, if_true, if_false] at hsnow hp hr ⊢
          exact susong_crop f c.ppt c.sum _ c.nasde c.adjust x.precip temp s hp hr hsnow
        | false =>
          cases hm : c.ppt.marks with
          | true =>
            simp only [hg, hm, reduceCtorEq, if_true, if_false] at hp hr ⊢
            exact marksStep_crop f c.ppt c.sum _ c.nasde c.adjust _ x.storming x.stormTotal temp s hp hr hc
          | false =>
            cases hu : c.ppt.undercatch with
            | true =>
              simp only [hg, hm, hu, reduceCtorEq, if_true, if_false] at hsnow hp hr ⊢
              exact susong_crop f c.ppt c.sum _ c.nasde c.adjust (c.adjust x.precip) temp s hp hr hsnow
            | false => simp
      have e3 : Precip.pptStep c.ppt env' ⟨x.precip, x.clipped, x.storming, x.stormTotal.map (· ∘ f), temp ∘ f, dew ∘ f,
          redist (cfg f c) (input f x) (dew ∘ f) (wind ∘ f)⟩ (ppt f s) =
          if c.ppt.winstral = true ∧ ∃ k, (dew ∘ f) k < 1 / 2 then
            { s1' with precip := redist (cfg f c) (input f x) (dew ∘ f) (wind ∘ f) s1'.precip } else s1' := rfl
      rw [e3, hs1, e2]
      by_cases hw : c.ppt.winstral = true
      · by_cases hk : ∃ k, (dew ∘ f) k < 1 / 2
        · have hi : ∃ i, dew i < 1 / 2 := hk.elim fun k hk => ⟨f k, hk⟩
          rw [if_pos ⟨hw, hk⟩, if_pos ⟨hw, hi⟩]
          rfl
        · rw [if_neg (fun h => hk h.2)]
          by_cases hi : ∃ i, dew i < 1 / 2
          · rw [if_pos ⟨hw, hi⟩]
            unfold ppt
            simp only [Precip.PState.mk.injEq, and_true]
            funext k
            exact (redist_warm c x dew wind s1.precip (f k) (fun h => hk ⟨k, h⟩)).symm
          · rw [if_neg (fun h => hi h.2)]
      · rw [if_neg (fun h => hw h.1), if_neg (fun h => hw h.1)]

end ppt

end Verif.Crop
